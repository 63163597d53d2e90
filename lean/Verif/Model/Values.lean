import Verif.Model.Regex
import Verif.Model.StringUtils
/-!
# Models of the value classes (contents only)

`MessageAddress`, `Credential`, `Attachment`: what their constructors accept and what their getters show. Ownership of the
memory behind them is modelled separately in `Verif.Model.Heap`.
A `const char*` is an `Option Bytes`: `none` is the null pointer, `some m` points to memory `m` followed by a NUL.
-/
namespace Verif.Model
open Verif

/-- `strlen`/`std::string` on a pointer; undefined behaviour for null. -/
def readCStr (p : Option Bytes) : Except Fail Bytes :=
  match p with
  | none => .error (.ub .nullDeref)
  | some m => .ok (cstr m)

/-- `StringUtils::trim(s).empty()`. -/
def trimEmpty (s : Bytes) : Except Fail Bool :=
  match trim s with
  | .error u => .error (.ub u)
  | .ok t => .ok t.isEmpty

/-- Fields of `MessageAddress`, messageaddress.h:66-67, as the C strings they point to. -/
structure MessageAddress where
  email : Bytes
  displayName : Bytes
  deriving DecidableEq, Repr

/-- `MessageAddress::isEmailAddressValid`, messageaddress.cpp:119-122. -/
def isEmailAddressValid (email : Bytes) : Bool := emailPattern.fullMatch (toLower email)

/-- `MessageAddress::MessageAddress`, messageaddress.cpp:10-31. -/
def MessageAddress.new (pEmail pName : Option Bytes) : Except Fail MessageAddress := do
  let email ← readCStr pEmail
  if email.length = 0 then throw .invalidArgument
  if ← trimEmpty email then throw .invalidArgument
  if !isEmailAddressValid email then throw .invalidArgument
  let name ← readCStr pName
  return { email := email, displayName := name }

/-- `MessageAddress::operator std::string`, messageaddress.cpp:100-109. -/
def MessageAddress.toText (a : MessageAddress) : Bytes :=
  if a.displayName.isEmpty then a.email else a.displayName ++ b!" <" ++ a.email ++ b!">"

/-- `enum class RecommendedAuthenticationMethod`, credential.h:22-30. -/
inductive AuthMethod where
  | implicit
  | plain
  | login
  | xoauth2
  | plainClientToken
  | oauthBearer
  | xoauth
  deriving DecidableEq, Repr

/-- Fields of `Credential`, credential.h, as the C strings they point to. -/
structure Credential where
  username : Bytes
  password : Bytes
  method : AuthMethod := .implicit
  deriving DecidableEq, Repr

/-- The test for user and server names, credential.cpp:13-16 and 125-128, smtpclientbase.cpp:56-59 and 259-262: throws when the
pointer is null or the text is empty or all white space; otherwise the text is copied. -/
def checkName (p : Option Bytes) : Except Fail Bytes :=
  match p with
  | none => .error .invalidArgument
  | some m => do
    let s := cstr m
    if s.length = 0 then throw .invalidArgument
    if ← trimEmpty s then throw .invalidArgument
    return s

/-- The test for passwords, credential.cpp:18-20 and 138-140. -/
def checkPassword (p : Option Bytes) : Except Fail Bytes :=
  match p with
  | none => .error .invalidArgument
  | some m => if (cstr m).length = 0 then .error .invalidArgument else .ok (cstr m)

/-- `Credential::Credential`, credential.cpp:9-31 and 54-58. -/
def Credential.new (pUser pPass : Option Bytes) (m : AuthMethod := .implicit) : Except Fail Credential := do
  let u ← checkName pUser
  let p ← checkPassword pPass
  return { username := u, password := p, method := m }

/-- `Credential::setUsername`, credential.cpp:124-135: result and object afterwards. -/
def Credential.setUsername (c : Credential) (p : Option Bytes) : Except Fail Unit × Credential :=
  match checkName p with
  | .error e => (.error e, c)
  | .ok u => (.ok (), { c with username := u })

/-- `Credential::setPassword`, credential.cpp:137-147. -/
def Credential.setPassword (c : Credential) (p : Option Bytes) : Except Fail Unit × Credential :=
  match checkPassword p with
  | .error e => (.error e, c)
  | .ok u => (.ok (), { c with password := u })

/-- `Credential::setRecommendedAuthOption`, credential.cpp:149-152. -/
def Credential.setMethod (c : Credential) (m : AuthMethod) : Except Fail Unit × Credential := (.ok (), { c with method := m })

/-- A setter call on a credential, credential.cpp:124-152. -/
inductive CredCall where
  | username (p : Option Bytes)
  | password (p : Option Bytes)
  | method (m : AuthMethod)
  deriving DecidableEq, Repr

/-- One setter call, credential.cpp:124-152. -/
def Credential.doCall (c : Credential) : CredCall → Except Fail Unit × Credential
  | .username p => c.setUsername p
  | .password p => c.setPassword p
  | .method m => c.setMethod m

/-- A sequence of setter calls; the caller catches the exceptions and goes on. -/
def Credential.runCalls : List CredCall → Credential → Except UB Credential
  | [], c => .ok c
  | o :: os, c =>
    match c.doCall o with
    | (.error (.ub u), _) => .error u
    | (_, c') => Credential.runCalls os c'

/-- Fields of `Attachment`, attachment.h, as the C strings they point to. -/
structure Attachment where
  filename : Bytes
  name : Bytes
  contentId : Bytes
  deriving DecidableEq, Repr

/-- `Attachment::Attachment`, attachment.cpp:11-32. -/
def Attachment.new (pFile pName pId : Option Bytes) : Except Fail Attachment := do
  let f ← readCStr pFile
  if f.length = 0 then throw .invalidArgument
  if ← trimEmpty f then throw .invalidArgument
  let n ← readCStr pName
  let i ← readCStr pId
  return { filename := f, name := n, contentId := i }

/-- `Attachment::setContentId`, attachment.cpp:113-118. -/
def Attachment.setContentId (a : Attachment) (p : Option Bytes) : Except Fail Unit × Attachment :=
  match readCStr p with
  | .error e => (.error e, a)
  | .ok s => (.ok (), { a with contentId := s })

end Verif.Model
