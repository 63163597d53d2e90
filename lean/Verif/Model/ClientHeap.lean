import Verif.Model.MessageHeap
import Verif.Model.World
/-!
# Client objects on the heap

The members of `SMTPClientBase` that own memory (server name, communication log, last server response, authentication options, credential) on the
heap of `Verif.Model.Heap`, its special member functions, its setters, and what a session does to this memory. The derived classes add no member
that owns heap memory of this kind; sockets and TLS objects are in `Verif.Model.Session`. Members that are plain numbers are left out, so are the
contents of `ServerAuthOptions` (three flags) and the authentication method of the credential. How much of the log buffer is used is in
`Verif.Model.Log`; here the log is a block with a text.
-/
namespace Verif.Model
open Verif

/-- The pointers of a client object, smtpclientbase.h:207-216. -/
structure ClientObj where
  name : Ptr
  log : Ptr
  response : Ptr
  auth : Ptr
  credential : Ptr
  deriving DecidableEq, Repr

/-- Clients by name. -/
abbrev Clients := Nat → Option ClientObj

/-- Rebind a name. -/
def setClient (o : Clients) (x : Nat) (v : Option ClientObj) : Clients := fun y => if y = x then v else o y

/-- An argument of `setServerName`: the caller's own memory, or what `getServerName` or `getCommunicationLog` of a client returned
(smtpclientbase.cpp:230-232, 246-248). -/
inductive NameArg where
  | text (s : Bytes)
  | nameOf (x : Nat)
  | logOf (x : Nat)
  deriving DecidableEq, Repr

/-- An argument of `setCredentials`: a credential of the caller, or `*getCredentials()` of a client (smtpclientbase.cpp:250-252). -/
inductive CredArg where
  | texts (user password : Bytes)
  | of (x : Nat)
  deriving DecidableEq, Repr

/-- The text an argument of `setServerName` points to. An absent log is given out as the literal `""`. -/
def readName (o : Clients) : NameArg → H Bytes
  | .text s => pure s
  | .nameOf x =>
    match o x with
    | none => failH .deadRead
    | some v => readText v.name
  | .logOf x =>
    match o x with
    | none => failH .deadRead
    | some v => if v.log = none then pure [] else readText v.log

/-- The constructor, smtpclientbase.cpp:42-64, with an accepted name; a constructor that throws leaves no memory behind. -/
def ClientObj.construct (o : Clients) (t : NameArg) : H ClientObj := do
  let s ← readName o t
  let a ← alloc (.chars s)
  pure { name := some a, log := none, response := none, auth := none, credential := none }

/-- The destructor, smtpclientbase.cpp:66-77, and the same statements in the move assignment, smtpclientbase.cpp:191-195. -/
def ClientObj.destroy (c : ClientObj) : H Unit := do
  deleteArray c.name
  deleteArray c.log
  deleteArray c.response
  deleteObject c.auth
  deleteObject c.credential

/-- `p != nullptr ? new char[strlen(p) + 1] : nullptr` with the copy of the text, smtpclientbase.cpp:85, 87, 98-108 and 126-139. -/
def copyTextIfSet (p : Ptr) : H Ptr := if p = none then pure none else copyText p

/-- `p != nullptr ? new T(*p) : nullptr`, smtpclientbase.cpp:90-91, 144 and 146. -/
def copyObjectIfSet (p : Ptr) : H Ptr := if p = none then pure none else copyObject p

/-- The copy constructor, smtpclientbase.cpp:80-111. -/
def ClientObj.copy (c : ClientObj) : H ClientObj := do
  let name ← copyText c.name
  let log ← copyTextIfSet c.log
  let response ← copyTextIfSet c.response
  let auth ← copyObjectIfSet c.auth
  let credential ← copyObjectIfSet c.credential
  pure { name := name, log := log, response := response, auth := auth, credential := credential }

/-- The copy assignment, smtpclientbase.cpp:114-153, when the objects are not the same: the old log, response and credential are not deleted. -/
def ClientObj.assign (self other : ClientObj) : H ClientObj := do
  deleteArray self.name
  let name ← copyText other.name
  let log ← copyTextIfSet other.log
  let response ← copyTextIfSet other.response
  deleteObject self.auth
  let auth ← copyObjectIfSet other.auth
  let credential ← copyObjectIfSet other.credential
  pure { name := name, log := log, response := response, auth := auth, credential := credential }

/-- What a move leaves behind, smtpclientbase.cpp:172-184 and 215-227. -/
def ClientObj.emptied : ClientObj := { name := none, log := none, response := none, auth := none, credential := none }

/-- The move constructor, smtpclientbase.cpp:156-186. -/
def ClientObj.move (c : ClientObj) : H (ClientObj × ClientObj) := pure (c, .emptied)

/-- The move assignment, smtpclientbase.cpp:189-228, when the objects are not the same. -/
def ClientObj.moveAssign (self other : ClientObj) : H (ClientObj × ClientObj) := do
  self.destroy
  pure (other, .emptied)

/-- `setServerName` with an accepted name, smtpclientbase.cpp:258-268: the argument is read for the checks, the old name is deleted, the argument is
read again. -/
def ClientObj.setName (o : Clients) (c : ClientObj) (t : NameArg) : H ClientObj := do
  let _ ← readName o t
  deleteArray c.name
  let s ← readName o t
  let a ← alloc (.chars s)
  pure { c with name := some a }

/-- The copy of the argument of `setCredentials`. -/
def copyCredential (o : Clients) : CredArg → H Ptr
  | .texts u p => do
    let fs ← newFields [u, p]
    let a ← alloc (.obj fs)
    pure (some a)
  | .of x =>
    match o x with
    | none => failH .deadRead
    | some v => copyObject v.credential

/-- `setCredentials`, smtpclientbase.cpp:278-281: the old credential is deleted, then the argument copied. -/
def ClientObj.setCredential (o : Clients) (c : ClientObj) (t : CredArg) : H ClientObj := do
  deleteObject c.credential
  let p ← copyCredential o t
  pure { c with credential := p }

/-- Writing into a block of text. -/
def writeText (p : Ptr) (s : Bytes) : H Unit :=
  match p with
  | none => failH .null
  | some a => fun h => match h.mem a with
    | some (.chars _) => .ok ((), { h with mem := fun x => if x = a then some (.chars s) else h.mem x })
    | some _ => .error .mismatch
    | none => .error .deadRead

/-- `ParseAuthenticationOptions`, smtpclientbase.cpp:1081-1118: `new ServerAuthOptions()` for a line that begins with one of the prefixes, else null. -/
def newOptions (line : Bytes) : H Ptr :=
  if line.take 8 = b!"250-AUTH" ∨ line.take 8 = b!"250 AUTH" then do
    let a ← alloc (.obj [])
    pure (some a)
  else pure none

/-- The loop of `extractAuthenticationOptions`, smtpclientbase.cpp:1128-1139, with `retVal`. The result of the parse of a line replaces `retVal`
without a `delete`. As in `extractAuthLoop`, `fuel` counts rounds. -/
def extractOptionsLoop : Nat → Bytes → Ptr → H Ptr
  | 0, _, ret => pure ret
  | fuel + 1, s, ret =>
    match findSub b!"\r\n" s with
    | none => pure ret
    | some i => do
      let parsed ← newOptions (s.take i)
      if parsed ≠ none then pure parsed
      else do
        let s' := s.drop (i + 2)
        let ret' ← if !s'.isEmpty && ret.isNone then newOptions s' else pure ret
        extractOptionsLoop fuel s' ret'

/-- * `freshLog`: the beginning of `initializeSession`, smtpclientbase.cpp:376-379;
* `log`: `addCommunicationLogItem`, smtpclientbase.cpp:1024-1043: the text is read, and the new one is written into the old buffer or into a new one;
* `response`: `setLastServerResponse`, smtpclientbase.cpp:752-758;
* `options`: `setAuthenticationOptions(extractAuthenticationOptions(...))`, smtpclientbase.cpp:310-313, 643, 1120-1141 and
  securesmtpclientbase.cpp:284. -/
def ClientObj.session (c : ClientObj) : SessionOp → H ClientObj
  | .freshLog => do
    deleteArray c.log
    let a ← alloc (.chars [])
    pure { c with log := some a }
  | .log grow s => do
    let _ ← readText c.log
    if grow then
      let a ← alloc (.chars s)
      deleteArray c.log
      pure { c with log := some a }
    else
      writeText c.log s
      pure c
  | .response s => do
    deleteArray c.response
    let a ← alloc (.chars s)
    pure { c with response := some a }
  | .options text => do
    let p ← extractOptionsLoop text.length text none
    deleteObject c.auth
    pure { c with auth := p }

/-- Operations of a program on clients with names. -/
inductive COp where
  | create (x : Nat) (t : NameArg)
  | copy (x y : Nat)
  | assign (x y : Nat)
  | move (x y : Nat)
  | moveAssign (x y : Nat)
  | setName (x : Nat) (t : NameArg)
  | setCredential (x : Nat) (t : CredArg)
  | session (x : Nat) (op : SessionOp)
  | destroy (x : Nat)
  deriving DecidableEq, Repr

/-- One operation. -/
def cstep (o : Clients) : COp → H Clients
  | .create x t => do pure (setClient o x (some (← ClientObj.construct o t)))
  | .copy x y =>
    match o y with
    | some w => do pure (setClient o x (some (← w.copy)))
    | none => failH .deadRead
  | .assign x y =>
    match o x, o y with
    | some v, some w => if x = y then pure o else do pure (setClient o x (some (← v.assign w)))
    | _, _ => failH .deadRead
  | .move x y =>
    match o y with
    | some w => do
      let r ← w.move
      pure (setClient (setClient o y (some r.2)) x (some r.1))
    | none => failH .deadRead
  | .moveAssign x y =>
    match o x, o y with
    | some v, some w => if x = y then pure o else do
      let r ← v.moveAssign w
      pure (setClient (setClient o y (some r.2)) x (some r.1))
    | _, _ => failH .deadRead
  | .setName x t =>
    match o x with
    | some v => do pure (setClient o x (some (← v.setName o t)))
    | none => failH .deadRead
  | .setCredential x t =>
    match o x with
    | some v => do pure (setClient o x (some (← v.setCredential o t)))
    | none => failH .deadRead
  | .session x op =>
    match o x with
    | some v => do pure (setClient o x (some (← v.session op)))
    | none => failH .deadRead
  | .destroy x =>
    match o x with
    | some v => do
      v.destroy
      pure (setClient o x none)
    | none => failH .deadRead

/-- A program. -/
def crun (o : Clients) : List COp → H Clients
  | [] => pure o
  | p :: ps => do
    let o' ← cstep o p
    crun o' ps

end Verif.Model
