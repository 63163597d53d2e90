import Verif.Model.Session
/-!
# The C++ API: messages, credentials and client wrappers (contents only)

The classes in `src/cpp` are thin layers over the classes of the library: `cpp::MessageAddress`, `cpp::Attachment` and
`cpp::Credential` derive from them and add no member, so the models of the base classes are used for them. A `std::string`
argument `s` reaches the base class as `s.c_str()`, which is never null and ends at the first NUL.
-/
namespace Verif.Model
open Verif

/-- The two concrete message classes, cpp/plaintextmessage.hpp and cpp/htmlmessage.hpp. -/
inductive MessageClass where
  | plain
  | html
  deriving DecidableEq, Repr

/-- Members of `cpp::Message`, cpp/message.hpp, with the concrete class. -/
structure CppMessage where
  cls : MessageClass
  «from» : MessageAddress
  to : List MessageAddress
  subject : Bytes
  body : Bytes
  cc : List MessageAddress
  bcc : List MessageAddress
  attachments : List Attachment
  deriving DecidableEq, Repr

/-- The constructors, cpp/message.cpp:8-25, cpp/plaintextmessage.cpp:6-20, cpp/htmlmessage.cpp:9-24. -/
def CppMessage.new (cls : MessageClass) (frm : MessageAddress) (to : List MessageAddress) (subject body : Bytes)
    (cc bcc : List MessageAddress) (att : List Attachment) : Except Fail CppMessage :=
  if to.isEmpty then .error .invalidArgument
  else .ok { cls := cls, «from» := frm, to := to, subject := subject, body := body, cc := cc, bcc := bcc, attachments := att }

/-- `getMimeType`, cpp/plaintextmessage.cpp:22-24, cpp/htmlmessage.cpp:26-28. -/
def CppMessage.mimeType (m : CppMessage) : Bytes :=
  match m.cls with
  | .plain => b!"text/plain"
  | .html => b!"text/html"

/-- `toStdMessageAddress`, cpp/messageaddress.cpp:23-26. -/
def MessageAddress.toStd (a : MessageAddress) : Except Fail MessageAddress := MessageAddress.new (some a.email) (some a.displayName)

/-- `toStdAttachment`, cpp/attachment.cpp:34-38. -/
def Attachment.toStd (a : Attachment) : Except Fail Attachment := Attachment.new (some a.filename) (some a.name) (some a.contentId)

/-- `getStdMessageAddressVec`, cpp/message.cpp:71-78. -/
def stdAddresses : List MessageAddress → Except Fail (List MessageAddress)
  | [] => .ok []
  | a :: as =>
    match a.toStd with
    | .error e => .error e
    | .ok b =>
      match stdAddresses as with
      | .error e => .error e
      | .ok bs => .ok (b :: bs)

/-- `getStdAttachmentVec`, cpp/message.cpp:80-87. -/
def stdAttachments : List Attachment → Except Fail (List Attachment)
  | [] => .ok []
  | a :: as =>
    match a.toStd with
    | .error e => .error e
    | .ok b =>
      match stdAttachments as with
      | .error e => .error e
      | .ok bs => .ok (b :: bs)

/-- `std::vector::data()`: for an empty vector it may or may not be null, that is left open by the flag. -/
def vectorData {α : Type} (nullIfEmpty : Bool) (l : List α) : Option (List α) :=
  if l.isEmpty && nullIfEmpty then none else some l

/-- `operator jed_utils::PlaintextMessage`, cpp/plaintextmessage.cpp:26-43, and `operator jed_utils::HTMLMessage`,
cpp/htmlmessage.cpp:30-47. The result is copied once more, which keeps its contents (`Verif.Props.Mails`). -/
def CppMessage.convert (nullIfEmpty : Bool) (m : CppMessage) : Except Fail Message := do
  let to ← stdAddresses m.to
  let cc ← stdAddresses m.cc
  let bcc ← stdAddresses m.bcc
  let att ← stdAttachments m.attachments
  let frm ← m.from.toStd
  return Message.new frm (vectorData nullIfEmpty to) to.length (some m.subject) (some m.body)
    (vectorData nullIfEmpty cc) cc.length (vectorData nullIfEmpty bcc) bcc.length (vectorData nullIfEmpty att) att.length
    (match m.cls with | .plain => mimePlain | .html => mimeHtml)

/-- The credential which `setCredentials` of a cpp client hands to the base class: cpp/smtpclient.cpp:51-52,
cpp/opportunisticsecuresmtpclient.cpp:55-57, cpp/forcedsecuresmtpclient.cpp:55-57. `cpp::SmtpClient` uses the constructor without
the recommended method. -/
def cppCredential (k : Kind) (c : Credential) : Except Fail Credential :=
  match k with
  | .smtp => Credential.new (some c.username) (some c.password)
  | .opportunistic | .forced => Credential.new (some c.username) (some c.password) c.method

/-- A call on a cpp client in terms of a call on its base class: cpp/smtpclient.cpp:34-60 and the same in the other two. All other
functions are passed on unchanged. -/
def cppCall (k : Kind) : Call → Except Fail Call
  | .setCredentials c =>
    match cppCredential k c with
    | .error e => .error e
    | .ok c' => .ok (.setCredentials c')
  | c => .ok c

/-- One call on a cpp client of class `k`. -/
def doCppCall (k : Kind) (c : Call) : M CallRes :=
  match cppCall k c with
  | .error .invalidArgument => pure .threw
  | .error (.ub u) => M.stop (.ub u)
  | .ok c' => doCall c'

/-- A sequence of calls on one cpp client. -/
def runCppCalls (k : Kind) : List Call → M (List CallRes)
  | [] => pure []
  | c :: cs => do
    let r ← doCppCall k c
    let rs ← runCppCalls k cs
    pure (r :: rs)

/-- The life of a cpp client. -/
def cppLife (k : Kind) (cs : List Call) : M (List CallRes) := do
  let rs ← runCppCalls k cs
  destroy
  pure rs

end Verif.Model
