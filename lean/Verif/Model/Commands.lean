import Verif.Model.Values
import Verif.Model.Base64
/-!
# Texts the client sends

Messages (contents only) and the text of every command, header and body. The functions that send them are in
`Verif.Model.Session`.
-/
namespace Verif.Model
open Verif

/-- A C array member of `Message` with its length (message.h): `ptr = none` is a null pointer. The constructor copies the array
only when the pointer is not null but stores the count in any case (message.cpp:22-89). -/
structure Arr (α : Type) where
  ptr : Option (List α)
  count : Nat
  deriving DecidableEq, Repr

/-- What a caller's array looks like to the constructor (message.cpp:62-88): the first `count` elements are read. Precondition on
the caller: a non-null array has at least `count` elements. -/
def Arr.ofArgs {α : Type} (p : Option (List α)) (count : Nat) : Arr α := { ptr := p.map (·.take count), count := count }

/-- Contents of a `Message`, message.h and message.cpp:348-390. `mime` is the value of the virtual function `getMimeType`:
plaintextmessage.cpp:30-32 and htmlmessage.cpp:30-32. -/
structure Message where
  «from» : MessageAddress
  to : Arr MessageAddress
  cc : Arr MessageAddress
  bcc : Arr MessageAddress
  subject : Bytes
  body : Bytes
  attachments : Arr Attachment
  mime : Bytes
  deriving DecidableEq, Repr

/-- `Message::Message`, message.cpp:22-89: null subject and body become empty texts. -/
def Message.new (frm : MessageAddress) (to : Option (List MessageAddress)) (toCount : Nat) (subject body : Option Bytes)
    (cc : Option (List MessageAddress)) (ccCount : Nat) (bcc : Option (List MessageAddress)) (bccCount : Nat)
    (att : Option (List Attachment)) (attCount : Nat) (mime : Bytes) : Message :=
  { «from» := frm, to := .ofArgs to toCount, cc := .ofArgs cc ccCount, bcc := .ofArgs bcc bccCount,
    subject := (subject.map cstr).getD [], body := (body.map cstr).getD [], attachments := .ofArgs att attCount, mime := mime }

/-- `PlaintextMessage::getMimeType`, plaintextmessage.cpp:30-32. -/
def mimePlain : Bytes := b!"text/plain"

/-- `HTMLMessage::getMimeType`, htmlmessage.cpp:30-32. -/
def mimeHtml : Bytes := b!"text/html"

/-- The three MAIL FROM forms, smtpclientbase.cpp:844-846. -/
def mailFormats (f : MessageAddress) : List Bytes :=
  [b!"MAIL FROM: <" ++ f.email ++ b!">\r\n",
   b!"MAIL FROM: <" ++ f.displayName ++ b!" " ++ f.email ++ b!">\r\n",
   b!"MAIL FROM: " ++ f.email ++ b!"\r\n"]

/-- smtpclientbase.cpp:887. -/
def rcptTo (a : MessageAddress) : Bytes := b!"RCPT TO: <" ++ a.email ++ b!">\r\n"

/-- `generateHeaderAddressValues`, smtpclientbase.cpp:1143-1154: the loop, with its index. -/
def headerAddressLoop : Nat → List MessageAddress → Bytes
  | _, [] => []
  | i, a :: as => (if i > 0 then b!", " else []) ++ a.toText ++ headerAddressLoop (i + 1) as

/-- `generateHeaderAddressValues`, smtpclientbase.cpp:1143-1154. -/
def generateHeaderAddressValues (l : List MessageAddress) : Bytes := headerAddressLoop 0 l

/-- Header line, smtpclientbase.cpp:953-954. -/
def headerLine (field value : Bytes) : Bytes := field ++ b!": " ++ value ++ b!"\r\n"

/-- From header value, smtpclientbase.cpp:908-914. -/
def fromHeaderValue (f : MessageAddress) : Bytes :=
  if f.displayName.length > 0 then f.displayName ++ b!" <" ++ f.email ++ b!">" else f.email

/-- Subject line, smtpclientbase.cpp:934. -/
def subjectLine (s : Bytes) : Bytes := b!"Subject: " ++ s ++ b!"\r\n"

/-- smtpclientbase.cpp:942. -/
def contentTypeLine : Bytes := b!"Content-Type: multipart/related; boundary=sep\r\n\r\n"

/-- Body part, smtpclientbase.cpp:962. -/
def bodyPart (mime body : Bytes) : Bytes :=
  b!"--sep\r\nContent-Type: " ++ mime ++ b!"; charset=UTF-8\r\n\r\n" ++ body ++ b!"\r\n"

/-- AUTH PLAIN command, smtpclientbase.cpp:785-793. The length given to the encoder is that of the assembled text. -/
def authPlain (c : Credential) : Bytes :=
  b!"AUTH PLAIN " ++ Base64.encode ([0] ++ c.username ++ [0] ++ c.password) ++ b!"\r\n"

/-- Continuation line with the user name or password of AUTH LOGIN, smtpclientbase.cpp:806-809 and 816-819. -/
def authLoginLine (s : Bytes) : Bytes := Base64.encode s ++ b!"\r\n"

/-- AUTH XOAUTH2 command, smtpclientbase.cpp:825-834. -/
def authXOAuth2 (c : Credential) : Bytes :=
  b!"AUTH XOAUTH2 " ++ Base64.encode (b!"user=" ++ c.username ++ [1] ++ b!"auth=Bearer " ++ c.password ++ [1, 1]) ++ b!"\r\n"

end Verif.Model
