import Verif.Spec.Trace
import Verif.Spec.Base64
import Verif.Spec.Mime
import Verif.Model.Commands
/-!
# What has to be said to deliver a message

RFC 5321 section 3.3: MAIL, RCPT, DATA, the text, end of data. The texts follow the documentation of the library.
-/
namespace Verif.Spec
open Verif Verif.Model

/-- Each text was sent on the channel, in this order, and answered with the code beside it. -/
inductive Turns (ch : Chan) : List (Bytes × Int) → List Item → Prop
  | nil : Turns ch [] []
  | cons {d : Bytes} {code : Int} {t : Bytes} {l : List (Bytes × Int)} {is : List Item} :
      ReplyCode t code → Turns ch l is → Turns ch ((d, code) :: l) (.cmd ch d t :: is)

/-- The elements of an array of the message. -/
def elems {α : Type} (a : Arr α) : List α := (a.ptr.getD []).take a.count

/-- The three MAIL FROM forms. -/
def senderForms (a : MessageAddress) : List Bytes :=
  [b!"MAIL FROM: <" ++ a.email ++ b!">\r\n",
   b!"MAIL FROM: <" ++ (a.displayName ++ 32 :: a.email) ++ b!">\r\n",
   b!"MAIL FROM: " ++ a.email ++ b!"\r\n"]

/-- To, Cc and Bcc in this order. -/
def recipients (m : Message) : List MessageAddress := elems m.to ++ elems m.cc ++ elems m.bcc

/-- An address as it is shown in a header. -/
def shown (a : MessageAddress) : Bytes :=
  if a.displayName = [] then a.email else a.displayName ++ b!" <" ++ a.email ++ b!">"

/-- The header fields of the message: names and values. -/
def fields (m : Message) : List (Bytes × Bytes) :=
  [(b!"From", shown m.from)] ++
  (if elems m.to = [] then [] else [(b!"To", List.intercalate b!", " ((elems m.to).map shown))]) ++
  (if elems m.cc = [] then [] else [(b!"Cc", List.intercalate b!", " ((elems m.cc).map shown))]) ++
  [(b!"Subject", m.subject), (b!"Content-Type", b!"multipart/related; boundary=sep")]

/-- A header line. -/
def fieldLine (f : Bytes × Bytes) : Bytes := f.1 ++ b!": " ++ f.2 ++ b!"\r\n"

/-- The header section: the lines and an empty line. -/
def headerText (m : Message) : Bytes := ((fields m).map fieldLine).flatten ++ b!"\r\n"

/-- The first part of the MIME body. -/
def textPart (m : Message) : Bytes :=
  b!"--sep\r\n" ++ (b!"Content-Type: " ++ m.mime ++ b!"; charset=UTF-8\r\n") ++ b!"\r\n" ++ m.body ++ b!"\r\n"

/-- The head of an attachment part, with the delimiter in front of it. -/
def attachmentHead (a : Attachment) : Bytes :=
  b!"\r\n--sep\r\n" ++
  (b!"Content-Type: " ++ fileType a.filename ++ b!"; file=\"" ++ a.name ++ b!"\"\r\n") ++
  (if a.contentId = [] then b!"Content-Disposition: Inline; filename=\"" ++ a.name ++ b!"\"\r\n"
   else b!"X-Attachment-Id: " ++ a.contentId ++ b!"\r\nContent-ID: <" ++ a.contentId ++
     b!">\r\nContent-Disposition: attachment; filename=\"" ++ a.name ++ b!"\"\r\n") ++
  b!"Content-Transfer-Encoding: base64\r\n" ++ b!"\r\n"

/-- The text that stands for a file: nothing when it could not be read, otherwise a text that a standard base64 decoder turns
into the file (files of 4 GiB and more excepted). -/
def Encodes : Option Bytes → Bytes → Prop
  | none, t => t = []
  | some content, t => content.length < 2 ^ 32 → Base64.decode t = some content

/-- The attachment parts. -/
inductive Parts : List Attachment → List (Option Bytes) → Bytes → Prop
  | nil : Parts [] [] []
  | cons {a : Attachment} {f : Option Bytes} {enc : Bytes} {as : List Attachment} {fs : List (Option Bytes)} {t : Bytes} :
      Encodes f enc → Parts as fs t → Parts (a :: as) (f :: fs) (attachmentHead a ++ enc ++ t)

/-- The MIME body of the message when its files have these contents. -/
def MimeBody (m : Message) (files : List (Option Bytes)) (t : Bytes) : Prop :=
  if elems m.attachments = [] then t = textPart m
  else ∃ p, Parts (elems m.attachments) files p ∧ t = textPart m ++ p ++ b!"\r\n--sep--"

/-- What is said, and heard, when a message is delivered over a channel: MAIL FROM in one of its forms, the earlier ones having
been answered 501; RCPT TO for every recipient; DATA; the header lines; the body in pieces; the end mark; and QUIT if the session
is not kept. -/
def Delivered (ch : Chan) (m : Message) (files : List (Option Bytes)) (keep : Bool) (items : List Item) : Prop :=
  ∃ (sender rcpts data : List Item) (header body : List Bytes) (done : List Item),
    items = sender ++ rcpts ++ data ++ header.map (.content ch) ++ body.map (.content ch) ++ done ++
      (if keep then [] else [.quit ch b!"QUIT\r\n"]) ∧
    (∃ pre f post, senderForms m.from = pre ++ f :: post ∧ Turns ch (pre.map (·, 501) ++ [(f, 250)]) sender) ∧
    Turns ch ((recipients m).map fun a => (b!"RCPT TO: <" ++ a.email ++ b!">\r\n", 250)) rcpts ∧
    Turns ch [(b!"DATA\r\n", 354)] data ∧
    header.flatten = headerText m ∧
    MimeBody m files body.flatten ∧ (∀ p ∈ body, 1 ≤ p.length ∧ p.length ≤ 512) ∧
    Turns ch [(b!"\r\n.\r\n", 250)] done

/-- The same up to the end mark, which is not yet sent: the complete mail was handed over. -/
def HandedOver (ch : Chan) (m : Message) (files : List (Option Bytes)) (items : List Item) : Prop :=
  ∃ (sender rcpts data : List Item) (header body : List Bytes),
    items = sender ++ rcpts ++ data ++ header.map (.content ch) ++ body.map (.content ch) ∧
    (∃ pre f post, senderForms m.from = pre ++ f :: post ∧ Turns ch (pre.map (·, 501) ++ [(f, 250)]) sender) ∧
    Turns ch ((recipients m).map fun a => (b!"RCPT TO: <" ++ a.email ++ b!">\r\n", 250)) rcpts ∧
    Turns ch [(b!"DATA\r\n", 354)] data ∧
    header.flatten = headerText m ∧ MimeBody m files body.flatten

/-- No text of the message contains a NUL, as with all messages made by the constructors (`C29_constructors_nul_free`). -/
structure NulFree (m : Message) : Prop where
  addresses : ∀ a ∈ m.from :: recipients m, 0 ∉ a.email ∧ 0 ∉ a.displayName
  subject : 0 ∉ m.subject
  body : 0 ∉ m.body
  mime : 0 ∉ m.mime
  attachments : ∀ a ∈ elems m.attachments, 0 ∉ a.name ∧ 0 ∉ a.contentId

/-- An event that says something. -/
def IsSend : Ev → Prop
  | .send _ _ _ _ => True
  | _ => False

/-- Somewhere the command was sent, and before anything else was sent a text was read that is a reply with this code. -/
def Answered (h : Hist) (d : Bytes) (code : Int) : Prop :=
  ∃ pre c n mid post, h = pre ++ .send .cmd c d (.sent n) :: (mid ++ post) ∧ (∀ e ∈ mid, ¬ IsSend e) ∧ ReplyCode (heard mid) code

/-- Somewhere a command was answered by a text that reads as code 0, such as `000` or `0.5`. -/
def AnsweredZero (h : Hist) : Prop := ∃ d, Answered h d 0

/-- Something was successfully written to descriptor 0 (the client uses it after it closed its socket). -/
def WroteToZero (h : Hist) : Prop := ∃ k d n, .send k (.raw 0) d (.sent n) ∈ h

/-- Every successful write took all bytes. -/
def NoShortWrites (h : Hist) : Prop := ∀ k c d n, .send k c d (.sent n) ∈ h → n = d.length

end Verif.Spec
