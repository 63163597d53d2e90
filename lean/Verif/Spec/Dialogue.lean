import Verif.Spec.Login
/-!
# The dialogue of one call (specification)
-/
namespace Verif.Spec
open Verif Verif.Model

/-- What an event says, sent or only tried; QUIT is left out. -/
def utter : Ev → Option (SendKind × Bytes)
  | .send .quit _ _ _ => none
  | .send k _ d _ => some (k, d)
  | _ => none

/-- Everything a call said or tried to say, in order. -/
def uttered (h : Hist) : List (SendKind × Bytes) := h.filterMap utter

/-- The texts of an authentication: none without a credential. -/
def AuthScript : Option Credential → List Bytes → Prop
  | none, l => l = []
  | some c, l => ∃ turns, Login c.username c.password turns ∧ l = turns.map (·.1)

/-- The commands before the first mail of a session. -/
def OpeningScript (c : Client) (l : List Bytes) : Prop :=
  if c.isConnected then l = []
  else ∃ a, AuthScript c.credential a ∧
    match c.kind with
    | .opportunistic => l = [b!"ehlo localhost\r\n"] ∨ l = [b!"ehlo localhost\r\n", b!"STARTTLS\r\n", b!"ehlo localhost\r\n"] ++ a
    | _ => l = b!"ehlo localhost\r\n" :: a

/-- Everything to be said before the body of a mail: the opening, the sender in one or more forms, every recipient, DATA, and the header. -/
def ScriptBeforeBody (c : Client) (m : Message) (l : List (SendKind × Bytes)) : Prop :=
  ∃ (opening senders header : List Bytes), OpeningScript c opening ∧ senders <+: senderForms m.from ∧ senders ≠ [] ∧ header.flatten = headerText m ∧
    l = (opening ++ senders ++ (recipients m).map (fun a => b!"RCPT TO: <" ++ a.email ++ b!">\r\n") ++ [b!"DATA\r\n"]).map (.cmd, ·) ++
      header.map (.content, ·)

/-- The rest: the body in pieces, when the files have these contents, and the end mark. -/
def ScriptOfBody (m : Message) (files : List (Option Bytes)) (l : List (SendKind × Bytes)) : Prop :=
  ∃ body : List Bytes, MimeBody m files body.flatten ∧ l = body.map (.content, ·) ++ [(.cmd, b!"\r\n.\r\n")]

/-- The files of the message were read in the history, with these contents. -/
def FilesRead (m : Message) (files : List (Option Bytes)) (h : Hist) : Prop :=
  (elems m.attachments).length = files.length ∧ ∀ p ∈ (elems m.attachments).zip files, .readFile p.1.filename p.2 ∈ h

end Verif.Spec
