import Verif.Model.World
/-!
# What is said in clear, and when a certificate was accepted
-/
namespace Verif.Spec
open Verif Verif.Model

/-- Did the user enable the acceptance of self-signed certificates? The last call decides. -/
def selfSignedEnabled (h : Hist) : Bool :=
  h.foldl (fun b e => match e with
    | .call (.setAcceptSelfSignedCert v) => v
    | _ => b) false

/-- The handshake of the connection succeeded, the peer showed a certificate, and its chain was verified; or the only fault found
was that it is self-signed, at a time when the user had enabled the acceptance of such certificates. -/
structure CertificateAccepted (h : Hist) (id : Nat) : Prop where
  handshake : ∃ r, 0 < r ∧ .tls (.handshake id) r ∈ h
  certificate : ∃ r, r ≠ 0 ∧ .tls (.peerCert id) r ∈ h
  chain : .tls (.verifyResult id) 0 ∈ h ∨
    ∃ pre post, h = pre ++ .tls (.verifyResult id) 18 :: post ∧ selfSignedEnabled pre = true

/-- Data is written to or read from the TLS connection with this number. -/
def usesTls (id : Nat) : Ev → Prop
  | .send _ (.tls i _) _ _ => i = id
  | .recv (.tls i _) _ => i = id
  | _ => False

/-- Whenever a TLS connection is used its certificate was accepted before. -/
def AcceptedFirst (h : Hist) : Prop :=
  ∀ pre e post id, h = pre ++ e :: post → usesTls id e → CertificateAccepted pre id

/-- The addresses of the recipients of a message. -/
def recipientEmails (m : Message) : List Bytes := (m.to.ptr.getD [] ++ m.cc.ptr.getD [] ++ m.bcc.ptr.getD []).map (·.email)

/-- The commands that carry no credentials: EHLO, STARTTLS, the three forms of MAIL FROM with the sender of the message, RCPT TO
with one of its recipients, DATA and the end of the data. -/
inductive PublicCommand (m : Message) : Bytes → Prop
  | ehlo : PublicCommand m b!"ehlo localhost\r\n"
  | startTls : PublicCommand m b!"STARTTLS\r\n"
  | mailFrom1 : PublicCommand m (cstr (b!"MAIL FROM: <" ++ m.from.email ++ b!">\r\n"))
  | mailFrom2 : PublicCommand m (cstr (b!"MAIL FROM: <" ++ m.from.displayName ++ b!" " ++ m.from.email ++ b!">\r\n"))
  | mailFrom3 : PublicCommand m (cstr (b!"MAIL FROM: " ++ m.from.email ++ b!"\r\n"))
  | rcptTo {a : Bytes} : a ∈ recipientEmails m → PublicCommand m (cstr (b!"RCPT TO: <" ++ a ++ b!">\r\n"))
  | data : PublicCommand m b!"DATA\r\n"
  | endOfData : PublicCommand m b!"\r\n.\r\n"

/-- After STARTTLS was sent on a socket nothing else is sent on it in clear, whatever became of the command. -/
def StaysUpgraded (h : Hist) : Prop :=
  ∀ a fd r b, h = a ++ .send .cmd (.raw fd) b!"STARTTLS\r\n" r :: b → ∀ k d r', .send k (.raw fd) d r' ∉ b

end Verif.Spec
