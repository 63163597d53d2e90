import Verif.Model.World
import Verif.Spec.Delivery
import Verif.Spec.Auth
/-!
# Blind copies

What may be said for a message, and what it means that a world behaves alike from some point on.
-/
namespace Verif.Spec
open Verif Verif.Model

/-- The message without its blind copies. -/
def withoutBcc (m : Message) : Message := { m with bcc := { ptr := none, count := 0 } }

/-- The two messages differ in their blind copies only. -/
def SameButBcc (m m' : Message) : Prop := withoutBcc m = withoutBcc m'

/-- The texts that may be sent for a message with a credential: to open the session, to authenticate (RFC 4954), and to hand over the message. -/
inductive Speech (c : Option Credential) (m : Message) : SendKind → Bytes → Prop
  | opening {d : Bytes} : d ∈ [b!"ehlo localhost\r\n", b!"STARTTLS\r\n"] → Speech c m .cmd d
  | auth {cr : Credential} {x : Mechanism} {l : List Bytes} {d : Bytes} : c = some cr → Exchange cr.username cr.password x l → d ∈ l → Speech c m .cmd d
  | sender {d : Bytes} : d ∈ senderForms m.from → Speech c m .cmd d
  | recipient {a : MessageAddress} : a ∈ recipients m → Speech c m .cmd (b!"RCPT TO: <" ++ a.email ++ b!">\r\n")
  | data : Speech c m .cmd b!"DATA\r\n"
  | header {f : Bytes × Bytes} : f ∈ fields m → Speech c m .content (fieldLine f)
  | lastHeader {f : Bytes × Bytes} : f ∈ fields m → Speech c m .content (fieldLine f ++ b!"\r\n")
  | body {files : List (Option Bytes)} {t d : Bytes} : MimeBody m files t → d <:+: t → Speech c m .content d
  | endMark : Speech c m .cmd b!"\r\n.\r\n"
  | quit : Speech c m .quit b!"QUIT\r\n"

/-- A MAIL FROM command. -/
def isMail : Ev → Bool
  | .send .cmd _ d _ => b!"MAIL FROM".isPrefixOf d
  | _ => false

/-- The DATA command. -/
def isData : Ev → Bool
  | .send .cmd _ d _ => d == b!"DATA\r\n"
  | _ => false

/-- What happened from the DATA command of a transaction on. -/
def fromData (h : Hist) : Hist := (h.dropWhile (!isMail ·)).dropWhile (!isData ·)

/-- What happened before. -/
def beforeData (h : Hist) : Hist := h.take (h.length - (fromData h).length)

/-- From the two histories on the world gives the same answers. -/
structure AlikeFrom (env : Env) (h h' : Hist) : Prop where
  fcntlGet : ∀ e fd, env.fcntlGet (h ++ e) fd = env.fcntlGet (h' ++ e) fd
  fcntlSet : ∀ e fd b, env.fcntlSet (h ++ e) fd b = env.fcntlSet (h' ++ e) fd b
  send : ∀ e c d, env.send (h ++ e) c d = env.send (h' ++ e) c d
  recv : ∀ e c, env.recv (h ++ e) c = env.recv (h' ++ e) c
  readFile : ∀ e n, env.readFile (h ++ e) n = env.readFile (h' ++ e) n
  tlsErr : ∀ e, env.tlsErr (h ++ e) = env.tlsErr (h' ++ e)
  blocking : ∀ fd, nonblocking fd h = nonblocking fd h'

/-- The transaction came to its DATA command and this was sent over a connection (not to descriptor 0, where the client writes after it closed its
socket). -/
def LiveData (h : Hist) : Prop := ∃ c d r rest, fromData h = .send .cmd c d r :: rest ∧ c ≠ .raw 0

end Verif.Spec
