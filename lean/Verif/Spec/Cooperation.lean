import Verif.Spec.Segments
import Verif.Spec.Faults
/-!
# A world in which nothing goes wrong (specification)

The operating system and the TLS library do what they are asked for, and the server accepts everything: it greets, and it answers every
command in time with the positive code that RFC 5321, RFC 3207 and RFC 4954 give for it.
-/
namespace Verif.Spec
open Verif Verif.Model

/-- The client does nothing but wait: it sleeps or changes the flags of the socket. -/
def isPause : Ev → Bool
  | .sleep | .fcntlGet _ _ | .fcntlSet _ _ _ => true
  | _ => false

/-- From this history on, the next reads on the channel give these results, as long as the client only waits in between. -/
def Gives (env : Env) (ch : Chan) : List RecvRes → Hist → Prop
  | [], _ => True
  | r :: rs, h => ∀ e : Hist, (∀ x ∈ e, isPause x = true) →
      answer env ch (h ++ e) = r ∧ Gives env ch rs (h ++ e ++ [.recv ch r])

/-- How many lines of an AUTH LOGIN are still to come, after the command. -/
def loginLines (n : Nat) (d : Bytes) : Nat :=
  match n with
  | 0 => if d = b!"AUTH LOGIN\r\n" then 2 else 0
  | n + 1 => n

def dialogueStep (p : Nat × Bool) : Ev → Nat × Bool
  | .socket _ => (0, false)
  | .send .cmd _ d _ => (loginLines p.1 d, p.2)
  | .tls (.handshake _) _ => (p.1, true)
  | _ => p

/-- Where the dialogue on the last connection stands: how many lines of an AUTH LOGIN are still to come, and whether TLS is in use. -/
def dialogue (h : Hist) : Nat × Bool := h.foldl dialogueStep (0, false)

/-- The code with which a server accepts the command; `n` lines of an AUTH LOGIN are still to come. -/
def acceptance (n : Nat) (d : Bytes) : Option Bytes :=
  if n = 2 then some b!"334"
  else if n = 1 then some b!"235"
  else if d = b!"ehlo localhost\r\n" then some b!"250"
  else if d = b!"STARTTLS\r\n" then some b!"220"
  else if d = b!"AUTH LOGIN\r\n" then some b!"334"
  else if b!"AUTH ".isPrefixOf d then some b!"235"
  else if b!"MAIL FROM:".isPrefixOf d then some b!"250"
  else if b!"RCPT TO:".isPrefixOf d then some b!"250"
  else if d = b!"DATA\r\n" then some b!"354"
  else if d = b!"\r\n.\r\n" then some b!"250"
  else none

/-- The lines of a complete reply with this code (RFC 5321 section 4.2.1). -/
structure ReplyLines (code : Bytes) (ls : List Bytes) : Prop where
  shape : ∃ init last, ls = init ++ [last] ∧ (∀ l ∈ init, code ++ b!"-" <+: l) ∧ code ++ b!" " <+: last
  plain : ∀ l ∈ ls, ∀ c ∈ l, c ≠ 0 ∧ c ≠ 10 ∧ c ≠ 13

/-- The line names a mechanism that the client knows and that the user allows. -/
def Names (l : Bytes) (m : AuthMethod) : Prop :=
  (HasWord b!"PLAIN" l ∧ (m = .implicit ∨ m = .plain)) ∨ (HasWord b!"LOGIN" l ∧ (m = .implicit ∨ m = .login)) ∨
    (HasWord b!"XOAUTH2" l ∧ (m = .implicit ∨ m = .xoauth2))

/-- The first line about authentication names such a mechanism; `more` says whether another line must follow. -/
def OffersLogin (more : Bool) (ls : List Bytes) (m : AuthMethod) : Prop :=
  ∃ pre l post, ls = pre ++ l :: post ∧ (∀ x ∈ pre, ¬ IsAuthLine x) ∧ IsAuthLine l ∧ Names l m ∧ (more = true → post ≠ [])

/-- What the reply to EHLO says: in clear whether TLS is possible, and where the client logs in, a usable mechanism for every
credential in use. -/
def Introduces (k : Kind) (starttls : Bool) (C : Credential → Prop) (ls : List Bytes) : Chan → Prop
  | .raw _ => (∀ l ∈ ls, ∀ c ∈ l, c < 128) ∧ (Occurs b!"250-STARTTLS" (wire ls) ↔ starttls = true) ∧
      (k = .smtp → ∀ c, C c → OffersLogin false ls c.method)
  | .tls _ _ => ∀ c, C c → OffersLogin true ls c.method

/-- How a reply reaches the client: in clear in one batch, over TLS in one read. -/
def Arrives (T : Nat) (p : Bytes) (rs : List RecvRes) : Chan → Prop
  | .raw _ => ClearBatch T p rs
  | .tls _ _ => TlsRecord T p rs

/-- The greeting arrives in time in one read. -/
def Greets (env : Env) (T : Nat) (ch : Chan) (h : Hist) : Prop :=
  ∃ p rs, b!"220 " <+: p ∧ 0 ∉ p ∧ TlsRecord T p rs ∧ Gives env ch rs h

/-- The operating system and the TLS library work. -/
structure Works (env : Env) : Prop where
  depth : 0 < env.depth
  fuel : 0 < env.fuel
  socket : ∀ h, ∃ fd : Nat, env.socket h = .val fd ∧ fd < 1024
  resolve : ∀ h n, ∃ a : Bytes, env.resolve h n = some a ∧ a.length ≤ 4
  fcntlGet : ∀ h fd, env.fcntlGet h fd = .ok
  fcntlSet : ∀ h fd b, env.fcntlSet h fd b = .ok
  connect : ∀ h fd p, env.connect h fd p = .ok ∨ env.connect h fd p = .err 115
  select : ∀ h fd t, env.select h fd t = .ready
  sockopt : ∀ h fd, env.sockopt h fd = .val 0
  send : ∀ h ch d, env.send h ch d = .sent d.length
  tls : ∀ h op, (∀ id, op ≠ .verifyResult id) → 0 < env.tls h op
  certificate : ∀ h id, env.tls h (.verifyResult id) = 0

/-- The server greets and accepts everything, always within `T` seconds. `k` is the class of the client, `starttls` says whether the server
offers STARTTLS, `C` which credentials it can be asked to check. A command in clear is answered only on a connection without TLS. -/
structure Accepts (env : Env) (k : Kind) (T : Nat) (starttls : Bool) (C : Credential → Prop) : Prop where
  greets : k ≠ .forced → ∀ h fd, (∀ to, Greets env T (.raw fd) (h ++ [.connect fd to .ok])) ∧
    Greets env T (.raw fd) (h ++ [.sockopt fd (.val 0)])
  greetsTls : k = .forced → ∀ h id fd, Greets env T (.tls id fd) (h ++ [.tls (.verifyResult id) 0])
  answers : ∀ h ch d code, acceptance (dialogue h).1 d = some code → (∀ fd, ch = .raw fd → (dialogue h).2 = false) →
    ∃ ls rs, ReplyLines code ls ∧ ((dialogue h).1 = 0 → d = b!"ehlo localhost\r\n" → Introduces k starttls C ls ch) ∧
      Arrives T (wire ls) rs ch ∧ rs.length ≤ env.fuel ∧ Gives env ch rs (h ++ [.send .cmd ch d (.sent d.length)])

/-- The arguments of a call are in order. -/
def InOrder (T : Nat) (C : Credential → Prop) : Call → Prop
  | .setServerName p => ∀ n, p = some n → n.length ≤ 1000 ∧ ∀ c ∈ n, c < 128
  | .setServerPort n => decimals n ≤ 10
  | .setBatchMode _ => True
  | .setCommandTimeout n => T ≤ n
  | .setCredentials c => C c
  | .setKeepUsingBaseSendCommands _ => False
  | .setAcceptSelfSignedCert _ => True
  | .sendMail m => MessageOk m

end Verif.Spec
