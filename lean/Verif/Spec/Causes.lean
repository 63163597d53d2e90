import Verif.Spec.Waiting
import Verif.Spec.Delivery
/-!
# Specification: what an error code tells

Everything is said about the history of one call.
-/
namespace Verif.Spec
open Verif Verif.Model

/-- The steps of closing a session: QUIT, freeing the TLS connection, closing the socket. -/
def IsClosing : Ev → Prop
  | .send .quit _ _ _ | .close _ | .bioFree _ => True
  | _ => False

/-- After the event only QUIT and texts of this kind and sort are sent. -/
def OnlySays (k : SendKind) (P : Bytes → Prop) (e : Ev) : Prop := ∀ k' ch d r, e = .send k' ch d r → k' = .quit ∨ (k' = k ∧ P d)

/-- Sending a text of this sort failed; of what followed something is known. -/
def SendFailed (k : SendKind) (P : Bytes → Prop) (after : Ev → Prop) (h : Hist) : Prop :=
  ∃ pre ch d e post, h = pre ++ .send k ch d (.fail e) :: post ∧ P d ∧ ∀ x ∈ post, after x

/-- Waiting in vain: nothing is sent, `T` seconds or more pass, and nothing arrives before the last of them is over. -/
structure InVain (T : Nat) (h : Hist) : Prop where
  unsaid : ∀ e ∈ h, ¬ IsSend e
  waited : T ≤ sleeps h
  silent : ∀ a b, h = a ++ .sleep :: b → ∀ ch d, .recv ch (.data d) ∉ a

/-- A command of this sort was sent and the reply did not come in time; of what followed something is known. -/
def NoReply (T : Nat) (P : Bytes → Prop) (after : Ev → Prop) (h : Hist) : Prop :=
  ∃ pre ch d n mid post, h = pre ++ .send .cmd ch d (.sent n) :: (mid ++ post) ∧ P d ∧ InVain T mid ∧ ∀ x ∈ post, after x

/-- This command was sent, and the reply, or the rest of it, did not come in time. -/
def NoRest (T : Nat) (cmd : Bytes) (h : Hist) : Prop :=
  ∃ pre ch n part mid, h = pre ++ .send .cmd ch cmd (.sent n) :: (part ++ mid) ∧ (∀ e ∈ part, ¬ IsSend e) ∧ InVain T mid

/-- The text as which the client takes what it read: everything, or one piece without its last byte. -/
def ReadAs (h : Hist) (t : Bytes) : Prop := t = heard h ∨ ∃ ch d, .recv ch (.data d) ∈ h ∧ t = upToNul d.dropLast

/-- Somewhere something was read that does not start with a positive number. -/
def Garbled (h : Hist) : Prop :=
  ∃ pre mid post t, h = pre ++ mid ++ post ∧ (∀ e ∈ mid, ¬ IsSend e) ∧ 0 < dataReads mid ∧ ReadAs mid t ∧ ∀ c, ReplyCode t c → c ≤ 0

/-- A line of one of the three ways to log in. -/
def LoginText (d : Bytes) : Prop :=
  b!"AUTH PLAIN " <+: d ∨ b!"AUTH XOAUTH2 " <+: d ∨ d = b!"AUTH LOGIN\r\n" ∨ ∃ t, d = t ++ b!"\r\n" ∧ ∀ c ∈ t, Base64.Alphabet c ∨ c = 13 ∨ c = 10

/-- AUTH LOGIN or the user name was sent and not answered with 334. -/
def LoginRefused (T : Nat) (h : Hist) : Prop :=
  ∃ pre ch d n mid post, h = pre ++ .send .cmd ch d (.sent n) :: (mid ++ post) ∧ LoginText d ∧ (∀ e ∈ mid, ¬ IsSend e) ∧
    (InVain T mid ∨ ∃ t, ReadAs mid t ∧ ¬ ReplyCode t 334) ∧ ∀ x ∈ post, IsClosing x

/-- EHLO was answered and nothing sent after it. -/
def AfterEhlo (h : Hist) : Prop :=
  ∃ pre ch n mid, h = pre ++ .send .cmd ch b!"ehlo localhost\r\n" (.sent n) :: mid ∧ (∀ e ∈ mid, ¬ IsSend e) ∧ 0 < dataReads mid

/-- DATA was sent in clear by a client made for TLS, and nothing after it. -/
def NoTls (k : Kind) (h : Hist) : Prop :=
  k ≠ .smtp ∧ ∃ pre fd n mid post, h = pre ++ .send .cmd (.raw fd) b!"DATA\r\n" (.sent n) :: (mid ++ post) ∧ (∀ e ∈ mid, ¬ IsSend e) ∧ ∀ x ∈ post, IsClosing x

/-- The last thing a history tells. -/
def EndsIn (P : Ev → Prop) (h : Hist) : Prop := ∃ pre e, h = pre ++ [e] ∧ P e

/-- A result of the TLS library, after which the session was closed. -/
def TlsFailed (P : TlsOp → Int → Prop) (h : Hist) : Prop := ∃ pre op r post, h = pre ++ .tls op r :: post ∧ P op r ∧ ∀ x ∈ post, IsClosing x

/-- The To, Cc and Subject headers. -/
def MiddleHeader (d : Bytes) : Prop := b!"To: " <+: d ∨ b!"Cc: " <+: d ∨ b!"Subject: " <+: d

/-- A piece of the body was refused: the last header had been sent, and of what was said between something is known. -/
def BodyFailed (P : Bytes → Prop) (between : Ev → Prop) (h : Hist) : Prop :=
  ∃ pre ch n mid ch' d e post, h = pre ++ .send .content ch b!"Content-Type: multipart/related; boundary=sep\r\n\r\n" (.sent n) ::
      (mid ++ .send .content ch' d (.fail e) :: post) ∧
    (∀ x ∈ mid, between x) ∧ P d ∧ ∀ x ∈ post, IsClosing x

/-- A send of content that went well, or no send. -/
def PieceSent (x : Ev) : Prop := ∀ k ch d r, x = .send k ch d r → k = .content ∧ d.length ≤ 512 ∧ ∃ n, r = .sent n

/-- The end of the data was answered with 250, and then QUIT could not be sent. -/
def QuitFailed (h : Hist) : Prop :=
  ∃ pre ch n mid t ch' e post, h = pre ++ .send .cmd ch b!"\r\n.\r\n" (.sent n) :: (mid ++ .send .quit ch' b!"QUIT\r\n" (.fail e) :: post) ∧
    (∀ x ∈ mid, ¬ IsSend x) ∧ ReadAs mid t ∧ ReplyCode t 250 ∧ ∀ x ∈ post, IsClosing x

/-- What happened in a call that returns an error code: the code names the step that failed, and nothing but the end of the session followed. `T` is the timeout, `k` the class. -/
inductive Cause (T : Nat) (k : Kind) (h : Hist) : Int → Prop
  | socket : EndsIn (fun e => ∃ n, e = .socket (.err n)) h → Cause T k h (-1)
  | connect : EndsIn (fun e => ∃ fd to n, e = .connect fd to (.err n) ∧ n ≠ 115 ∨ e = .select fd (.err n) ∧ n ≠ 4) h → Cause T k h (-2)
  | slowConnect : EndsIn (fun e => ∃ fd, e = .select fd .timeout ∨ e = .select fd (.err 4)) h → Cause T k h (-3)
  | resolve : EndsIn (fun e => ∃ n, e = .resolve n none) h → Cause T k h (-6)
  | getFlags : EndsIn (fun e => ∃ fd n, e = .fcntlGet fd (.err n)) h → Cause T k h (-7)
  | setFlags : EndsIn (fun e => ∃ fd n, e = .fcntlSet fd false (.err n)) h → Cause T k h (-8)
  | sockopt : EndsIn (fun e => ∃ fd n, e = .sockopt fd (.err n)) h → Cause T k h (-9)
  | delayed : EndsIn (fun e => ∃ fd v, e = .sockopt fd (.val v) ∧ v ≠ 0) h → Cause T k h (-10)
  | ehlo : k ≠ .forced → SendFailed .cmd (· = b!"ehlo localhost\r\n") IsClosing h → Cause T k h (-20)
  | ehloLate : k ≠ .forced → (NoReply T (· = b!"ehlo localhost\r\n") IsClosing h ∨ NoRest T b!"ehlo localhost\r\n" h) → Cause T k h (-21)
  | starttls : k = .opportunistic → SendFailed .cmd (· = b!"STARTTLS\r\n") IsClosing h → Cause T k h (-30)
  | starttlsLate : k = .opportunistic → NoReply T (· = b!"STARTTLS\r\n") IsClosing h → Cause T k h (-31)
  | ctxNew : k ≠ .smtp → EndsIn (· = .tls .ctxNew 0) h → Cause T k h (-51)
  | bioNew : k ≠ .smtp → EndsIn (· = .tls .bioNew 0) h → Cause T k h (-52)
  | verifyPaths : k ≠ .smtp → EndsIn (· = .tls .verifyPaths 0) h → Cause T k h (-54)
  | tlsConnect : k ≠ .smtp → TlsFailed (fun op r => ∃ id, op = .connect id ∧ r ≤ 0) h → Cause T k h (-55)
  | handshake : k ≠ .smtp → TlsFailed (fun op r => ∃ id, op = .handshake id ∧ r ≤ 0) h → Cause T k h (-56)
  | peerCert : k ≠ .smtp → TlsFailed (fun op r => ∃ id, op = .peerCert id ∧ r = 0) h → Cause T k h (-57)
  | verifyResult : k ≠ .smtp → TlsFailed (fun op r => ∃ id, op = .verifyResult id ∧ r ≠ 0) h → Cause T k h (-58)
  | secureEhlo : k ≠ .smtp → SendFailed .cmd (· = b!"ehlo localhost\r\n") IsClosing h → Cause T k h (-59)
  | secureEhloLate : k ≠ .smtp → (NoReply T (· = b!"ehlo localhost\r\n") IsClosing h ∨ NoRest T b!"ehlo localhost\r\n" h) → Cause T k h (-60)
  | login : SendFailed .cmd LoginText IsClosing h → Cause T k h (-81)
  | loginRefused : LoginRefused T h → Cause T k h (-81)
  | loginLate : NoReply T LoginText IsClosing h → Cause T k h (-82)
  | noMechanism : AfterEhlo h → Cause T k h (-84)
  | mailFrom : SendFailed .cmd (b!"MAIL FROM: " <+: ·) IsClosing h → Cause T k h (-85)
  | mailFromLate : NoReply T (b!"MAIL FROM: " <+: ·) IsClosing h → Cause T k h (-86)
  | rcptTo : SendFailed .cmd (b!"RCPT TO: " <+: ·) (OnlySays .cmd (b!"RCPT TO: " <+: ·)) h → Cause T k h (-87)
  | rcptToLate : NoReply T (b!"RCPT TO: " <+: ·) (OnlySays .cmd (b!"RCPT TO: " <+: ·)) h → Cause T k h (-88)
  | data : SendFailed .cmd (· = b!"DATA\r\n") IsClosing h → Cause T k h (-89)
  | dataLate : NoReply T (· = b!"DATA\r\n") IsClosing h → Cause T k h (-90)
  | headerFrom : SendFailed .content (b!"From: " <+: ·) IsClosing h → Cause T k h (-91)
  | noTls : NoTls k h → Cause T k h (-91)
  | headerMiddle : SendFailed .content MiddleHeader (OnlySays .content MiddleHeader) h → Cause T k h (-93)
  | contentType : SendFailed .content (b!"Content-Type: " <+: ·) IsClosing h → Cause T k h (-94)
  | bodyPart : BodyFailed (fun d => d.length ≤ 512) PieceSent h → Cause T k h (-95)
  | body : BodyFailed (fun d => b!"--sep\r\n" <+: d ∧ d.length ≤ 512) (fun x => ¬ IsSend x) h → Cause T k h (-96)
  | endData : SendFailed .cmd (· = b!"\r\n.\r\n") IsClosing h → Cause T k h (-97)
  | endDataLate : NoReply T (· = b!"\r\n.\r\n") IsClosing h → Cause T k h (-98)
  | quit : QuitFailed h → Cause T k h (-99)

/-- Nothing was sent in the whole call, and at the end the greeting did not come in time. -/
def NoGreeting (T : Nat) (h : Hist) : Prop := ∃ pre mid, h = pre ++ mid ∧ (∀ e ∈ pre, ¬ IsSend e) ∧ InVain T mid

end Verif.Spec
