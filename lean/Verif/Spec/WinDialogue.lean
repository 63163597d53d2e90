import Verif.Model.Platform
import Verif.Spec.Afresh
/-!
# Specification: the dialogue, whatever the platform
-/
namespace Verif.Spec
open Verif Verif.Model

/-- A channel without the number of the TLS connection. -/
def chanKind : Chan → Chan
  | .raw fd => .raw fd
  | .tls _ fd => .tls 0 fd

/-- A call of the TLS library without the number of the connection. -/
def tlsKind : TlsOp → TlsOp
  | .connect _ => .connect 0
  | .handshake _ => .handshake 0
  | .peerCert _ => .peerCert 0
  | .verifyResult _ => .verifyResult 0
  | op => op

/-- What belongs to the dialogue: everything but the steps between the creation of a socket and its connection, and the changes of its mode. -/
def spokenEv : Ev → Option Ev
  | .send k c d r => some (.send k (chanKind c) d r)
  | .recv c r => some (.recv (chanKind c) r)
  | .tls op r => some (.tls (tlsKind op) r)
  | .bioFree _ => some (.bioFree 0)
  | .resolve _ _ | .fcntlGet _ _ | .fcntlSet _ _ _ | .connect _ _ _ | .select _ _ | .sockopt _ _ => none
  | e => some e

/-- The dialogue in a history. -/
def spoken (h : Hist) : List Ev := h.filterMap spokenEv

/-- The codes of a `sendMail` on Windows and on POSIX mean the same: they are equal; or the connection was not opened (-4, -5, -2 for the steps of Windows, -1 for `socket`); or the trusted
certificates could not be loaded (-53 and -54). -/
def SameCode (x y : Int) : Prop := x = y ∨ ((x = -4 ∨ x = -5 ∨ x = -2) ∧ y = -1) ∨ (x = -53 ∧ y = -54)

/-- The same for the results of calls. -/
inductive SameResult : CallRes → CallRes → Prop where
  | refl (r : CallRes) : SameResult r r
  | code {x y : Int} (h : SameCode x y) : SameResult (.returned x) (.returned y)

/-- Results in the same order. -/
inductive SameResults : List CallRes → List CallRes → Prop where
  | nil : SameResults [] []
  | cons {r r' : CallRes} {rs rs' : List CallRes} (h : SameResult r r') (hs : SameResults rs rs') : SameResults (r :: rs) (r' :: rs')

/-- Two runs end alike. -/
inductive SameEnd : Res (List CallRes) → Res (List CallRes) → Prop where
  | ok {rs rs' : List CallRes} (h : SameResults rs rs') : SameEnd (.ok rs) (.ok rs')
  | stop (x : Stop) : SameEnd (.stop x) (.stop x)

/-- Less than 2 GiB. -/
def Fits (t : Bytes) : Prop := t.length < 2 ^ 31

/-- No command and no header line of the message has 2 GiB. (The body is sent in pieces of 512 bytes.) -/
structure MessageFits (m : Message) : Prop where
  sender : ∀ t ∈ mailFormats m.from, Fits t
  recipients : ∀ l ∈ [m.to, m.cc, m.bcc], ∀ as, l.ptr = some as → ∀ a ∈ as, Fits (rcptTo a)
  fromLine : Fits (headerLine b!"From" (fromHeaderValue m.from))
  toLine : ∀ as, m.to.ptr = some as → Fits (headerLine b!"To" (generateHeaderAddressValues (as.take m.to.count)))
  ccLine : ∀ as, m.cc.ptr = some as → Fits (headerLine b!"Cc" (generateHeaderAddressValues (as.take m.cc.count)))
  subject : Fits (subjectLine m.subject)

/-- No line of the login has 2 GiB. -/
structure LoginFits (c : Credential) : Prop where
  plain : Fits (authPlain c)
  username : Fits (authLoginLine c.username)
  password : Fits (authLoginLine c.password)
  xoauth2 : Fits (authXOAuth2 c)

/-- No text given to the client makes a line of 2 GiB. -/
def CallFits : Call → Prop
  | .setCredentials c => LoginFits c
  | .sendMail m => MessageFits m
  | _ => True

/-- Sending or reading. -/
def isTalk : Ev → Bool
  | .send .. | .recv .. => true
  | _ => false

/-- What is sent and what is read. -/
def wireTalk (h : Hist) : List Ev := (spoken h).filter isTalk

end Verif.Spec
