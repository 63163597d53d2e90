import Verif.Spec.Codes
import Verif.Spec.Sockets
/-!
# Greeting and EHLO
-/
namespace Verif.Spec
open Verif.Model

/-- The attempts to read, in order. -/
def readsOf (h : Hist) : List (Chan × RecvRes) :=
  h.filterMap fun e => match e with
    | .recv c r => some (c, r)
    | _ => none

/-- Nothing was said and nothing was read. -/
def Mute (h : Hist) : Prop := readsOf h = [] ∧ ∀ e ∈ h, ¬ IsSend e

/-- The reads that make one reply. Without encryption a reply is everything that comes until, for the first time, nothing is there; on a TLS
connection it is one successful read. -/
def OnePiece : Chan → List RecvRes → Prop
  | .raw _, r => .err ∉ r.dropLast
  | .tls _ _, r => ∃ d, r = [.data d]

/-- After some waiting, one reply with this code was read from the channel; nothing was said meanwhile, nothing was read elsewhere. -/
structure OneReply (ch : Chan) (code : Int) (h : Hist) : Prop where
  silent : ∀ e ∈ h, ¬ IsSend e
  code : ReplyCode (heard h) code
  once : ∃ waiting piece, readsOf h = (waiting ++ piece).map (ch, ·) ∧ (∀ x ∈ waiting, ∀ d, x ≠ .data d) ∧ OnePiece ch piece

/-- `EHLO` was sent, and every piece of the answer that was read has the code 250. -/
def EhloAccepted (ch : Chan) (h : Hist) : Prop :=
  ∃ n parts, parts ≠ [] ∧ (∀ p ∈ parts, OneReply ch 250 p) ∧ h = .send .cmd ch b!"ehlo localhost\r\n" (.sent n) :: parts.flatten

/-- Nothing happens, or the client speaks first: whatever was read before was all that was read. -/
def SpeaksNext (h : Hist) : Prop := h = [] ∨ ∃ e es, h = e :: es ∧ IsSend e

/-- `STARTTLS` was accepted with 220, TLS was negotiated, and `EHLO` was accepted again, now on a TLS connection. -/
def Upgraded (fd : Int) (h : Hist) : Prop :=
  ∃ n reply negotiation hello rest id fd', h = .send .cmd (.raw fd) b!"STARTTLS\r\n" (.sent n) :: (reply ++ negotiation ++ hello ++ rest) ∧
    OneReply (.raw fd) 220 reply ∧ Mute negotiation ∧ EhloAccepted (.tls id fd') hello ∧ SpeaksNext rest

/-- The server was greeted and answered as SMTP demands before anything else: greeting 220, then `EHLO` and 250. The channels are those of the kind
of client; an opportunistic client that still holds a TLS connection from an earlier attempt sends its first `EHLO` there. -/
def Welcomed (c : Client) (opening : Hist) : Prop :=
  ∃ pre greeting hello rest ch ch', opening = pre ++ greeting ++ hello ++ rest ∧ Mute pre ∧ OneReply ch 220 greeting ∧ EhloAccepted ch' hello ∧
    SpeaksNext rest ∧
    match c.kind with
    | .smtp => ∃ fd, ch = .raw fd ∧ ch' = .raw fd
    | .forced => ∃ id fd, ch = .tls id fd ∧ ch' = .tls id fd
    | .opportunistic => ∃ fd, ch = .raw fd ∧ (c.bio = none → ch' = .raw fd) ∧ (rest = [] ∨ Upgraded fd rest)

end Verif.Spec
