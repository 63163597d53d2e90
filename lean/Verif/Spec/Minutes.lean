import Verif.Spec.Transcript
/-!
# Specification: the conversation with the server, and the log as its record

What was said by whom since the last socket was made. It is read off the history of events alone.
-/
namespace Verif.Spec
open Verif Verif.Model

/-- Where a conversation is. -/
structure Minutes where
  /-- how many of the next commands are to be kept secret -/
  secret : Nat := 0
  /-- the command timeout the user asked for -/
  limit : Nat := 5
  /-- how many seconds were waited for what comes next -/
  waited : Nat := 0
  /-- while a reply is read in parts without blocking: the parts so far, if there were any -/
  parts : Option (Option Bytes) := none
  /-- who said what -/
  said : List (Bytes × Bytes) := []
  deriving DecidableEq, Repr

/-- Text of the client. -/
def Minutes.client (t : Minutes) (d : Bytes) : Minutes :=
  match t.secret with
  | n + 1 => { t with secret := n, waited := 0 }
  | 0 => { t with secret := if d = b!"AUTH LOGIN\r\n" then 2 else 0, waited := 0, said := t.said ++ [(b!"c", masked d)] }

/-- Text of the server. In a reply of parts, a part counts up to its first NUL. Any other text counts up to its first NUL, without the last byte, and
only if the client has not waited as long as it is willing to wait. -/
def Minutes.server (t : Minutes) (d : Bytes) : Minutes :=
  match t.parts with
  | some p => { t with waited := 0, parts := some (some (p.getD [] ++ d.takeWhile (· ≠ 0))) }
  | none => if t.waited < t.limit then { t with waited := 0, said := t.said ++ [(b!"s", d.dropLast.takeWhile (· ≠ 0))] } else { t with waited := 0 }

/-- The parts read so far are a reply. -/
def Minutes.flush (t : Minutes) : Minutes :=
  match t.parts with
  | some (some r) => { t with waited := 0, parts := none, said := t.said ++ [(b!"s", r)] }
  | _ => { t with waited := 0, parts := none }

/-- One more event. A new socket begins a new conversation; a reply in parts is read between making the socket non-blocking and the next look at its
mode. -/
def minutesStep (t : Minutes) : Ev → Minutes
  | .call (.setCommandTimeout n) => { t with limit := n, waited := 0 }
  | .socket _ => { limit := t.limit }
  | .fcntlGet _ _ => t.flush
  | .fcntlSet _ true _ => { t with waited := 0, parts := some none }
  | .send .content _ _ _ => { t with waited := 0 }
  | .send _ _ d _ => t.client d
  | .recv _ (.data d) => t.server d
  | .recv _ _ => if t.waited < t.limit then t else { t with waited := 0 }
  | .sleep => { t with waited := t.waited + 1 }
  | _ => { t with waited := 0 }

/-- The conversation. -/
def minutes (h : Hist) : Minutes := h.foldl minutesStep {}

/-- The log is a record of the conversation: leaving out some of its entries, it is the conversation. -/
def Records (content : Bytes) (h : Hist) : Prop := ∃ es, content = logText es ∧ (minutes h).said.Sublist es

end Verif.Spec
