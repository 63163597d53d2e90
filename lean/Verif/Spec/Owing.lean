import Verif.Model.World
/-!
# Commands without a reply (specification)

Read off the history alone.
-/
namespace Verif.Spec
open Verif Verif.Model

/-- A command was sent on the channel — tried to be sent, if sending failed — and nothing was received there since. A socket counts as a new
channel when its number is handed out again. -/
def OwesReply (c : Chan) (h : Hist) : Prop :=
  ∃ (x : Hist) (d : Bytes) (r : SendRes) (y : Hist), h = x ++ .send .cmd c d r :: y ∧ (∀ d', .recv c (.data d') ∉ y) ∧ ∀ v : Nat, c = .raw v → .socket (.val v) ∉ y

/-- Nothing but QUIT is sent on a channel on which a reply is missing; except on descriptor 0. -/
def SpeaksInTurn (h : Hist) : Ev → Prop
  | .send _ c d _ => c = .raw 0 ∨ d = b!"QUIT\r\n" ∨ ¬ OwesReply c h
  | _ => True

end Verif.Spec
