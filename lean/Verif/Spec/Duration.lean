import Verif.Spec.Waiting
import Verif.Spec.Delivery
/-!
# How long a call can take (specification)
-/
namespace Verif.Spec
open Verif Verif.Model

/-- How often `select` was called. It waits at most the command timeout. -/
def selects (h : Hist) : Nat := h.countP fun | .select _ _ => true | _ => false

/-- One more event: whether the last command was EHLO, and the reads that brought data after an EHLO. -/
def partsStep (t : Bool × Nat) : Ev → Bool × Nat
  | .send .cmd _ d _ => (d == b!"ehlo localhost\r\n", t.2)
  | .recv _ (.data _) => (t.1, if t.1 then t.2 + 1 else t.2)
  | _ => t

/-- The number of parts in which the replies to EHLO came. -/
def ehloParts (h : Hist) : Nat := (h.foldl partsStep (false, 0)).2

end Verif.Spec
