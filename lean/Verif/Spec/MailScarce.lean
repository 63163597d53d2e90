import Verif.Spec.Mails
/-!
# Messages as values when memory runs out (specification)

A failed constructor or copy leaves everything as it was. A failed assignment spoils its target: the program must not use it again, not even to destroy it.
A failed move assignment ends the program.
-/
namespace Verif.Spec
open Verif Verif.Model

/-- Can the operation fail for lack of memory? -/
def MailMayRunOut : MOp → Prop
  | .move _ _ | .destroy _ => False
  | .assign x y | .moveAssign x y => x ≠ y
  | _ => True

/-- Does its failure end the program? -/
def fatal : MOp → Bool
  | .moveAssign _ _ => true
  | _ => false

/-- The values after an operation that gave `s'` on values, when it succeeded or not. -/
def mailOutcome (s s' : MailValues) (p : MOp) (ok : Bool) : MailValues :=
  if ok then s'
  else match p with
    | .assign x _ => bindMail s x none
    | _ => s

/-- The program follows the rules of values and uses no spoilt message. The list says which operations succeeded. -/
def MailSparing (s : MailValues) : List MOp → List Bool → Prop
  | [], _ => True
  | p :: ps, oks => ∃ s', mailStep s p = some s' ∧
      match oks with
      | [] => True
      | ok :: rest => (ok = false ∧ fatal p = true) ∨ MailSparing (mailOutcome s s' p ok) ps rest

/-- The values at the end. -/
def mailOutcomes (s : MailValues) : List MOp → List Bool → MailValues
  | p :: ps, ok :: rest =>
    match mailStep s p with
    | some s' => mailOutcomes (mailOutcome s s' p ok) ps rest
    | none => s
  | _, _ => s

/-- Only operations that may run out of memory failed; the program ended before its time (`early`) with the failure of a fatal one, and with nothing
else. -/
def MailFailedRightly (early : Bool) : List MOp → List Bool → Prop
  | p :: ps, true :: oks => MailFailedRightly early ps oks
  | p :: ps, false :: oks => MailMayRunOut p ∧ if fatal p then early = true ∧ oks = [] else MailFailedRightly early ps oks
  | [], [] => early = false
  | _, _ => False

end Verif.Spec
