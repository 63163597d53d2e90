import Verif.Spec.ClientValues
/-!
# Clients as values when memory runs out (specification)

An operation that fails for lack of memory leaves everything as it was, with one exception: the client that was to be assigned, whose server name was to be
set, whose credential was to be replaced, whose old log or last response was to be replaced, is spoilt, and the program must not use it again, not
even to destroy it. Its name may be given to another client. The first credential, the first log and the first response of a client replace nothing.
-/
namespace Verif.Spec
open Verif Verif.Model

/-- Can the operation fail for lack of memory? -/
def MayRunOut : COp → Prop
  | .move _ _ | .moveAssign _ _ | .destroy _ => False
  | .assign x y => x ≠ y
  | _ => True

/-- The client that is spoilt when the operation fails. -/
def spoilt (s : ClientValues) : COp → Option Nat
  | .assign x _ | .setName x _ => some x
  | .setCredential x _ => if (s x).bind (·.credential) = none then none else some x
  | .session x .freshLog => if (s x).bind (·.log) = none then none else some x
  | .session x (.response _) => if (s x).bind (·.response) = none then none else some x
  | _ => none

/-- The clients that the operation makes, changes or ends. -/
def changes : COp → List Nat
  | .create x _ | .copy x _ | .assign x _ | .setName x _ | .setCredential x _ | .session x _ | .destroy x => [x]
  | .move x y | .moveAssign x y => [x, y]

/-- The client that is spoilt whenever the operation fails, at whichever point. -/
def ruined (s : ClientValues) : COp → Option Nat
  | .assign _ _ | .setName _ _ => none
  | p => spoilt s p

/-- The values after an operation that gave `s'` on values, when it succeeded or not. -/
def outcome (s s' : ClientValues) (p : COp) (ok : Bool) : ClientValues :=
  if ok then s'
  else match spoilt s p with
    | none => s
    | some x => bindClient s x none

/-- The program follows the rules of values and uses no spoilt client. The list says which operations succeeded. -/
def Sparing (s : ClientValues) : List COp → List Bool → Prop
  | [], _ => True
  | p :: ps, oks => ∃ s', clientStep s p = some s' ∧
      match oks with
      | [] => True
      | ok :: rest => Sparing (outcome s s' p ok) ps rest

/-- The values at the end. -/
def outcomes (s : ClientValues) : List COp → List Bool → ClientValues
  | p :: ps, ok :: rest =>
    match clientStep s p with
    | some s' => outcomes (outcome s s' p ok) ps rest
    | none => s
  | _, _ => s

/-- Only operations that may run out of memory failed. -/
def FailedRightly : List COp → List Bool → Prop
  | p :: ps, ok :: oks => (ok = false → MayRunOut p) ∧ FailedRightly ps oks
  | [], [] => True
  | _, _ => False

end Verif.Spec
