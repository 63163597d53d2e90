import Verif.Spec.Objects
/-!
# Values when memory runs out (specification)

An operation that fails for lack of memory leaves everything as it was, with one exception: the object that was to be assigned, or the credential
that was to be changed, is broken, and a program must not use its name again, not even to destroy it.
-/
namespace Verif.Spec
open Verif Verif.Model

/-- The name in an argument. -/
def argNames : Arg → List Nat
  | .text _ => []
  | .field x _ => [x]

/-- The names that an operation uses. -/
def namesOf : VOp → List Nat
  | .construct x _ ts _ => x :: ts.flatMap argNames
  | .copy x y | .assign x y | .move x y | .moveAssign x y => [x, y]
  | .set x _ t => x :: argNames t
  | .setMethod x _ | .destroy x => [x]

/-- Can the operation fail for lack of memory? -/
def Allocates : VOp → Prop
  | .construct _ _ _ _ | .copy _ _ | .set _ _ _ => True
  | .assign x y => x ≠ y
  | _ => False

/-- The object that is broken when the operation fails. -/
def broken (s : Values) : VOp → Option Nat
  | .assign x _ => some x
  | .set x _ _ => match s x with
    | some v => if v.cls = .credential then some x else none
    | none => none
  | _ => none

/-- Values and broken names after an operation on values that gave `s'`, when it succeeded or not. -/
def afterwards (s s' : Values) (B : List Nat) (p : VOp) (ok : Bool) : Values × List Nat :=
  if ok then (s', B)
  else match broken s p with
    | none => (s, B)
    | some x => (bindTo s x none, x :: B)

/-- The program follows the rules of values and uses no broken object. The list says which operations succeeded. -/
def Prudent (s : Values) (B : List Nat) : List VOp → List Bool → Prop
  | [], _ => True
  | p :: ps, oks => (∀ y ∈ namesOf p, y ∉ B) ∧ ∃ s', valueStep s p = some s' ∧
      match oks with
      | [] => True
      | ok :: rest => Prudent (afterwards s s' B p ok).1 (afterwards s s' B p ok).2 ps rest

/-- The values at the end. -/
def scarceRun (s : Values) (B : List Nat) : List VOp → List Bool → Values
  | p :: ps, ok :: rest =>
    match valueStep s p with
    | some s' => scarceRun (afterwards s s' B p ok).1 (afterwards s s' B p ok).2 ps rest
    | none => s
  | _, _ => s

end Verif.Spec
