import Verif.Model.CppClients
/-!
# What a user expects of clients that hold credentials

No memory: every client has the credentials last given to it, together with a number for the moment they were given. Copies have
the same.
-/
namespace Verif.Spec
open Verif Verif.Model

/-- For every live client its credentials, if any, with the moment they were given. -/
abbrev Holders := Nat → Option (Option (Nat × Credential))

def noHolders : Holders := fun _ => none

def Holders.put (o : Holders) (x : Nat) (v : Option (Option (Nat × Credential))) : Holders := fun y => if y = x then v else o y

/-- What an operation at moment `n` should do. -/
def expected (n : Nat) (o : Holders) : CppOp → Holders
  | .construct x => if o x = none then o.put x (some none) else o
  | .copy x y | .move x y => if o x = none ∧ o y ≠ none then o.put x (o y) else o
  | .assign x y | .moveAssign x y => if o x ≠ none ∧ o y ≠ none then o.put x (o y) else o
  | .destroy x => o.put x none
  | .setCredentials x c => if o x ≠ none then o.put x (some (some (n, c))) else o
  | .setCredentialsFrom x y =>
    match o x, o y with
    | some _, some (some (_, c)) => o.put x (some (some (n, c)))
    | _, _ => o
  | .read _ => o

/-- `x` has credentials which it does not share with another live client. -/
def NotShared (o : Holders) (x : Nat) : Prop := ∀ y v, y ≠ x → o x = some (some v) → o y ≠ some (some v)

/-- Careful use: credentials are only replaced in clients that do not share them, and a client is not given its own. -/
def Careful (o : Holders) : CppOp → Prop
  | .setCredentials x _ => NotShared o x
  | .setCredentialsFrom x y => NotShared o x ∧ (x = y → ∀ v, o x ≠ some (some v))
  | _ => True

def CarefulRun (n : Nat) (o : Holders) : List CppOp → Prop
  | [] => True
  | op :: ops => Careful o op ∧ CarefulRun (n + 1) (expected n o op) ops

/-- The holders after a program that starts at moment `n`. -/
def expectedRun (n : Nat) (o : Holders) : List CppOp → Holders
  | [] => o
  | op :: ops => expectedRun (n + 1) (expected n o op) ops

/-- What `getCredentials` of every client shows: the object it points to is there and has the content expected. -/
def ShowsAll (h : CppHeap) (o : Holders) : Prop :=
  ∀ x, match o x with
    | none => h.client x = none
    | some none => h.client x = some none
    | some (some (_, c)) => ∃ a, h.client x = some (some a) ∧ h.mem a = some c

end Verif.Spec
