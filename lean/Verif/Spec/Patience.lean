import Verif.Model.World
/-!
# Waiting for the server (specification)
-/
namespace Verif.Spec
open Verif Verif.Model

/-- An attempt to read, or a second of sleep. -/
def waiting : Ev → Bool
  | .recv _ _ => true
  | .sleep => true
  | _ => false

/-- A stretch of history in which the client does nothing but wait, for `n` seconds or more. -/
def Waits (n : Nat) (l : Hist) : Prop := (∀ e ∈ l, waiting e = true) ∧ n ≤ l.count .sleep

/-- After `h0` the two histories are the same up to the end of a wait of `n` seconds, or up to a `select` that the world answers in one way for `T` seconds and in another
for `T'` seconds. -/
def Impatient (env : Env) (n T T' : Nat) (h0 h h' : Hist) : Prop :=
  ∃ shared rest rest',
    (∃ l, Waits n l ∧ h = h0 ++ shared ++ l ++ rest ∧ h' = h0 ++ shared ++ l ++ rest') ∨
    (∃ fd, env.select (h0 ++ shared) fd T ≠ env.select (h0 ++ shared) fd T' ∧ h = h0 ++ shared ++ .select fd (env.select (h0 ++ shared) fd T) :: rest ∧
      h' = h0 ++ shared ++ .select fd (env.select (h0 ++ shared) fd T') :: rest')

end Verif.Spec
