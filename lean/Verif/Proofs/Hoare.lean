import Verif.Model.Session
/-!
# Reasoning about session code

`wp env m Q E s`: running `m` from `s` ends in a state with `Q` when it returns and with `E` when it stops.
`Inv env I m`: `m` preserves `I`, in whatever way it ends.
-/
namespace Verif.Proofs
open Verif Verif.Model

def wp {α : Type} (env : Env) (m : M α) (Q : α → St → Prop) (E : Stop → St → Prop) (s : St) : Prop :=
  match m env s with
  | (.ok a, s') => Q a s'
  | (.stop e, s') => E e s'

variable {α β : Type} {env : Env} {Q : α → St → Prop} {E : Stop → St → Prop} {s : St}

theorem wp_mono {m : M α} {Q' : α → St → Prop} {E' : Stop → St → Prop} (h : wp env m Q E s)
    (hq : ∀ a s', Q a s' → Q' a s') (he : ∀ e s', E e s' → E' e s') : wp env m Q' E' s := by
  unfold wp at *
  split <;> simp_all

theorem wp_and {m : M α} {Q' : α → St → Prop} {E' : Stop → St → Prop} (h : wp env m Q E s) (h' : wp env m Q' E' s) :
    wp env m (fun a s' => Q a s' ∧ Q' a s') (fun e s' => E e s' ∧ E' e s') s := by
  unfold wp at *
  split <;> simp_all

theorem bind_run (m : M β) (f : β → M α) (env : Env) (s : St) :
    (m >>= f) env s = match m env s with
      | (.ok a, s') => f a env s'
      | (.stop e, s') => (.stop e, s') := rfl
theorem pure_run (a : α) (env : Env) (s : St) : (pure a : M α) env s = (.ok a, s) := rfl
theorem gets_run (f : Client → α) (env : Env) (s : St) : M.gets f env s = (.ok (f s.client), s) := rfl

@[simp] theorem wp_pure (a : α) : wp env (pure a : M α) Q E s ↔ Q a s := Iff.rfl

@[simp] theorem wp_bind (m : M β) (f : β → M α) :
    wp env (m >>= f) Q E s ↔ wp env m (fun b s' => wp env (f b) Q E s') E s := by
  show wp env (M.bind m f) Q E s ↔ _
  unfold wp M.bind
  cases h : m env s with
  | mk r s' => cases r <;> simp

@[simp] theorem wp_stop (e : Stop) : wp env (M.stop e : M α) Q E s ↔ E e s := Iff.rfl
@[simp] theorem wp_gets (f : Client → α) : wp env (M.gets f) Q E s ↔ Q (f s.client) s := Iff.rfl
@[simp] theorem wp_modify {Q : Unit → St → Prop} (f : Client → Client) :
    wp env (M.modify f) Q E s ↔ Q () { s with client := f s.client } := Iff.rfl
@[simp] theorem wp_modifyMem {Q : Unit → St → Prop} (op : SessionOp) (f : Client → Client) :
    wp env (M.modifyMem op f) Q E s ↔ Q () { s with client := f s.client, mem := s.mem ++ [op] } := Iff.rfl
@[simp] theorem wp_env (f : Env → α) : wp env (M.env f) Q E s ↔ Q (f env) s := Iff.rfl
@[simp] theorem wp_emit {Q : Unit → St → Prop} (e : Ev) :
    wp env (M.emit e) Q E s ↔ Q () { s with hist := s.hist ++ [e] } := Iff.rfl
@[simp] theorem wp_ask (f : Env → Hist → α) (ev : α → Ev) :
    wp env (M.ask f ev) Q E s ↔ Q (f env s.hist) { s with hist := s.hist ++ [ev (f env s.hist)] } := Iff.rfl
@[simp] theorem wp_ask' (f : Env → Hist → α) : wp env (M.ask' f) Q E s ↔ Q (f env s.hist) s := Iff.rfl
@[simp] theorem wp_histLength {Q : Nat → St → Prop} : wp env M.histLength Q E s ↔ Q s.hist.length s := Iff.rfl

@[simp] theorem wp_ite (c : Prop) [Decidable c] (a b : M α) :
    wp env (if c then a else b) Q E s ↔ (c → wp env a Q E s) ∧ (¬ c → wp env b Q E s) := by
  split <;> simp_all

/-- A relation between states that can be chained. -/
class Preord (R : St → St → Prop) : Prop where
  refl : ∀ s, R s s
  trans : ∀ {a b c}, R a b → R b c → R a c

/-- Every run of `m` goes from a state to one related to it, in whatever way it ends. -/
structure Steps (env : Env) (R : St → St → Prop) (m : M α) : Prop where
  run : ∀ s, wp env m (fun _ => R s) (fun _ => R s) s

namespace Steps
variable {R : St → St → Prop}

theorem pure [hp : Preord R] (a : α) : Steps env R (Pure.pure a : M α) := ⟨fun s => hp.refl s⟩
theorem bind [hp : Preord R] {m : M β} {f : β → M α} (hm : Steps env R m) (hf : ∀ b, Steps env R (f b)) :
    Steps env R (m >>= f) := by
  constructor
  intro s
  rw [wp_bind]
  exact wp_mono (hm.run s)
    (fun b s' h => wp_mono ((hf b).run s') (fun _ _ h' => hp.trans h h') (fun _ _ h' => hp.trans h h')) (fun _ _ h => h)
theorem stop [hp : Preord R] (e : Stop) : Steps env R (M.stop e : M α) := ⟨fun s => hp.refl s⟩
theorem gets [hp : Preord R] (f : Client → α) : Steps env R (M.gets f) := ⟨fun s => hp.refl s⟩
theorem env' [hp : Preord R] (f : Env → α) : Steps env R (M.env f) := ⟨fun s => hp.refl s⟩
theorem ask' [hp : Preord R] (f : Env → Hist → α) : Steps env R (M.ask' f) := ⟨fun s => hp.refl s⟩
theorem histLength [hp : Preord R] : Steps env R M.histLength := ⟨fun s => hp.refl s⟩
theorem ite {c : Prop} [Decidable c] {a b : M α} (ha : Steps env R a) (hb : Steps env R b) :
    Steps env R (if c then a else b) := by
  split <;> assumption
theorem modifyMem {op : SessionOp} {f : Client → Client} (h : ∀ s, R s { s with client := f s.client, mem := s.mem ++ [op] }) :
    Steps env R (M.modifyMem op f) := ⟨fun s => h s⟩
theorem emit {e : Ev} (h : ∀ s, R s { s with hist := s.hist ++ [e] }) : Steps env R (M.emit e) := ⟨fun s => h s⟩
theorem ask {f : Env → Hist → α} {ev : α → Ev} (h : ∀ s a, R s { s with hist := s.hist ++ [ev a] }) :
    Steps env R (M.ask f ev) := ⟨fun s => h s _⟩
theorem modify {f : Client → Client} (h : ∀ s, R s { s with client := f s.client }) : Steps env R (M.modify f) := ⟨fun s => h s⟩
theorem mono {R' : St → St → Prop} {m : M α} (hm : Steps env R m) (h : ∀ s s', R s s' → R' s s') : Steps env R' m :=
  ⟨fun s => wp_mono (hm.run s) (fun _ _ => h _ _) (fun _ _ => h _ _)⟩
end Steps

/-- Prove `Steps` goals by following the structure of the program; the terms are lemmas about the parts. -/
syntax "steps" "[" term,* "]" : tactic
macro_rules
  | `(tactic| steps [$ts,*]) => do
    let alts ← ts.getElems.mapM fun t => `(tacticSeq| with_reducible apply $t)
    `(tactic| repeat' (first
        $[| $alts:tacticSeq]*
        | assumption
        | with_reducible apply Steps.pure | with_reducible apply Steps.stop | with_reducible apply Steps.gets
        | with_reducible apply Steps.env' | with_reducible apply Steps.ask' | with_reducible apply Steps.histLength
        | with_reducible apply Steps.bind | with_reducible apply Steps.ite
        | intro _
        | split))

end Verif.Proofs
