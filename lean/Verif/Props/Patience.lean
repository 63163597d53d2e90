import Verif.Proofs.PatienceLife
import Verif.Spec.Script
/-!
# C91: a longer timeout changes nothing unless the shorter one runs out
-/
namespace Verif.Props
open Verif Verif.Model Verif.Spec Verif.Proofs

/-- The client of a state with this timeout. -/
def St.patient (s : St) (T : Nat) : St := { s with client := { s.client with timeout := T } }

/-- **C91.** Two clients that differ in the command timeout only, in any state and any world, with the same calls after that and the destructor. They do the same in every respect (results,
exchanges with the world, and the client that is left but for the timeout), or they do the same up to the end of a wait of as many seconds as the shorter of the two timeouts, or up to a `select`
whose answer depends on which of the two it was given. -/
theorem C91_same_until_timeout (env : Env) (s : St) (T T' : Nat) (cs : List Call) :
    ((life cs env (St.patient s T)).1 = (life cs env (St.patient s T')).1 ∧
      (life cs env (St.patient s T)).2.hist = (life cs env (St.patient s T')).2.hist ∧
      ∃ left, (life cs env (St.patient s T)).2.client = { (life cs env (St.patient s T')).2.client with timeout := left }) ∨
    Impatient env (min T T') T T' s.hist (life cs env (St.patient s T)).2.hist (life cs env (St.patient s T')).2.hist := by
  rcases Nat.eq_zero_or_pos (min T T') with h | h
  · obtain ⟨x, hx⟩ := ext_run (life_steps (R := Ext) (env := env) cs) (St.patient s T)
    obtain ⟨y, hy⟩ := ext_run (life_steps (R := Ext) (env := env) cs) (St.patient s T')
    exact .inr ⟨[], x, y, .inl ⟨[], ⟨by simp, by omega⟩, by rw [hx]; simp [St.patient], by rw [hy]; simp [St.patient]⟩⟩
  · have h0 : Slow (min T T') T T' (St.patient s T) (St.patient s T') := ⟨rfl, rfl, rfl, rfl, rfl, Nat.min_le_left _ _, Nat.min_le_right _ _⟩
    rcases (unhurried_life (env := env) (h0 := s.hist) cs).run h _ _ (.inr h0) ⟨[], (List.append_nil _).symm⟩ with ⟨h1, h2⟩ | h
    · rcases h2 with h2 | h2
      · exact .inl ⟨h1, by rw [h2], _, by rw [h2]⟩
      · exact .inl ⟨h1, h2.hist, _, h2.client⟩
    · exact .inr h

/-- When no wait of a run lasts as long as its timeout and no connection attempt times out, a longer timeout gives the same run. The world is one in which `select` answers the same when
it is given more time than it needs. -/
theorem C91_longer_timeout (env : Env) (s : St) (T T' : Nat) (hT : T ≤ T') (cs : List Call) (evs : Hist) (hs : (life cs env (St.patient s T)).2.hist = s.hist ++ evs)
    (hsel : ∀ h fd, env.select h fd T ≠ .timeout → env.select h fd T' = env.select h fd T) (hw : ∀ a l b, evs = a ++ l ++ b → ¬ Waits T l) (ht : ∀ fd, .select fd .timeout ∉ evs) :
    (life cs env (St.patient s T')).1 = (life cs env (St.patient s T)).1 ∧ (life cs env (St.patient s T')).2.hist = s.hist ++ evs := by
  rcases C91_same_until_timeout env s T T' cs with ⟨h1, h2, -⟩ | ⟨shared, rest, rest', ⟨l, hl, h, -⟩ | ⟨fd, hne, h, -⟩⟩
  · exact ⟨h1.symm, by rw [← h2, hs]⟩
  · rw [hs, List.append_assoc, List.append_assoc] at h
    rw [Nat.min_eq_left hT] at hl
    exact absurd hl (hw shared l rest (by rw [List.append_cancel_left h, List.append_assoc]))
  · rw [hs, List.append_assoc s.hist] at h
    have he := List.append_cancel_left h
    by_cases ho : env.select (s.hist ++ shared) fd T = .timeout
    · rw [ho] at he
      exact absurd (by rw [he]; simp) (ht fd)
    · exact absurd (hsel _ _ ho).symm hne

/-- Less sleep in all than the timeout: no wait is that long. -/
theorem no_long_wait {evs : Hist} {T : Nat} (h : evs.count .sleep < T) : ∀ a l b, evs = a ++ l ++ b → ¬ Waits T l := by
  rintro a l b rfl ⟨-, hl⟩
  simp only [List.count_append] at h
  omega

/-- A server that is two seconds late with its greeting, behind a network where a connection takes two seconds. -/
def lateServer : Env :=
  { scripted ([.err, .err, .data b!"220 hi\r\n"] ++ clear [b!"250 ok\r\n", b!"250 ok\r\n", b!"250 ok\r\n", b!"354 go\r\n", b!"250 ok\r\n"]) with
    connect := fun _ _ _ => .err 115
    select := fun _ _ T => if 2 ≤ T then .ready else .timeout }

/-- Three seconds are enough, and so is any longer timeout. -/
example (T : Nat) (hT : 3 ≤ T) : (life [.sendMail mail] lateServer (St.patient (fresh .smtp) T)).1 = .ok [.returned 0] := by
  have h3 : (life [.sendMail mail] lateServer (St.patient (fresh .smtp) 3)).1 = .ok [.returned 0] := by decide +kernel
  refine (C91_longer_timeout lateServer (fresh .smtp) 3 T hT [.sendMail mail] (life [.sendMail mail] lateServer (St.patient (fresh .smtp) 3)).2.hist (by decide +kernel) ?_
    (no_long_wait (by decide +kernel)) ?_).1.trans h3
  · intro h fd _
    show (if 2 ≤ T then SelRes.ready else .timeout) = .ready
    rw [if_pos (by omega)]
  · have : ∀ e ∈ (life [.sendMail mail] lateServer (St.patient (fresh .smtp) 3)).2.hist, (match e with | .select _ r => r == .ready | _ => true) = true := by decide +kernel
    intro fd h
    exact absurd (this _ h) Bool.false_ne_true

/-- Two seconds are not: the greeting comes too late. One second is not even enough for the connection. -/
example : (life [.sendMail mail] lateServer (St.patient (fresh .smtp) 2)).1 = .ok [.returned (-3)] ∧
    (life [.sendMail mail] lateServer (St.patient (fresh .smtp) 1)).1 = .ok [.returned (-3)] ∧
    .select 5 .timeout ∈ (life [.sendMail mail] lateServer (St.patient (fresh .smtp) 1)).2.hist ∧
    ((life [.sendMail mail] lateServer (St.patient (fresh .smtp) 2)).2.hist.filter waiting).take 4 = [.recv (.raw 5) .err, .sleep, .recv (.raw 5) .err, .sleep] := by decide +kernel

end Verif.Props
