import Verif.Props.WinOrder
import Verif.Props.Duration
/-!
# Waiting on Windows (C84)

What C54 and C70 say about the waiting on POSIX, said about Windows.
-/
namespace Verif.Props
open Verif Verif.Model Verif.Spec Verif.Proofs

theorem spoken_split {h : Hist} {k : SendKind} {c : Chan} {d : Bytes} {r : SendRes} {pre post : Hist} (hs : spoken h = pre ++ .send k c d r :: post) :
    ∃ pre' c' post', h = pre' ++ .send k c' d r :: post' ∧ spoken pre' = pre ∧ spoken post' = post := by
  obtain ⟨a, b, rfl, h1, h2⟩ := List.filterMap_eq_append_iff.mp hs
  obtain ⟨x, e, y, rfl, h3, h4, h5⟩ := List.filterMap_eq_cons_iff.mp h2
  have : ∃ c', e = .send k c' d r := by
    cases e <;> simp only [spokenEv, Option.some.injEq, reduceCtorEq, Ev.send.injEq] at h4
    obtain ⟨rfl, -, rfl, rfl⟩ := h4
    exact ⟨_, rfl⟩
  obtain ⟨c', rfl⟩ := this
  refine ⟨a ++ x, c', y, by simp, ?_, h5⟩
  rw [spoken_append]
  have : spoken x = [] := List.filterMap_eq_nil_iff.mpr h3
  rw [this, List.append_nil]; exact h1

theorem spoken_cons (e : Ev) (h : Hist) : spoken (e :: h) = spoken [e] ++ spoken h := spoken_append [e] h

theorem sleeps_spoken (h : Hist) : sleeps (spoken h) = sleeps h := by
  induction h with
  | nil => rfl
  | cons e h ih =>
    rw [spoken_cons, sleeps_append', ih, show e :: h = [e] ++ h from rfl, sleeps_append']
    congr 1
    cases e <;> rfl

theorem commandSends_spoken (h : Hist) : commandSends (spoken h) = commandSends h := by
  induction h with
  | nil => rfl
  | cons e h ih =>
    rw [spoken_cons, commandSends_append, ih, show e :: h = [e] ++ h from rfl, commandSends_append]
    congr 1
    cases e <;> try rfl
    rename_i k _ _ _
    cases k <;> rfl

theorem ehloParts_spoken (h : Hist) : ehloParts (spoken h) = ehloParts h := by
  have : ∀ t, (spoken h).foldl partsStep t = h.foldl partsStep t := by
    induction h with
    | nil => intro t; rfl
    | cons e h ih =>
      intro t
      rw [spoken_cons, List.foldl_append, ih, List.foldl_cons]
      congr 1
      cases e <;> try rfl
      · rename_i k _ _ _
        cases k <;> rfl
      · rename_i r
        cases r <;> rfl
  unfold ehloParts
  rw [this]

theorem settled_spoken {T : Nat} (h : Hist) : Settled T (spoken h) ↔ Settled T h := by
  constructor
  · rintro hs pre c d n post rfl
    have := hs (spoken pre) (chanKind c) d n (spoken post) (by rw [spoken_append, spoken_send])
    rwa [dataReads_spoken, sleeps_spoken] at this
  · rintro hs pre c d n post he
    obtain ⟨pre', c', post', rfl, rfl, rfl⟩ := spoken_split he
    rw [dataReads_spoken, sleeps_spoken]
    exact hs pre' c' d n post' rfl

theorem lockStep_spoken {T : Nat} (h : Hist) : LockStep T (spoken h) ↔ LockStep T h := by
  constructor
  · rintro hs pre c d r post rfl
    exact (settled_spoken pre).mp (hs (spoken pre) (chanKind c) d r (spoken post) (by rw [spoken_append, spoken_send]))
  · rintro hs pre c d r post he
    obtain ⟨pre', c', post', rfl, rfl, rfl⟩ := spoken_split he
    exact (settled_spoken pre').mpr (hs pre' c' d r post' rfl)

theorem lockStep_prefix {T : Nat} {a b : Hist} (h : LockStep T (a ++ b)) : LockStep T a :=
  fun pre c d r post e => h pre c d r (post ++ b) (by rw [e]; simp)

/-- **C54 on Windows.** Whatever the calls and however they end: when a command is sent, every earlier command was answered with data or `timeout` seconds were slept after it. -/
theorem C84_lock_step_partial (e : Env) (w : WinCalls) (kind : Kind) (name : Bytes) (port : Nat) (cs : List Call) (hf : ∀ c ∈ cs, CallFits c) (hc : ∀ n, .setCommandTimeout n ∉ cs) :
    LockStep (newClient kind name port).client.timeout (Gen.runCalls (windows w) cs e (newClient kind name port)).2.hist := by
  obtain ⟨e', -, -, -, hs⟩ := C84_same_dialogue_partial e w kind name port cs hf
  rw [← lockStep_spoken, hs, lockStep_spoken]
  obtain ⟨evs, h1, h2⟩ := C54_lock_step_partial e' (newClient kind name port) cs hc
  obtain ⟨x, hx⟩ := life_runCalls cs e' (newClient kind name port)
  have h3 : evs = (runCalls cs e' (newClient kind name port)).2.hist ++ x := by
    rw [hx] at h1
    exact h1.symm
  rw [h3] at h2
  exact lockStep_prefix h2

/-- **C70 on Windows.** A mail on Windows sends at most 11 commands and one for every recipient, and the seconds it sleeps have the bound they have on POSIX. -/
theorem C84_waiting_partial (e : Env) (w : WinCalls) (kind : Kind) (name : Bytes) (port : Nat) (cs : List Call) (hf : ∀ c ∈ cs, CallFits c) (m : Message) (hm : MessageFits m)
    (rs : List CallRes) (t u : St) (code : Int) (h1 : Gen.runCalls (windows w) cs e (newClient kind name port) = (.ok rs, t)) (h2 : Gen.sendMail (windows w) m e t = (.ok code, u)) :
    ∃ evs, u.hist = t.hist ++ evs ∧ commandSends evs ≤ 11 + (recipients m).length ∧
      sleeps evs ≤ max 1 t.client.timeout * (12 + (recipients m).length + ehloParts evs) := by
  obtain ⟨e', rs', t', code', u', h3, h4, -, -, hv, -, hx⟩ := C84_each_mail_partial e w kind name port cs hf m hm rs t u code h1 h2
  obtain ⟨evs, h5, h6, -, h7⟩ := C70_waiting_is_bounded e' m t'
  rw [h4] at h5
  obtain ⟨evs0, h9, h10⟩ := hx evs h5
  refine ⟨evs0, h9, ?_, ?_⟩
  · rw [← commandSends_spoken, h10, commandSends_spoken]; exact h6
  · rw [← sleeps_spoken, h10, sleeps_spoken, ← ehloParts_spoken, h10, ehloParts_spoken, hv.settings.timeout]; exact h7

/-- A server that says nothing after its answer to EHLO: MAIL FROM is given up on after five seconds. -/
example : MessageFits mail ∧
    (let u := Gen.sendMail (windows fineCalls) mail (scripted ([.data b!"220 hi\r\n"] ++ clear [b!"250 ok\r\n"])) (newClient .smtp b!"mail.org" 25)
     (u.1, commandSends u.2.hist, sleeps u.2.hist, ehloParts u.2.hist)) = (.ok (-86), 2, 5, 1) :=
  ⟨mail_fits, by decide +kernel⟩

end Verif.Props
