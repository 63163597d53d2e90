import Verif.Proofs.Turn
import Verif.Proofs.Keeps
import Verif.Proofs.Lists
import Verif.Spec.Waiting
/-!
# Counting seconds and reads
-/
namespace Verif.Proofs
open Verif Verif.Model Verif.Spec

variable {env : Env}

/-- Not a command. -/
def NoCmdEv : Ev → Prop
  | .send .cmd _ _ _ => False
  | _ => True

/-- Neither a command nor a second of waiting. -/
def RestEv : Ev → Prop
  | .send .cmd _ _ _ => False
  | .sleep => False
  | _ => True

/-- Only such events, and the timeout is not changed. -/
def Lull (P : Ev → Prop) (s s' : St) : Prop := s'.client.timeout = s.client.timeout ∧ NewEvents P s s'

theorem Lull.trans {P : Ev → Prop} {a b c : St} (h : Lull P a b) (h' : Lull P b c) : Lull P a c := ⟨h'.1.trans h.1, h.2.trans h'.2⟩

instance : Silent (Lull RestEv) where
  refl := fun _ => ⟨rfl, .same rfl⟩
  trans := .trans
  log := fun _ _ _ _ _ _ _ => ⟨rfl, .same rfl⟩
  errno := fun _ _ => ⟨rfl, .same rfl⟩
  resp := fun _ _ => ⟨rfl, .same rfl⟩
  auth := fun _ _ => ⟨rfl, .same rfl⟩
  fcntlGet := fun _ _ _ => ⟨rfl, .one trivial⟩
  fcntlSet := fun _ _ _ _ => ⟨rfl, .one trivial⟩
  select := fun _ _ _ => ⟨rfl, .one trivial⟩
  sockopt := fun _ _ _ => ⟨rfl, .one trivial⟩
  resolve := fun _ _ _ => ⟨rfl, .one trivial⟩
  connect := fun _ _ _ _ => ⟨rfl, .one trivial⟩
  readFile := fun _ _ _ => ⟨rfl, .one trivial⟩
  disconnected := fun _ => ⟨rfl, .same rfl⟩
  ctx := fun _ _ => ⟨rfl, .same rfl⟩
  noBio := fun _ => ⟨rfl, .same rfl⟩
  noSock := fun _ => ⟨rfl, .same rfl⟩
  close := fun _ _ => ⟨rfl, .one trivial⟩
  bioFree := fun _ _ => ⟨rfl, .one trivial⟩
  quit := fun _ _ _ => ⟨rfl, .one trivial⟩
  freshLog := fun _ => ⟨rfl, .same rfl⟩
  keep := fun _ => ⟨rfl, .same rfl⟩
  bio := fun _ _ => ⟨rfl, .same rfl⟩
  sock := fun _ _ => ⟨rfl, .same rfl⟩
  socket := fun _ _ => ⟨rfl, .one trivial⟩
  tls := fun _ _ _ => ⟨rfl, .one trivial⟩
  connected := fun _ => ⟨rfl, .same rfl⟩
  content := fun _ _ _ _ => ⟨rfl, .one trivial⟩

theorem noCmd_of_rest {e : Ev} (h : RestEv e) : NoCmdEv e := by
  unfold NoCmdEv
  split <;> trivial

theorem Lull.noCmd {s s' : St} (h : Lull RestEv s s') : Lull NoCmdEv s s' := ⟨h.1, h.2.mono fun _ => noCmd_of_rest⟩

theorem sleeps_append (a b : Hist) : sleeps (a ++ b) = sleeps a + sleeps b := List.countP_append
theorem dataReads_append (a b : Hist) : dataReads (a ++ b) = dataReads a + dataReads b := List.countP_append
theorem commandSends_append (a b : Hist) : commandSends (a ++ b) = commandSends a + commandSends b := List.countP_append

theorem rest_sleeps {h : Hist} (hr : ∀ e ∈ h, RestEv e) : sleeps h = 0 := by
  unfold sleeps
  rw [List.countP_eq_zero]
  intro e he
  have := hr e he
  cases e <;> simp_all [RestEv]

theorem noCmd_sends {h : Hist} (hr : ∀ e ∈ h, NoCmdEv e) : commandSends h = 0 := by
  unfold commandSends
  rw [List.countP_eq_zero]
  intro e he
  have := hr e he
  unfold NoCmdEv at this
  split at this <;> simp_all

/-- A wait: no commands, at most `T` seconds (one if `T` is 0). -/
def Waited (s s' : St) (got : Prop) (evs : Hist) : Prop :=
  s'.client.timeout = s.client.timeout ∧ s'.hist = s.hist ++ evs ∧ (∀ e ∈ evs, NoCmdEv e) ∧ sleeps evs ≤ max 1 s.client.timeout ∧
  (got → 0 < dataReads evs) ∧ (0 < dataReads evs ∨ s.client.timeout ≤ sleeps evs)

/-- A wait that did not come to its end. -/
def Stuck (env : Env) (s : St) (e : Stop) (s' : St) : Prop :=
  s'.client.timeout = s.client.timeout ∧ ∃ evs, s'.hist = s.hist ++ evs ∧ (∀ e ∈ evs, NoCmdEv e) ∧ sleeps evs ≤ max 1 s.client.timeout ∧
  (e = .fuel → env.fuel ≤ max 1 s.client.timeout + dataReads evs)

theorem sysRecv_wait (ch : Chan) (s : St) : wp env (sysRecv ch)
    (fun r s' => r ≠ .never ∧ s' = St.snoc s (.recv ch r)) (fun e s' => e = .hang ∧ ∃ r, s' = St.snoc s (.recv ch r) ∧ r = .never) s := by
  unfold sysRecv
  rw [wp_bind, wp_ask, wp_ite]
  exact ⟨fun h => ⟨rfl, _, rfl, h⟩, fun h => ⟨h, rfl⟩⟩

theorem rawReplyLoop_wait (n w acc got) (s : St) :
    wp env (rawReplyLoop n w acc got)
      (fun r s' => ∃ evs, s' = { s with hist := s.hist ++ evs } ∧ (∀ e ∈ evs, NoCmdEv e) ∧ r.1 = w + sleeps evs ∧
        r.1 ≤ max (w + 1) s.client.timeout ∧ (r.2.2 = true ↔ got = true ∨ 0 < dataReads evs) ∧ (s.client.timeout ≤ r.1 ∨ r.2.2 = true))
      (fun e s' => ∃ evs, s' = { s with hist := s.hist ++ evs } ∧ (∀ e ∈ evs, NoCmdEv e) ∧ w + sleeps evs ≤ max (w + 1) s.client.timeout ∧
        (e = .fuel → n ≤ sleeps evs + dataReads evs)) s := by
  induction n generalizing w acc got s with
  | zero =>
    unfold rawReplyLoop
    rw [wp_stop]
    exact ⟨[], by simp, by simp, by simp [sleeps]; omega, by simp⟩
  | succ n ih =>
    have tail : ∀ r, r = .eof ∨ r = .err → wp env (if r = .err ∧ got = true then pure (w, acc, got) else do
          sysSleep
          if w + 1 < s.client.timeout then rawReplyLoop n (w + 1) acc got else pure (w + 1, acc, got))
        (fun r s' => ∃ evs, s' = { s with hist := s.hist ++ evs } ∧ (∀ e ∈ evs, NoCmdEv e) ∧ r.1 = w + sleeps evs ∧
          r.1 ≤ max (w + 1) s.client.timeout ∧ (r.2.2 = true ↔ got = true ∨ 0 < dataReads evs) ∧ (s.client.timeout ≤ r.1 ∨ r.2.2 = true))
        (fun e s' => ∃ evs, s' = { s with hist := s.hist ++ evs } ∧ (∀ e ∈ evs, NoCmdEv e) ∧ w + sleeps evs ≤ max (w + 1) s.client.timeout ∧
          (e = .fuel → n + 1 ≤ sleeps evs + dataReads evs)) (St.snoc s (.recv (.raw s.client.sock) r)) := by
      intro r hr
      have d0 : ∀ evs, dataReads (.recv (.raw s.client.sock) r :: evs) = dataReads evs := by
        intro evs
        rcases hr with rfl | rfl <;> simp [dataReads]
      rw [wp_ite]
      refine ⟨fun hg => ?_, fun hg => ?_⟩
      · rw [wp_pure]
        exact ⟨[.recv (.raw s.client.sock) r], rfl, by simp [NoCmdEv], by simp [sleeps], by simp; omega, by rw [d0]; simp [dataReads], .inr hg.2⟩
      · unfold sysSleep
        rw [wp_bind, wp_emit, wp_ite]
        refine ⟨fun hw => ?_, fun hw => ?_⟩
        · refine wp_mono (ih (w + 1) acc got _) ?_ ?_
          · rintro r' s' ⟨evs, rfl, h1, h2, h3, h4, h5⟩
            refine ⟨.recv (.raw s.client.sock) r :: .sleep :: evs, by simp [St.snoc], ?_, ?_, ?_, ?_, h5⟩
            · simpa [NoCmdEv] using h1
            · simp [sleeps] at h2 ⊢; omega
            · simp [St.snoc] at h3 hw ⊢; omega
            · rw [d0]; simpa [dataReads] using h4
          · rintro e s' ⟨evs, rfl, h1, h2, h3⟩
            refine ⟨.recv (.raw s.client.sock) r :: .sleep :: evs, by simp [St.snoc], ?_, ?_, ?_⟩
            · simpa [NoCmdEv] using h1
            · simp [sleeps, St.snoc] at h2 hw ⊢; omega
            · intro he
              have := h3 he
              rw [d0]
              simp [sleeps, dataReads] at this ⊢
              omega
        · rw [wp_pure]
          refine ⟨[.recv (.raw s.client.sock) r, .sleep], by simp [St.snoc], by simp [NoCmdEv], by simp [sleeps], by simp; omega,
            by rw [d0]; simp [dataReads], .inl (by simp at hw ⊢; omega)⟩
    unfold rawReplyLoop
    rw [wp_bind, wp_gets, wp_bind, wp_gets, wp_bind]
    refine wp_mono (sysRecv_wait _ s) ?_ ?_
    · rintro r _ ⟨hn, rfl⟩
      cases r with
      | never => simp at hn
      | data d =>
        dsimp only
        rw [wp_ite, wp_ite]
        refine ⟨fun _ => ?_, fun _ => ⟨fun hw => ?_, fun hw => ?_⟩⟩
        · rw [wp_stop]
          exact ⟨[.recv (.raw s.client.sock) (.data d)], rfl, by simp [NoCmdEv], by simp [sleeps]; omega, nofun⟩
        · refine wp_mono (ih w (acc ++ cstr d) true (St.snoc s (.recv (.raw s.client.sock) (.data d)))) ?_ ?_
          · rintro r s' ⟨evs, rfl, h1, h2, h3, h4, h5⟩
            refine ⟨.recv (.raw s.client.sock) (.data d) :: evs, by simp [St.snoc], ?_, ?_, h3, ?_, h5⟩
            · simpa [NoCmdEv] using h1
            · simpa [sleeps] using h2
            · simp [h4, dataReads]
          · rintro e s' ⟨evs, rfl, h1, h2, h3⟩
            refine ⟨.recv (.raw s.client.sock) (.data d) :: evs, by simp [St.snoc], ?_, ?_, ?_⟩
            · simpa [NoCmdEv] using h1
            · simpa [sleeps, St.snoc] using h2
            · intro he
              have := h3 he
              simp [sleeps, dataReads] at this ⊢
              omega
        · rw [wp_pure]
          refine ⟨[.recv (.raw s.client.sock) (.data d)], rfl, by simp [NoCmdEv], by simp [sleeps], by simp; omega, by simp [dataReads], .inr rfl⟩
      | eof => exact tail .eof (.inl rfl)
      | err => exact tail .err (.inr rfl)
    · rintro e _ ⟨rfl, r, rfl, rfl⟩
      exact ⟨[.recv (.raw s.client.sock) .never], rfl, by simp [NoCmdEv], by simp [sleeps]; omega, nofun⟩

theorem Lull.waited {a b c d : St} {got : Prop} {evs : Hist} (h : Lull RestEv a b) (hw : Waited b c got evs) (h' : Lull RestEv c d) :
    ∃ evs', Waited a d got evs' := by
  obtain ⟨t1, e1, h1, r1⟩ := h
  obtain ⟨t2, h2, n2, s2, g2, f2⟩ := hw
  obtain ⟨t3, e3, h3, r3⟩ := h'
  have z1 := rest_sleeps r1
  have z3 := rest_sleeps r3
  refine ⟨e1 ++ evs ++ e3, t3.trans (t2.trans t1), by rw [h3, h2, h1]; simp, ?_, ?_, ?_, ?_⟩
  · intro e he
    rcases List.mem_append.mp he with he | he
    · rcases List.mem_append.mp he with he | he
      · exact noCmd_of_rest (r1 e he)
      · exact n2 e he
    · exact noCmd_of_rest (r3 e he)
  · rw [sleeps_append, sleeps_append, z1, z3, ← t1]; omega
  · intro g
    have := g2 g
    rw [dataReads_append, dataReads_append]
    omega
  · rw [dataReads_append, dataReads_append, sleeps_append, sleeps_append, z1, z3, ← t1]
    omega

theorem Lull.stuck {a b c : St} {e : Stop} (h : Lull RestEv a b) (hw : Stuck env b e c) : Stuck env a e c := by
  obtain ⟨t1, e1, h1, r1⟩ := h
  obtain ⟨t2, e2, h2, n2, s2, f2⟩ := hw
  have z1 := rest_sleeps r1
  refine ⟨t2.trans t1, e1 ++ e2, by rw [h2, h1]; simp, ?_, ?_, ?_⟩
  · intro e he
    rcases List.mem_append.mp he with he | he
    · exact noCmd_of_rest (r1 e he)
    · exact n2 e he
  · rw [sleeps_append, z1, ← t1]; omega
  · intro he
    have := f2 he
    rw [dataReads_append, ← t1]
    omega

theorem addLog_ends (i p : Bytes) (s : St) : wp env (addLog i p) (fun _ s' => Lull RestEv s s') (fun e s' => (∃ u, e = .ub u) ∧ Lull RestEv s s') s := by
  unfold addLog
  rw [wp_bind, wp_gets]
  cases hl : s.client.log with
  | none => exact ⟨⟨_, rfl⟩, Preord.refl (R := Lull RestEv) s⟩
  | some l =>
    cases ha : l.add i p with
    | error u => simp only [ha]; exact ⟨⟨_, rfl⟩, Preord.refl (R := Lull RestEv) s⟩
    | ok l' => simp only [ha]; exact Harmless.log (R := Lull RestEv) s l i p l' hl ha

theorem logErrno_ends (e : Int) (s : St) : wp env (logErrno e) (fun _ s' => Lull RestEv s s') (fun e s' => (∃ u, e = .ub u) ∧ Lull RestEv s s') s := by
  unfold logErrno setErrNo
  rw [wp_bind, wp_modify, wp_bind, wp_env]
  exact wp_mono (addLog_ends _ _ _) (fun _ _ h => (show Lull RestEv s _ from ⟨rfl, .same rfl⟩).trans h)
    (fun _ _ h => ⟨h.1, (show Lull RestEv s _ from ⟨rfl, .same rfl⟩).trans h.2⟩)

theorem setNonBlocking_ends (s : St) : wp env setNonBlocking (fun _ s' => Lull RestEv s s') (fun e s' => (∃ u, e = .ub u) ∧ Lull RestEv s s') s := by
  have snoc : ∀ s' e, RestEv e → Lull RestEv s s' → Lull RestEv s (St.snoc s' e) := fun s' e he h => h.trans ⟨rfl, .one he⟩
  have after : ∀ e s', Lull RestEv s s' → ∀ c : Int, wp env (do logErrno e; pure c) (fun _ s' => Lull RestEv s s')
      (fun e s' => (∃ u, e = .ub u) ∧ Lull RestEv s s') s' := by
    intro e s' h c
    rw [wp_bind]
    exact wp_mono (logErrno_ends e s') (fun _ _ h' => h.trans h') (fun _ _ h' => ⟨h'.1, h.trans h'.2⟩)
  unfold setNonBlocking sysFcntlGet sysFcntlSet
  rw [wp_bind, wp_gets, wp_bind, wp_ask, wp_bind]
  have h1 := snoc s (.fcntlGet s.client.sock (env.fcntlGet s.hist s.client.sock)) trivial (Preord.refl (R := Lull RestEv) s)
  refine wp_mono (Q := fun _ s' => Lull RestEv s s') (E := fun e s' => (∃ u, e = .ub u) ∧ Lull RestEv s s') ?_ ?_ (fun _ _ h => h)
  · unfold logIfErr
    revert h1
    generalize env.fcntlGet s.hist s.client.sock = r
    intro h1
    cases r with
    | ok => exact h1
    | err e => exact wp_mono (logErrno_ends e _) (fun _ _ h' => Lull.trans h1 h') (fun _ _ h' => ⟨h'.1, Lull.trans h1 h'.2⟩)
  · intro _ s' h2
    rw [wp_bind, wp_ask]
    have h3 := snoc s' (.fcntlSet s.client.sock true (env.fcntlSet s'.hist s.client.sock true)) trivial h2
    revert h3
    generalize env.fcntlSet s'.hist s.client.sock true = r
    intro h3
    cases r with
    | ok => exact h3
    | err e => exact after e _ h3 _

theorem setBlocking_ends (s : St) : wp env setBlocking (fun _ s' => Lull RestEv s s') (fun e s' => (∃ u, e = .ub u) ∧ Lull RestEv s s') s := by
  have snoc : ∀ s' e, RestEv e → Lull RestEv s s' → Lull RestEv s (St.snoc s' e) := fun s' e he h => h.trans ⟨rfl, .one he⟩
  have after : ∀ e s', Lull RestEv s s' → ∀ c : Int, wp env (do logErrno e; pure c) (fun _ s' => Lull RestEv s s')
      (fun e s' => (∃ u, e = .ub u) ∧ Lull RestEv s s') s' := by
    intro e s' h c
    rw [wp_bind]
    exact wp_mono (logErrno_ends e s') (fun _ _ h' => h.trans h') (fun _ _ h' => ⟨h'.1, h.trans h'.2⟩)
  unfold setBlocking sysFcntlGet sysFcntlSet
  rw [wp_bind, wp_gets, wp_bind, wp_ask]
  have h1 := snoc s (.fcntlGet s.client.sock (env.fcntlGet s.hist s.client.sock)) trivial (Preord.refl (R := Lull RestEv) s)
  revert h1
  generalize env.fcntlGet s.hist s.client.sock = r
  intro h1
  cases r with
  | err e => exact after e _ h1 _
  | ok =>
    dsimp only
    rw [wp_bind, wp_ask]
    have h2 := snoc _ (.fcntlSet s.client.sock false (env.fcntlSet (s.hist ++ [.fcntlGet s.client.sock .ok]) s.client.sock false)) trivial h1
    revert h2
    generalize env.fcntlSet (s.hist ++ [.fcntlGet s.client.sock .ok]) s.client.sock false = r
    intro h2
    cases r with
    | ok => exact h2
    | err e => exact after e _ h2 _

theorem Lull.stuck_ub {a b : St} {u : UB} (h : Lull RestEv a b) : Stuck env a (.ub u) b := by
  obtain ⟨t1, e1, h1, r1⟩ := h
  exact ⟨t1, e1, h1, fun e he => noCmd_of_rest (r1 e he), by rw [rest_sleeps r1]; omega, nofun⟩

theorem Waited.stuck_ub {a b c : St} {got : Prop} {evs : Hist} {u : UB} (h : Waited a b got evs) (h' : Lull RestEv b c) : Stuck env a (.ub u) c := by
  obtain ⟨t2, h2, n2, s2, g2, f2⟩ := h
  obtain ⟨t1, e1, h1, r1⟩ := h'
  refine ⟨t1.trans t2, evs ++ e1, by rw [h1, h2]; simp, ?_, ?_, nofun⟩
  · intro e he
    rcases List.mem_append.mp he with he | he
    · exact n2 e he
    · exact noCmd_of_rest (r1 e he)
  · rw [sleeps_append, rest_sleeps r1]; omega

theorem Lull.refl (s : St) : Lull RestEv s s := Preord.refl (R := Lull RestEv) s

theorem getRawReply_wait (s : St) :
    wp env getRawReply (fun code s' => ∃ evs, Waited s s' (code ≠ -1) evs) (fun e s' => Stuck env s e s') s := by
  unfold getRawReply
  rw [wp_bind]
  refine wp_mono (setNonBlocking_ends s) ?_ (by rintro e s' ⟨⟨u, rfl⟩, h⟩; exact h.stuck_ub)
  intro _ s1 h1
  rw [wp_bind, wp_env, wp_bind]
  refine wp_mono (rawReplyLoop_wait env.fuel 0 [] false s1) ?_ ?_
  · rintro ⟨w, acc, got⟩ s2 ⟨evs, rfl, n2, w2, m2, g2, f2⟩
    simp only [Bool.false_eq_true, false_or, Nat.zero_add] at w2 m2 g2 f2
    dsimp only
    have hw : Waited s1 { s1 with hist := s1.hist ++ evs } (got = true) evs :=
      ⟨rfl, rfl, n2, by omega, g2.mp, by
        rcases f2 with f2 | f2
        · exact .inr (by omega)
        · exact .inl (g2.mp f2)⟩
    rw [wp_bind]
    refine wp_mono (setBlocking_ends _) ?_ (by rintro e s' ⟨⟨u, rfl⟩, h⟩; exact h1.stuck (hw.stuck_ub h))
    intro _ s3 h3
    rw [wp_bind, wp_gets, wp_ite]
    have t3 : s3.client.timeout = s1.client.timeout := h3.1
    refine ⟨fun hc => ?_, fun hc => ?_⟩
    · have hgot : got = true := by
        rcases hc with hc | hc
        · rcases f2 with f2 | f2
          · omega
          · exact f2
        · exact hc
      unfold setLastServerResponse
      rw [wp_bind, wp_modifyMem, wp_bind]
      have h4 : Lull RestEv s3 { s3 with client := { s3.client with lastResponse := some (cstr acc) }, mem := s3.mem ++ [.response (cstr acc)] } := ⟨rfl, .same rfl⟩
      refine wp_mono (addLog_ends _ _ _) ?_ (by rintro e s' ⟨⟨u, rfl⟩, h⟩; exact h1.stuck (hw.stuck_ub ((h3.trans h4).trans h)))
      intro _ s5 h5
      rw [wp_pure]
      obtain ⟨evs', h⟩ := h1.waited hw ((h3.trans h4).trans h5)
      exact ⟨evs', h.1, h.2.1, h.2.2.1, h.2.2.2.1, fun _ => h.2.2.2.2.1 hgot, h.2.2.2.2.2⟩
    · rw [wp_pure]
      obtain ⟨evs', h⟩ := h1.waited hw h3
      exact ⟨evs', h.1, h.2.1, h.2.2.1, h.2.2.2.1, fun h => absurd rfl h, h.2.2.2.2.2⟩
  · rintro e s2 ⟨evs, rfl, n2, m2, f2⟩
    refine h1.stuck ⟨rfl, evs, rfl, n2, by omega, fun he => ?_⟩
    have := f2 he
    omega

/-- What one read does. -/
def ReadOnce (env : Env) (read : M RecvRes) : Prop := ∀ s, wp env read
  (fun r s' => ∃ evs, s' = { s with hist := s.hist ++ evs } ∧ (∀ e ∈ evs, RestEv e) ∧ ((∃ d, r = .data d) → 0 < dataReads evs))
  (fun e s' => e = .hang ∧ ∃ evs, s' = { s with hist := s.hist ++ evs } ∧ ∀ e ∈ evs, RestEv e) s

theorem sysRecv_once (ch : Chan) : ReadOnce env (sysRecv ch) := by
  intro s
  refine wp_mono (sysRecv_wait ch s) ?_ ?_
  · rintro r _ ⟨_, rfl⟩
    refine ⟨[.recv ch r], rfl, by simp [RestEv], ?_⟩
    rintro ⟨d, rfl⟩
    simp [dataReads]
  · rintro e _ ⟨rfl, r, rfl, rfl⟩
    exact ⟨rfl, [.recv ch .never], rfl, by simp [RestEv]⟩

theorem bioRead_once : ReadOnce env bioRead := by
  intro s
  unfold bioRead
  rw [wp_bind, wp_gets]
  cases s.client.bio with
  | none => exact ⟨[], by simp, by simp, by simp⟩
  | some b => exact sysRecv_once _ s

theorem waitLoop_wait {read : M RecvRes} (hr : ReadOnce env read) (n : Nat) (s : St) : wp env (waitLoop read n)
    (fun r s' => ∃ evs, s' = { s with hist := s.hist ++ evs } ∧ (∀ e ∈ evs, NoCmdEv e) ∧ sleeps evs ≤ n ∧ (r.isSome = true → 0 < dataReads evs) ∧
      (r = none → sleeps evs = n))
    (fun e s' => e = .hang ∧ ∃ evs, s' = { s with hist := s.hist ++ evs } ∧ (∀ e ∈ evs, NoCmdEv e) ∧ sleeps evs ≤ n) s := by
  induction n generalizing s with
  | zero =>
    unfold waitLoop
    rw [wp_bind]
    refine wp_mono (hr s) ?_ ?_
    · rintro r _ ⟨evs, rfl, h, _⟩
      exact ⟨evs, rfl, fun e he => noCmd_of_rest (h e he), by rw [rest_sleeps h]; omega, nofun, fun _ => rest_sleeps h⟩
    · rintro e _ ⟨rfl, evs, rfl, h⟩
      exact ⟨rfl, evs, rfl, fun e he => noCmd_of_rest (h e he), by rw [rest_sleeps h]; omega⟩
  | succ n ih =>
    unfold waitLoop
    rw [wp_bind]
    refine wp_mono (hr s) ?_ ?_
    · rintro r _ ⟨evs, rfl, h, hd⟩
      have tail : wp env (do sysSleep; waitLoop read n)
          (fun r s' => ∃ evs, s' = { s with hist := s.hist ++ evs } ∧ (∀ e ∈ evs, NoCmdEv e) ∧ sleeps evs ≤ n + 1 ∧ (r.isSome = true → 0 < dataReads evs) ∧
            (r = none → sleeps evs = n + 1))
          (fun e s' => e = .hang ∧ ∃ evs, s' = { s with hist := s.hist ++ evs } ∧ (∀ e ∈ evs, NoCmdEv e) ∧ sleeps evs ≤ n + 1)
          { s with hist := s.hist ++ evs } := by
        unfold sysSleep
        rw [wp_bind, wp_emit]
        have nc : ∀ evs', (∀ e ∈ evs', NoCmdEv e) → ∀ e ∈ evs ++ .sleep :: evs', NoCmdEv e := by
          intro evs' h' e he
          rcases List.mem_append.mp he with he | he
          · exact noCmd_of_rest (h e he)
          · rcases List.mem_cons.mp he with rfl | he
            · trivial
            · exact h' e he
        have sl : ∀ evs', sleeps (evs ++ .sleep :: evs') = sleeps evs' + 1 := by
          intro evs'
          rw [sleeps_append, rest_sleeps h]
          simp [sleeps]
        refine wp_mono (ih _) ?_ ?_
        · rintro r _ ⟨evs', rfl, h1, h2, h3, h4⟩
          refine ⟨evs ++ .sleep :: evs', by simp, nc evs' h1, by rw [sl]; omega, fun hs => ?_, fun hn => by rw [sl, h4 hn]⟩
          have := h3 hs
          rw [dataReads_append]
          simp only [dataReads, List.countP_cons] at this ⊢
          omega
        · rintro e _ ⟨rfl, evs', rfl, h1, h2⟩
          exact ⟨rfl, evs ++ .sleep :: evs', by simp, nc evs' h1, by rw [sl]; omega⟩
      cases r with
      | data d =>
        exact ⟨evs, rfl, fun e he => noCmd_of_rest (h e he), by rw [rest_sleeps h]; omega, fun _ => hd ⟨d, rfl⟩, nofun⟩
      | eof => exact tail
      | err => exact tail
      | never => exact tail
    · rintro e _ ⟨rfl, evs, rfl, h⟩
      exact ⟨rfl, evs, rfl, fun e he => noCmd_of_rest (h e he), by rw [rest_sleeps h]; omega⟩

theorem waitLoop_waited {read : M RecvRes} (hr : ReadOnce env read) (s : St) : wp env (waitLoop read s.client.timeout)
    (fun r s' => ∃ evs, Waited s s' (r.isSome = true) evs) (fun e s' => Stuck env s e s') s := by
  refine wp_mono (waitLoop_wait hr s.client.timeout s) ?_ ?_
  · rintro r _ ⟨evs, rfl, h1, h2, h3, h4⟩
    refine ⟨evs, rfl, rfl, h1, by omega, h3, ?_⟩
    cases r with
    | none => exact .inr (by rw [h4 rfl]; exact Nat.le_refl _)
    | some d => exact .inl (h3 rfl)
  · rintro e _ ⟨rfl, evs, rfl, h1, h2⟩
    exact ⟨rfl, evs, rfl, h1, by omega, nofun⟩

theorem getTlsReply_wait (s : St) :
    wp env getTlsReply (fun code s' => ∃ evs, Waited s s' (code ≠ -1) evs) (fun e s' => Stuck env s e s') s := by
  unfold getTlsReply
  rw [wp_bind, wp_gets, wp_bind]
  refine wp_mono (waitLoop_waited bioRead_once s) ?_ (fun _ _ h => h)
  rintro r s1 ⟨evs, hw⟩
  cases r with
  | none => exact ⟨evs, hw.1, hw.2.1, hw.2.2.1, hw.2.2.2.1, fun h => absurd rfl h, hw.2.2.2.2.2⟩
  | some d =>
    unfold setLastServerResponse
    dsimp only
    rw [wp_bind, wp_modifyMem, wp_bind]
    have h4 : Lull RestEv s1 { s1 with client := { s1.client with lastResponse := some (cstr (bufferText d)) }, mem := s1.mem ++ [.response (cstr (bufferText d))] } := ⟨rfl, .same rfl⟩
    refine wp_mono (addLog_ends _ _ _) ?_ (by rintro e s' ⟨⟨u, rfl⟩, h⟩; exact hw.stuck_ub (h4.trans h))
    intro _ s5 h5
    rw [wp_pure]
    obtain ⟨evs', h⟩ := (Lull.refl s).waited hw (h4.trans h5)
    exact ⟨evs', h.1, h.2.1, h.2.2.1, h.2.2.2.1, fun _ => h.2.2.2.2.1 rfl, h.2.2.2.2.2⟩

theorem getServerReply_wait (s : St) :
    wp env getServerReply (fun code s' => ∃ evs, Waited s s' (code ≠ -1) evs) (fun e s' => Stuck env s e s') s := by
  unfold getServerReply
  rw [wp_bind, wp_gets, wp_ite]
  exact ⟨fun _ => getRawReply_wait s, fun _ => getTlsReply_wait s⟩

theorem checkServerGreetings_wait (s : St) :
    wp env checkServerGreetings (fun code s' => ∃ evs, Waited s s' (code = 220) evs) (fun e s' => Stuck env s e s') s := by
  have fin : ∀ r s1 evs, Waited s s1 (r.isSome = true) evs → wp env (greetingResult r) (fun code s' => ∃ evs, Waited s s' (code = 220) evs)
      (fun e s' => Stuck env s e s') s1 := by
    intro r s1 evs hw
    unfold greetingResult
    cases r with
    | none => exact ⟨evs, hw.1, hw.2.1, hw.2.2.1, hw.2.2.2.1, (fun h => absurd h (by decide)), hw.2.2.2.2.2⟩
    | some d =>
      dsimp only
      rw [wp_bind]
      have done : ∀ code s', Lull RestEv s1 s' → ∃ evs, Waited s s' (code = (220 : Int)) evs := by
        intro code s' h'
        obtain ⟨evs', h⟩ := (Lull.refl s).waited hw h'
        exact ⟨evs', h.1, h.2.1, h.2.2.1, h.2.2.2.1, fun _ => h.2.2.2.2.1 rfl, h.2.2.2.2.2⟩
      refine wp_mono (addLog_ends _ _ _) ?_ (by rintro e s' ⟨⟨u, rfl⟩, h⟩; exact hw.stuck_ub h)
      intro _ s2 h2
      rw [wp_ite]
      refine ⟨fun _ => ?_, fun _ => done _ _ h2⟩
      rw [wp_bind]
      exact wp_mono (addLog_ends _ _ _) (fun _ _ h3 => done _ _ (h2.trans h3)) (by rintro e s' ⟨⟨u, rfl⟩, h⟩; exact hw.stuck_ub (h2.trans h))
  unfold checkServerGreetings
  rw [wp_bind, wp_gets, wp_ite]
  refine ⟨fun _ => ?_, fun _ => ?_⟩
  · rw [wp_bind, wp_gets, wp_bind]
    exact wp_mono (waitLoop_waited bioRead_once s) (fun r s1 ⟨evs, h⟩ => fin r s1 evs h) (fun _ _ h => h)
  · rw [wp_bind, wp_gets, wp_bind, wp_gets, wp_bind]
    exact wp_mono (waitLoop_waited (sysRecv_once _) s) (fun r s1 ⟨evs, h⟩ => fin r s1 evs h) (fun _ _ h => h)

end Verif.Proofs
