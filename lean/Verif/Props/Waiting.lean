import Verif.Proofs.Waits
import Verif.Proofs.Exchange
import Verif.Proofs.Said
import Verif.Spec.Script
/-!
# C43 and C54: waiting for replies
-/
namespace Verif.Props
open Verif Verif.Model Verif.Spec
open Verif.Proofs (wp wp_bind wp_gets wp_pure wp_ite wp_mono wp_stop wp_modify wp_emit wp_env Keeps Talk Lull NoCmdEv RestEv Waited Stuck)

variable {env : Env}

/-! ### The exchange of one command, seen from the waiting -/

/-- A command, its reply awaited; afterwards only things that neither are commands nor take time. -/
def Exchanged (d : Bytes) (code : Int) (s s' : St) : Prop :=
  ∃ c r evs rest, s'.client.timeout = s.client.timeout ∧ s'.hist = s.hist ++ .send .cmd c (cstr d) r :: (evs ++ rest) ∧
    (∀ e ∈ evs, NoCmdEv e) ∧ sleeps evs ≤ max 1 s.client.timeout ∧ (∀ e ∈ rest, RestEv e) ∧
    (code = 250 → 0 < dataReads evs) ∧ ((∃ n, r = .sent n) → 0 < dataReads evs ∨ s.client.timeout ≤ sleeps evs)

/-- An exchange that did not end. -/
def Unfinished (d : Bytes) (s s' : St) : Prop :=
  ∃ c r evs rest, s'.client.timeout = s.client.timeout ∧ s'.hist = s.hist ++ .send .cmd c (cstr d) r :: (evs ++ rest) ∧
    (∀ e ∈ evs, NoCmdEv e) ∧ sleeps evs ≤ max 1 s.client.timeout ∧ (∀ e ∈ rest, RestEv e)

theorem awaited {m : M Int} (hm : ∀ s, wp env m (fun code s' => ∃ evs, Waited s s' (code ≠ -1) evs) (fun e s' => Stuck env s e s') s)
    (d : Bytes) (t : Int) (ht : t ≠ 250) (s : St) (c : Chan) (r : SendRes) :
    wp env (do
      let code ← m
      if code ≠ -1 then pure code
      else do
        cleanup
        pure t) (fun code s' => Exchanged d code s s') (fun _ s' => Unfinished d s s') (Proofs.St.snoc s (.send .cmd c (cstr d) r)) := by
  rw [wp_bind]
  refine wp_mono (hm _) ?_ ?_
  · rintro code s1 ⟨evs, h1, h2, h3, h4, h5, h6⟩
    rw [wp_ite]
    refine ⟨fun hc => ?_, fun hc => ?_⟩
    · exact ⟨c, r, evs, [], h1, by rw [h2]; simp [Proofs.St.snoc], h3, h4, by simp, fun _ => h5 hc, fun _ => h6⟩
    · rw [wp_bind]
      have hcl := Proofs.cleanup_steps (env := env) (R := Lull RestEv)
      refine wp_mono (hcl.run s1) ?_ ?_
      · rintro _ s2 ⟨t2, rest, h7, h8⟩
        exact ⟨c, r, evs, rest, t2.trans h1, by rw [h7, h2]; simp [Proofs.St.snoc], h3, h4, h8, fun h => absurd h ht, fun _ => h6⟩
      · rintro _ s2 ⟨t2, rest, h7, h8⟩
        exact ⟨c, r, evs, rest, t2.trans h1, by rw [h7, h2]; simp [Proofs.St.snoc], h3, h4, h8⟩
  · rintro e s1 ⟨h1, evs, h2, h3, h4, _⟩
    exact ⟨c, r, evs, [], h1, by rw [h2]; simp [Proofs.St.snoc], h3, h4, by simp⟩

/-- Sending: accepted, or refused and cleaned up. -/
def SentOr (d : Bytes) (e : Int) (s : St) (code : Int) (s' : St) : Prop :=
  (code = 0 ∧ ∃ c n, s' = Proofs.St.snoc s (.send .cmd c (cstr d) (.sent n))) ∨
  (code = e ∧ ∃ c n, Lull RestEv (Proofs.St.snoc s (.send .cmd c (cstr d) (.fail n))) s')

/-- Sending stopped. -/
def SentStop (d : Bytes) (s s' : St) : Prop := ∃ c r, Lull RestEv (Proofs.St.snoc s (.send .cmd c (cstr d) r)) s'

theorem sendRaw_or (d : Bytes) (e : Int) (s : St) : wp env (sendRaw .cmd d e) (SentOr d e s) (fun _ s' => SentStop d s s') s := by
  unfold sendRaw sendRawWith
  rw [wp_bind, wp_gets, wp_bind]
  refine wp_mono (Proofs.sysSend_out _ _ _ s) ?_ ?_
  · rintro r s1 ⟨hr, rfl⟩
    cases r with
    | never => exact absurd rfl hr
    | sent n => exact .inl ⟨rfl, _, n, rfl⟩
    | fail e' =>
      dsimp only
      unfold setErrNo
      rw [wp_bind, wp_modify, wp_bind]
      refine wp_mono ((Proofs.cleanup_steps (env := env) (R := Lull RestEv)).run _) ?_ ?_
      · intro _ s2 h2
        exact .inr ⟨rfl, _, e', Lull.trans ⟨rfl, .same rfl⟩ h2⟩
      · intro _ s2 h2
        exact ⟨_, .fail e', Lull.trans ⟨rfl, .same rfl⟩ h2⟩
  · rintro _ s1 rfl
    exact ⟨_, .never, Proofs.Lull.refl _⟩

theorem sendBio_or (d : Bytes) (e : Int) (s : St) (hb : s.client.bio ≠ none) :
    wp env (sendBioWith cleanup .cmd d e) (SentOr d e s) (fun _ s' => SentStop d s s') s := by
  unfold sendBioWith
  rw [wp_bind, wp_gets]
  cases h : s.client.bio with
  | none => exact absurd h hb
  | some b =>
    dsimp only
    rw [wp_bind]
    refine wp_mono (Proofs.sysSend_out _ _ _ s) ?_ ?_
    · rintro r s1 ⟨hr, rfl⟩
      cases r with
      | never => exact absurd rfl hr
      | sent n => exact .inl ⟨rfl, _, n, rfl⟩
      | fail e' =>
        dsimp only
        unfold setErrNo
        rw [wp_bind, Proofs.wp_ask', wp_bind, wp_modify, wp_bind]
        refine wp_mono ((Proofs.cleanup_steps (env := env) (R := Lull RestEv)).run _) ?_ ?_
        · intro _ s2 h2
          exact .inr ⟨rfl, _, e', Lull.trans ⟨rfl, .same rfl⟩ h2⟩
        · intro _ s2 h2
          exact ⟨_, .fail e', Lull.trans ⟨rfl, .same rfl⟩ h2⟩
    · rintro _ s1 rfl
      exact ⟨_, .never, Proofs.Lull.refl _⟩

theorem exchange_waited {send m : M Int} {s : St} {d : Bytes} {e t : Int} (hs : wp env send (SentOr d e s) (fun _ s' => SentStop d s s') s)
    (hm : ∀ s, wp env m (fun code s' => ∃ evs, Waited s s' (code ≠ -1) evs) (fun e s' => Stuck env s e s') s) (he : e < 0) (ht : t < 0) :
    wp env (do
      if (← send) ≠ 0 then pure e
      else do
        let code ← m
        if code ≠ -1 then pure code
        else do
          cleanup
          pure t) (fun code s' => Exchanged d code s s') (fun _ s' => Unfinished d s s') s := by
  rw [wp_bind]
  have z : sleeps [] ≤ max 1 s.client.timeout := by simp [sleeps]
  have nil : ∀ P : Ev → Prop, ∀ e ∈ ([] : Hist), P e := by simp
  refine wp_mono hs ?_ ?_
  · rintro code s1 (⟨rfl, c, n, rfl⟩ | ⟨rfl, c, n, t1, r1, h1, n1⟩)
    · rw [wp_ite]
      exact ⟨fun h => absurd rfl h, fun _ => awaited hm d t (by omega) s c _⟩
    · rw [wp_ite]
      refine ⟨fun _ => ?_, fun h => absurd he (by omega)⟩
      exact ⟨c, .fail n, [], r1, t1, by rw [h1]; simp [Proofs.St.snoc], nil _, z, n1, by omega, nofun⟩
  · rintro _ s1 ⟨c, r, t1, r1, h1, n1⟩
    exact ⟨c, r, [], r1, t1, by rw [h1]; simp [Proofs.St.snoc], nil _, z, n1⟩

theorem sendRawFb_exchanged (d : Bytes) (e t : Int) (he : e < 0) (ht : t < 0) (s : St) :
    wp env (sendRawFb d e t) (fun code s' => Exchanged d code s s') (fun _ s' => Unfinished d s s') s :=
  exchange_waited (sendRaw_or d e s) Proofs.getRawReply_wait he ht

theorem sendTlsFb_exchanged (d : Bytes) (e t : Int) (he : e < 0) (ht : t < 0) (s : St) (hb : s.client.bio ≠ none) :
    wp env (sendTlsFb d e t) (fun code s' => Exchanged d code s s') (fun _ s' => Unfinished d s s') s :=
  exchange_waited (sendBio_or d e s hb) Proofs.getTlsReply_wait he ht

theorem sendFb_exchanged (d : Bytes) (e t : Int) (he : e < 0) (ht : t < 0) (s : St) :
    wp env (sendFb d e t) (fun code s' => Exchanged d code s s') (fun _ s' => Unfinished d s s') s := by
  unfold sendFb
  rw [wp_bind, wp_gets, wp_bind, wp_gets, wp_ite]
  refine ⟨fun _ => sendRawFb_exchanged d e t he ht s, fun h => sendTlsFb_exchanged d e t he ht s ?_⟩
  intro hb
  rw [hb] at h
  simp at h

/-! ### C43 -/

theorem commandSends_cons_cmd (c d r) (h : Hist) : commandSends (.send .cmd c d r :: h) = commandSends h + 1 := by simp [commandSends]

/-- The last command of a history is determined. -/
theorem last_command {pre pre' mid mid' : Hist} {c c' : Chan} {d d' : Bytes} {r r' : SendRes}
    (h : pre ++ .send .cmd c d r :: mid = pre' ++ .send .cmd c' d' r' :: mid') (hm : commandSends mid = 0) (hm' : commandSends mid' = 0) :
    d = d' ∧ mid = mid' := by
  rcases Proofs.split_append h with ⟨t, ht⟩ | ⟨t, hp, ht⟩
  · exfalso
    rw [ht] at h
    simp only [List.append_assoc, List.cons_append, List.append_cancel_left_eq, List.cons.injEq, true_and] at h
    rw [← h, Proofs.commandSends_append, commandSends_cons_cmd] at hm'
    omega
  · cases t with
    | nil =>
      simp only [List.nil_append, List.cons.injEq, Ev.send.injEq, true_and] at ht
      exact ⟨ht.1.2.1, ht.2⟩
    | cons x t =>
      exfalso
      simp only [List.cons_append, List.cons.injEq] at ht
      rw [ht.2, Proofs.commandSends_append, commandSends_cons_cmd] at hm
      omega

theorem commandSends_prefix {a b : Hist} (h : commandSends (a ++ b) = 0) : commandSends a = 0 ∧ commandSends b = 0 := by
  rw [Proofs.commandSends_append] at h; omega

/-- Going on without commands. -/
theorem patient_append {T : Nat} {h w : Hist} (hp : Patient T h)
    (h0 : commandSends h = 0 → ∀ w1 w2, w = w1 ++ w2 → sleeps (h ++ w1) ≤ allowed T none (h ++ w1))
    (h1 : ∀ pre c d r mid, h = pre ++ .send .cmd c d r :: mid → commandSends mid = 0 → ∀ w1 w2, w = w1 ++ w2 →
      sleeps (mid ++ w1) ≤ allowed T (some d) (mid ++ w1)) (hw : commandSends w = 0) : Patient T (h ++ w) := by
  refine ⟨?_, ?_⟩
  · intro mid post he hm
    rcases List.append_eq_append_iff.mp he with ⟨t, rfl, ht⟩ | ⟨t, ht, _⟩
    · exact h0 (commandSends_prefix hm).1 t post ht
    · exact hp.1 mid t ht hm
  · intro pre c d r mid post he hm
    rcases Proofs.split_append he with ⟨t, ht⟩ | ⟨t, hpre, ht⟩
    · rw [ht] at he
      simp only [List.append_assoc, List.cons_append, List.append_cancel_left_eq, List.cons.injEq, true_and] at he
      rcases List.append_eq_append_iff.mp he with ⟨u, rfl, hu⟩ | ⟨u, rfl, _⟩
      · exact h1 pre c d r t ht (commandSends_prefix hm).1 u post hu
      · exact hp.2 pre c d r mid u ht hm
    · rw [ht, Proofs.commandSends_append, commandSends_cons_cmd] at hw
      omega

theorem dataReads_mono (a b : Hist) : dataReads a ≤ dataReads (a ++ b) := by rw [Proofs.dataReads_append]; omega

theorem allowed_mono (T : Nat) (o : Option Bytes) (a b : Hist) : allowed T o a ≤ allowed T o (a ++ b) := by
  unfold allowed
  split
  · exact Nat.mul_le_mul_left _ (by have := dataReads_mono a b; omega)
  · omega

theorem patient_rest {T : Nat} {h w : Hist} (hp : Patient T h) (hw : ∀ e ∈ w, RestEv e) : Patient T (h ++ w) := by
  have pre : ∀ w1 w2 a, w = w1 ++ w2 → sleeps (a ++ w1) = sleeps a := by
    rintro w1 w2 a rfl
    rw [Proofs.sleeps_append, Proofs.rest_sleeps fun e he => hw e (List.mem_append_left _ he)]
    omega
  refine patient_append hp ?_ ?_ (Proofs.noCmd_sends fun e he => Proofs.noCmd_of_rest (hw e he))
  · intro hc w1 w2 he
    rw [pre w1 w2 h he]
    exact Nat.le_trans (hp.1 h [] (by simp) hc) (allowed_mono _ _ _ _)
  · intro p c d r mid hh hc w1 w2 he
    rw [pre w1 w2 mid he]
    exact Nat.le_trans (hp.2 p c d r mid [] (by simpa using hh) hc) (allowed_mono _ _ _ _)

theorem patient_command {T : Nat} {h : Hist} (hp : Patient T h) (c d r) : Patient T (h ++ [.send .cmd c d r]) := by
  refine ⟨?_, ?_⟩
  · intro mid post he hm
    rcases List.append_eq_append_iff.mp he with ⟨t, rfl, ht⟩ | ⟨t, ht, _⟩
    · cases t with
      | nil => exact hp.1 _ [] (by simp) (by simpa using hm)
      | cons x t =>
        simp only [List.cons_append, List.cons.injEq] at ht
        rw [← ht.1, Proofs.commandSends_append, commandSends_cons_cmd] at hm
        omega
    · exact hp.1 mid t ht hm
  · intro pre c' d' r' mid post he hm
    rcases Proofs.split_append he with ⟨t, ht⟩ | ⟨t, hpre, ht⟩
    · rw [ht] at he
      simp only [List.append_assoc, List.cons_append, List.append_cancel_left_eq, List.cons.injEq, true_and] at he
      rcases List.append_eq_append_iff.mp he with ⟨u, rfl, hu⟩ | ⟨u, rfl, _⟩
      · cases u with
        | nil => exact hp.2 pre c' d' r' _ [] (by simpa using ht) (by simpa using hm)
        | cons x u =>
          simp only [List.cons_append, List.cons.injEq] at hu
          rw [← hu.1, Proofs.commandSends_append, commandSends_cons_cmd] at hm
          omega
      · exact hp.2 pre c' d' r' mid u ht hm
    · cases t with
      | nil =>
        simp only [List.nil_append, List.cons.injEq] at ht
        have : mid = [] := (List.append_eq_nil_iff.mp ht.2.symm).1
        rw [this]
        simp [sleeps]
      | cons x t => simp at ht

theorem sleeps_prefix {w w1 w2 : Hist} (h : w = w1 ++ w2) : sleeps w1 ≤ sleeps w := by rw [h, Proofs.sleeps_append]; omega

/-- A wait for the reply to the command just sent. -/
theorem patient_wait {T : Nat} {h w : Hist} {c d r} (hp : Patient T h) (hw : ∀ e ∈ w, NoCmdEv e) (hs : sleeps w ≤ T) :
    Patient T (h ++ .send .cmd c d r :: w) := by
  have := patient_append (w := w) (patient_command hp c d r) (fun h0 => by rw [Proofs.commandSends_append] at h0; simp [commandSends] at h0) ?_ (Proofs.noCmd_sends hw)
  · simpa using this
  · intro pre c' d' r' mid he hm w1 w2 hw12
    obtain ⟨_, rfl⟩ := last_command (mid := []) he rfl hm
    have := sleeps_prefix hw12
    rw [List.nil_append]
    refine Nat.le_trans (Nat.le_trans this hs) ?_
    unfold allowed
    split
    · exact Nat.le_mul_of_pos_right _ (by omega)
    · omega

/-- Before the greeting: nothing that counts has happened. -/
def Rested (h0 : Hist) (T : Nat) (s : St) : Prop := s.client.timeout = T ∧ ∃ evs, s.hist = h0 ++ evs ∧ ∀ e ∈ evs, RestEv e

/-- Patient so far. -/
def PatientSince (h0 : Hist) (T : Nat) (s : St) : Prop := s.client.timeout = T ∧ ∃ evs, s.hist = h0 ++ evs ∧ Patient (max 1 T) evs

theorem PatientSince.rest {h0 : Hist} {T : Nat} {s s' : St} (h' : Lull RestEv s s') (h : PatientSince h0 T s) : PatientSince h0 T s' := by
  obtain ⟨t, evs, he, hp⟩ := h
  obtain ⟨t', w, hw, hr⟩ := h'
  exact ⟨t'.trans t, evs ++ w, by rw [hw, he, List.append_assoc], patient_rest hp hr⟩

theorem patient_nil (T : Nat) : Patient T [] := by
  refine ⟨?_, ?_⟩
  · intro mid post he _
    have : mid = [] := (List.append_eq_nil_iff.mp he.symm).1
    rw [this]
    simp [sleeps]
  · intro pre c d r mid post he
    simp at he

theorem PatientSince.exchanged {h0 : Hist} {T : Nat} {s s' : St} {d : Bytes} (h : PatientSince h0 T s) (h' : Unfinished d s s') : PatientSince h0 T s' := by
  obtain ⟨t, evs, he, hp⟩ := h
  obtain ⟨c, r, w, rest, t', hw, n1, n2, n3⟩ := h'
  refine ⟨t'.trans t, evs ++ .send .cmd c (cstr d) r :: (w ++ rest), by rw [hw, he, List.append_assoc], ?_⟩
  have := patient_rest (patient_wait (c := c) (d := cstr d) (r := r) hp n1 (by rw [← t]; exact n2)) n3
  simpa using this

theorem Exchanged.unfinished {d : Bytes} {code : Int} {s s' : St} (h : Exchanged d code s s') : Unfinished d s s' := by
  obtain ⟨c, r, evs, rest, h1, h2, h3, h4, h5, _⟩ := h
  exact ⟨c, r, evs, rest, h1, h2, h3, h4, h5⟩

/-- Inside the reading of the reply to EHLO. -/
def InEhlo (h0 : Hist) (T : Nat) (s : St) : Prop := s.client.timeout = T ∧ ∃ pre c r mid, s.hist = h0 ++ (pre ++ .send .cmd c ehloCmd r :: mid) ∧
  Patient (max 1 T) (pre ++ .send .cmd c ehloCmd r :: mid) ∧ commandSends mid = 0 ∧ sleeps mid ≤ max 1 T * dataReads mid

theorem InEhlo.patient {h0 : Hist} {T : Nat} {s : St} (h : InEhlo h0 T s) : PatientSince h0 T s := by
  obtain ⟨t, pre, c, r, mid, he, hp, _⟩ := h
  exact ⟨t, _, he, hp⟩

theorem InEhlo.wait {h0 : Hist} {T : Nat} {s s' : St} {w : Hist} (h : InEhlo h0 T s) (ht : s'.client.timeout = s.client.timeout)
    (hw : s'.hist = s.hist ++ w) (hn : ∀ e ∈ w, NoCmdEv e) (hs : sleeps w ≤ max 1 s.client.timeout) :
    PatientSince h0 T s' ∧ (0 < dataReads w → InEhlo h0 T s') := by
  obtain ⟨t, pre, c, r, mid, he, hp, hc, hb⟩ := h
  have key : Patient (max 1 T) (pre ++ .send .cmd c ehloCmd r :: (mid ++ w)) := by
    have := patient_append (w := w) hp (fun h0 => by rw [Proofs.commandSends_append, commandSends_cons_cmd] at h0; omega) ?_ (Proofs.noCmd_sends hn)
    · simpa using this
    · intro pre' c' d' r' mid' he' hm w1 w2 hw12
      obtain ⟨rfl, rfl⟩ := last_command he' hc hm
      have h1 := sleeps_prefix hw12
      have h2 : sleeps w1 ≤ max 1 T := by rw [← t]; omega
      unfold allowed
      have hd : some ehloCmd = some b!"ehlo localhost\r\n" := rfl
      rw [if_pos hd, Proofs.sleeps_append, Nat.mul_add, Nat.mul_one, Proofs.dataReads_append, Nat.mul_add]
      omega
  have e : s'.hist = h0 ++ (pre ++ .send .cmd c ehloCmd r :: (mid ++ w)) := by rw [hw, he]; simp
  refine ⟨⟨ht.trans t, _, e, key⟩, fun hd => ⟨ht.trans t, pre, c, r, mid ++ w, e, key, ?_, ?_⟩⟩
  · rw [Proofs.commandSends_append, hc, Proofs.noCmd_sends hn]
  · rw [Proofs.sleeps_append, Proofs.dataReads_append, Nat.mul_add]
    have : max 1 T ≤ max 1 T * dataReads w := Nat.le_mul_of_pos_right _ hd
    rw [t] at hs
    omega

theorem InEhlo.rest {h0 : Hist} {T : Nat} {s s' : St} (h : InEhlo h0 T s) (h' : Lull RestEv s s') : InEhlo h0 T s' := by
  obtain ⟨t, pre, c, r, mid, he, hp, hc, hb⟩ := h
  obtain ⟨t', w, hw, hr⟩ := h'
  refine ⟨t'.trans t, pre, c, r, mid ++ w, by rw [hw, he]; simp, by simpa using patient_rest hp hr, ?_, ?_⟩
  · rw [Proofs.commandSends_append, hc, Proofs.noCmd_sends fun e he => Proofs.noCmd_of_rest (hr e he)]
  · rw [Proofs.sleeps_append, Proofs.rest_sleeps hr, Proofs.dataReads_append, Nat.mul_add]
    omega

theorem ehloLoop_patient (h0 : Hist) (T : Nat) (t n o) (s : St) (h : InEhlo h0 T s) :
    wp env (ehloLoop t n o) (fun _ => PatientSince h0 T) (fun _ => PatientSince h0 T) s := by
  induction n generalizing o s with
  | zero => exact h.patient
  | succ n ih =>
    unfold ehloLoop
    rw [wp_ite]
    refine ⟨fun _ => h.patient, fun _ => ?_⟩
    rw [wp_bind]
    refine wp_mono (Proofs.getServerReply_wait s) ?_ ?_
    · rintro code s1 ⟨w, h1, h2, h3, h4, h5, _⟩
      have hw := h.wait h1 h2 h3 h4
      rw [wp_ite, wp_ite]
      refine ⟨fun _ => hw.1, fun hc => ⟨fun _ => hw.1, fun _ => ?_⟩⟩
      rw [wp_bind]
      have := hw.2 (h5 hc)
      exact wp_mono ((Proofs.lastResponseText_steps (env := env) (R := Lull RestEv)).run s1) (fun _ s2 hr => ih _ s2 (this.rest hr))
        (fun _ _ hr => (this.rest hr).patient)
    · rintro e s1 ⟨h1, w, h2, h3, h4, _⟩
      exact (h.wait h1 h2 h3 h4).1

theorem patient_talk (h0 : Hist) (T : Nat) : Talk env (Lull RestEv) (Rested h0 T) (PatientSince h0 T) (PatientSince h0 T) where
  silent := inferInstance
  r0 := by
    rintro s s' ⟨t', w, hw, hr⟩ ⟨t, evs, he, hp⟩
    refine ⟨t'.trans t, evs ++ w, by rw [hw, he, List.append_assoc], fun e he => ?_⟩
    rcases List.mem_append.mp he with he | he
    · exact hp e he
    · exact hr e he
  r := fun _ _ h' h => h.rest h'
  j0 := by
    rintro s ⟨t, evs, he, hp⟩
    exact ⟨t, evs, he, by simpa using patient_rest (patient_nil _) hp⟩
  j := fun _ h => h
  zero := by
    rintro s ⟨t, evs, he, hp⟩
    exact ⟨t, evs, he, by simpa using patient_rest (patient_nil _) hp⟩
  greet := by
    rintro s ⟨t, evs, he, hp⟩
    have key : ∀ s' w, s'.client.timeout = s.client.timeout → s'.hist = s.hist ++ w → (∀ e ∈ w, NoCmdEv e) → sleeps w ≤ max 1 s.client.timeout →
        PatientSince h0 T s' := by
      intro s' w h1 h2 h3 h4
      refine ⟨h1.trans t, evs ++ w, by rw [h2, he, List.append_assoc], ?_⟩
      refine patient_append (by simpa using patient_rest (patient_nil (max 1 T)) hp) ?_ ?_ (Proofs.noCmd_sends h3)
      · intro _ w1 w2 hw
        rw [Proofs.sleeps_append, Proofs.rest_sleeps hp]
        have := sleeps_prefix hw
        rw [t] at h4
        unfold allowed
        rw [if_neg (by simp)]
        omega
      · intro pre c d r mid hh
        have := Proofs.noCmd_sends fun e he => Proofs.noCmd_of_rest (hp e he)
        rw [hh, Proofs.commandSends_append, commandSends_cons_cmd] at this
        omega
    refine wp_mono (Proofs.checkServerGreetings_wait s) ?_ ?_
    · rintro code s1 ⟨w, h1, h2, h3, h4, _⟩
      exact key s1 w h1 h2 h3 h4
    · rintro e s1 ⟨h1, w, h2, h3, h4, _⟩
      exact key s1 w h1 h2 h3 h4
  raw := fun d e t he ht s hs => wp_mono (sendRawFb_exchanged d e t he ht s) (fun _ _ h => hs.exchanged h.unfinished) (fun _ _ h => hs.exchanged h)
  tls := fun d e t he ht s hs => wp_mono (sendTlsFb_exchanged d e t he ht s hs.2) (fun _ _ h => hs.1.exchanged h.unfinished) (fun _ _ h => hs.1.exchanged h)
  identify := by
    intro e t he ht s hs
    unfold identify
    rw [wp_bind]
    refine wp_mono ((Proofs.addLog_steps (env := env) (R := Lull RestEv) _ _).run s) ?_ (fun _ _ h => hs.rest h)
    intro _ s1 h1
    have hs1 := hs.rest h1
    rw [wp_bind]
    refine wp_mono (sendFb_exchanged ehloCmd e t he ht s1) ?_ (fun _ _ h => hs1.exchanged h)
    intro code s2 h2
    rw [wp_ite]
    refine ⟨fun _ => hs1.exchanged h2.unfinished, fun hc => ?_⟩
    have hc : code = 250 := Decidable.of_not_not hc
    have hs2 : InEhlo h0 T s2 := by
      have hp := hs1.exchanged h2.unfinished
      obtain ⟨t1, evs, he1, _⟩ := hs1
      obtain ⟨c, r, w, rest, t', hw, n1, n2, n3, n4, _⟩ := h2
      obtain ⟨_, evs2, he2, hp2⟩ := hp
      have e2 : evs2 = evs ++ .send .cmd c ehloCmd r :: (w ++ rest) := by
        have : h0 ++ evs2 = h0 ++ (evs ++ .send .cmd c (cstr ehloCmd) r :: (w ++ rest)) := by rw [← he2, hw, he1, List.append_assoc]
        exact List.append_cancel_left this
      rw [e2] at he2 hp2
      refine ⟨t'.trans t1, evs, c, r, w ++ rest, he2, hp2, ?_, ?_⟩
      · rw [Proofs.commandSends_append, Proofs.noCmd_sends n1, Proofs.noCmd_sends fun e he => Proofs.noCmd_of_rest (n3 e he)]
      · rw [Proofs.sleeps_append, Proofs.rest_sleeps n3, Proofs.dataReads_append, Nat.mul_add]
        have : max 1 T ≤ max 1 T * dataReads w := Nat.le_mul_of_pos_right _ (n4 hc)
        rw [t1] at n2
        omega
    rw [wp_bind]
    refine wp_mono ((Proofs.lastResponseText_steps (env := env) (R := Lull RestEv)).run s2) ?_ (fun _ _ h => (hs2.rest h).patient)
    intro first s3 h3
    rw [wp_bind, wp_env, wp_bind]
    refine wp_mono (ehloLoop_patient h0 T t env.fuel first s3 (hs2.rest h3)) ?_ (fun _ _ h => h)
    intro r s4 h4
    cases r with
    | inl e => exact h4
    | inr o =>
      dsimp only
      rw [wp_bind]
      exact wp_mono ((Proofs.setAuthOptions_steps (env := env) (R := Lull RestEv) _).run s4) (fun _ _ h => h4.rest h) (fun _ _ h => h4.rest h)

/-! ### C54 -/

theorem settled_noCmd {T : Nat} {h w : Hist} (hs : Settled T h) (hw : ∀ e ∈ w, NoCmdEv e) : Settled T (h ++ w) := by
  intro pre c d n post he
  rcases Proofs.split_append he with ⟨t, ht⟩ | ⟨t, hpre, ht⟩
  · rw [ht] at he
    simp only [List.append_assoc, List.cons_append, List.append_cancel_left_eq, List.cons.injEq, true_and] at he
    rw [← he, Proofs.dataReads_append, Proofs.sleeps_append]
    have := hs pre c d n t ht
    omega
  · have := hw (.send .cmd c d (.sent n)) (by rw [ht]; simp)
    exact absurd this (by simp [NoCmdEv])

theorem lockStep_noCmd {T : Nat} {h w : Hist} (hs : LockStep T h) (hw : ∀ e ∈ w, NoCmdEv e) : LockStep T (h ++ w) := by
  intro pre c d r post he
  rcases Proofs.split_append he with ⟨t, ht⟩ | ⟨t, hpre, ht⟩
  · exact hs pre c d r t ht
  · have := hw (.send .cmd c d r) (by rw [ht]; simp)
    exact absurd this (by simp [NoCmdEv])

theorem lockStep_cmd {T : Nat} {h : Hist} (hs : LockStep T h) (hq : Settled T h) (c d r) : LockStep T (h ++ [.send .cmd c d r]) := by
  intro pre c' d' r' post he
  rcases Proofs.split_append he with ⟨t, ht⟩ | ⟨t, hpre, ht⟩
  · exact hs pre c' d' r' t ht
  · cases t with
    | nil => rw [hpre, List.append_nil]; exact hq
    | cons x t => simp at ht

theorem settled_reply {T : Nat} {h w : Hist} (hq : Settled T h) (hw : ∀ e ∈ w, NoCmdEv e) (c d r)
    (hr : (∃ n, r = .sent n) → 0 < dataReads w ∨ T ≤ sleeps w) : Settled T (h ++ .send .cmd c d r :: w) := by
  intro pre c' d' n' post he
  rcases Proofs.split_append he with ⟨t, ht⟩ | ⟨t, hpre, ht⟩
  · rw [ht] at he
    simp only [List.append_assoc, List.cons_append, List.append_cancel_left_eq, List.cons.injEq, true_and] at he
    rw [← he, Proofs.dataReads_append, Proofs.sleeps_append]
    have := hq pre c' d' n' t ht
    omega
  · cases t with
    | nil =>
      simp only [List.nil_append, List.cons.injEq, Ev.send.injEq, true_and] at ht
      rw [← ht.2]
      exact hr ⟨n', ht.1.2.2⟩
    | cons x t =>
      simp only [List.cons_append, List.cons.injEq] at ht
      have := hw (.send .cmd c' d' (.sent n')) (by rw [ht.2]; simp)
      exact absurd this (by simp [NoCmdEv])

/-- Lock-step so far, everything settled. -/
def Between (h0 : Hist) (T : Nat) (s : St) : Prop := s.client.timeout = T ∧ ∃ evs, s.hist = h0 ++ evs ∧ LockStep T evs ∧ Settled T evs

/-- Lock-step so far. -/
def Locked (h0 : Hist) (T : Nat) (s : St) : Prop := ∃ evs, s.hist = h0 ++ evs ∧ LockStep T evs

theorem Between.locked {h0 : Hist} {T : Nat} {s : St} (h : Between h0 T s) : Locked h0 T s := by
  obtain ⟨_, evs, he, hl, _⟩ := h; exact ⟨evs, he, hl⟩

theorem Between.noCmd {h0 : Hist} {T : Nat} {s s' : St} (h : Between h0 T s) (h' : Lull NoCmdEv s s') : Between h0 T s' := by
  obtain ⟨t, evs, he, hl, hq⟩ := h
  obtain ⟨t', w, hw, hr⟩ := h'
  exact ⟨t'.trans t, evs ++ w, by rw [hw, he, List.append_assoc], lockStep_noCmd hl hr, settled_noCmd hq hr⟩

theorem Between.exchanged {h0 : Hist} {T : Nat} {s s' : St} {d : Bytes} {code : Int} (h : Between h0 T s) (h' : Exchanged d code s s') : Between h0 T s' := by
  obtain ⟨t, evs, he, hl, hq⟩ := h
  obtain ⟨c, r, w, rest, t', hw, n1, n2, n3, n4, n5⟩ := h'
  have hr : ∀ e ∈ w ++ rest, NoCmdEv e := by
    intro e he
    rcases List.mem_append.mp he with he | he
    · exact n1 e he
    · exact Proofs.noCmd_of_rest (n3 e he)
  refine ⟨t'.trans t, evs ++ .send .cmd c (cstr d) r :: (w ++ rest), by rw [hw, he, List.append_assoc], ?_, settled_reply hq hr _ _ _ ?_⟩
  · simpa using lockStep_noCmd (lockStep_cmd hl hq c (cstr d) r) hr
  · intro hn
    rw [t] at n5
    rw [Proofs.dataReads_append, Proofs.sleeps_append]
    have := n5 hn
    omega

theorem Between.unfinished {h0 : Hist} {T : Nat} {s s' : St} {d : Bytes} (h : Between h0 T s) (h' : Unfinished d s s') : Locked h0 T s' := by
  obtain ⟨t, evs, he, hl, hq⟩ := h
  obtain ⟨c, r, w, rest, t', hw, n1, n2, n3⟩ := h'
  have hr : ∀ e ∈ w ++ rest, NoCmdEv e := by
    intro e he
    rcases List.mem_append.mp he with he | he
    · exact n1 e he
    · exact Proofs.noCmd_of_rest (n3 e he)
  exact ⟨evs ++ .send .cmd c (cstr d) r :: (w ++ rest), by rw [hw, he, List.append_assoc],
    by simpa using lockStep_noCmd (lockStep_cmd hl hq c (cstr d) r) hr⟩

theorem Waited.lull {s s' : St} {got : Prop} {evs : Hist} (h : Waited s s' got evs) : Lull NoCmdEv s s' := ⟨h.1, evs, h.2.1, h.2.2.1⟩
theorem Stuck.lull {s s' : St} {e : Stop} (h : Stuck env s e s') : Lull NoCmdEv s s' := by
  obtain ⟨h1, evs, h2, h3, _⟩ := h; exact ⟨h1, evs, h2, h3⟩

theorem ehloLoop_lull (t n o) (s : St) : wp env (ehloLoop t n o) (fun _ => Lull NoCmdEv s) (fun _ => Lull NoCmdEv s) s := by
  induction n generalizing o s with
  | zero => exact (Proofs.Lull.refl s).noCmd
  | succ n ih =>
    unfold ehloLoop
    rw [wp_ite]
    refine ⟨fun _ => (Proofs.Lull.refl s).noCmd, fun _ => ?_⟩
    rw [wp_bind]
    refine wp_mono (Proofs.getServerReply_wait s) ?_ (fun _ _ h => Stuck.lull h)
    rintro code s1 ⟨w, hw⟩
    have h1 : Lull NoCmdEv s s1 := Waited.lull hw
    rw [wp_ite, wp_ite]
    refine ⟨fun _ => h1, fun hc => ⟨fun _ => h1, fun _ => ?_⟩⟩
    rw [wp_bind]
    refine wp_mono ((Proofs.lastResponseText_steps (env := env) (R := Lull RestEv)).run s1) (fun _ s2 hr => ?_) (fun _ _ hr => h1.trans hr.noCmd)
    exact wp_mono (ih _ s2) (fun _ _ h => (h1.trans hr.noCmd).trans h) (fun _ _ h => (h1.trans hr.noCmd).trans h)

theorem lockStep_talk (h0 : Hist) (T : Nat) : Talk env (Lull RestEv) (Between h0 T) (Between h0 T) (Locked h0 T) where
  silent := inferInstance
  r0 := fun _ _ h' h => h.noCmd h'.noCmd
  r := fun _ _ h' h => h.noCmd h'.noCmd
  j0 := fun _ h => h.locked
  j := fun _ h => h.locked
  zero := fun _ h => h
  greet := fun s hs => wp_mono (Proofs.checkServerGreetings_wait s) (fun _ _ ⟨_, h⟩ => hs.noCmd (Waited.lull h))
    (fun _ _ h => (hs.noCmd (Stuck.lull h)).locked)
  raw := fun d e t he ht s hs => wp_mono (sendRawFb_exchanged d e t he ht s) (fun _ _ h => hs.exchanged h) (fun _ _ h => hs.unfinished h)
  tls := fun d e t he ht s hs => wp_mono (sendTlsFb_exchanged d e t he ht s hs.2) (fun _ _ h => hs.1.exchanged h) (fun _ _ h => hs.1.unfinished h)
  identify := by
    intro e t he ht s hs
    unfold identify
    rw [wp_bind]
    refine wp_mono ((Proofs.addLog_steps (env := env) (R := Lull RestEv) _ _).run s) ?_ (fun _ _ h => (hs.noCmd h.noCmd).locked)
    intro _ s1 h1
    have hs1 := hs.noCmd h1.noCmd
    rw [wp_bind]
    refine wp_mono (sendFb_exchanged ehloCmd e t he ht s1) ?_ (fun _ _ h => hs1.unfinished h)
    intro code s2 h2
    have hs2 := hs1.exchanged h2
    rw [wp_ite]
    refine ⟨fun _ => hs2, fun _ => ?_⟩
    rw [wp_bind]
    refine wp_mono ((Proofs.lastResponseText_steps (env := env) (R := Lull RestEv)).run s2) ?_ (fun _ _ h => (hs2.noCmd h.noCmd).locked)
    intro first s3 h3
    have hs3 := hs2.noCmd h3.noCmd
    rw [wp_bind, wp_env, wp_bind]
    refine wp_mono (ehloLoop_lull t env.fuel first s3) ?_ (fun _ _ h => (hs3.noCmd h).locked)
    intro r s4 h4
    have hs4 := hs3.noCmd h4
    cases r with
    | inl e => exact hs4
    | inr o =>
      dsimp only
      rw [wp_bind]
      exact wp_mono ((Proofs.setAuthOptions_steps (env := env) (R := Lull RestEv) _).run s4) (fun _ _ h => hs4.noCmd h.noCmd)
        (fun _ _ h => (hs4.noCmd h.noCmd).locked)

/-! ### The theorems -/

theorem final {α : Type} {m : M α} {s : St} {P : St → Prop} (h : wp env m (fun _ => P) (fun _ => P) s) : P (m env s).2 := by
  unfold wp at h
  split at h <;> (rename_i e; rw [e]; exact h)

/-- **C43, partial.** In every run of sendMail, whatever the network does and however the run ends: the seconds slept between sending a command
and sending the next one are at most the command timeout (one second if it is 0); for EHLO, whose reply is read in parts, at most the timeout for
every part. Also before the first command. Missing: that the wait always ends (refuted below). -/
theorem C43_seconds_between_commands_partial (env : Env) (m : Message) (s : St) :
    ∃ evs, (sendMail m env s).2.hist = s.hist ++ evs ∧ Patient (max 1 s.client.timeout) evs := by
  have := final ((patient_talk (env := env) s.hist s.client.timeout).sendMail m s ⟨rfl, [], by simp, by simp⟩)
  exact this.2

/-- **C43, partial.** A single wait for a reply, however it ends, sleeps at most the timeout (one second if it is 0). It can only fail to end by
itself when data keep coming: after `fuel` rounds at least `fuel - timeout` reads brought data. -/
theorem C43_one_wait_partial (env : Env) (s : St) (wait : M Int) (hw : wait = getServerReply ∨ wait = checkServerGreetings) :
    ∃ evs, (wait env s).2.hist = s.hist ++ evs ∧ sleeps evs ≤ max 1 s.client.timeout ∧
      ((wait env s).1 = .stop .fuel → env.fuel ≤ max 1 s.client.timeout + dataReads evs) := by
  have key : wp env wait (fun _ s' => ∃ evs got, Waited s s' got evs) (fun e s' => Stuck env s e s') s := by
    rcases hw with rfl | rfl
    · exact wp_mono (Proofs.getServerReply_wait s) (fun _ _ ⟨evs, h⟩ => ⟨evs, _, h⟩) (fun _ _ h => h)
    · exact wp_mono (Proofs.checkServerGreetings_wait s) (fun _ _ ⟨evs, h⟩ => ⟨evs, _, h⟩) (fun _ _ h => h)
  unfold wp at key
  revert key
  cases hr : wait env s with
  | mk r s' =>
    cases r with
    | ok a =>
      rintro ⟨evs, got, _, h2, _, h4, _⟩
      exact ⟨evs, h2, h4, nofun⟩
    | stop e =>
      rintro ⟨_, evs, h2, _, h4, h5⟩
      exact ⟨evs, h2, h4, fun h => h5 (by cases h; rfl)⟩

/-- **C43, refuted**: with timeout 0 a reply in clear is still awaited for a second. -/
theorem C43_timeout_zero_sleeps :
    sleeps (getRawReply (scripted []) { client := { Client.init .smtp b!"mail.org" 25 with timeout := 0, log := some .fresh }, hist := [] }).2.hist = 1 := by
  decide +kernel

/-- **C43, refuted**: the greeting is read from a blocking socket; if the server says nothing the call never returns, whatever the timeout. -/
theorem C43_blocking_greeting (T : Nat) (hT : 0 < T) (s : St) :
    (checkServerGreetings { scripted [] with recv := fun _ _ => .never }
      { s with client := { s.client with kind := .smtp, timeout := T }, hist := [] }).1 = .stop .hang := by
  obtain ⟨n, rfl⟩ : ∃ n, T = n + 1 := ⟨T - 1, by omega⟩
  rfl

/-- **C43, refuted**: against a server that never stops sending, a wait for a reply in clear does not end: it is still reading after any number
of rounds. -/
theorem C43_endless_reply (env : Env) (d : Bytes) (hd : d ≠ []) (hl : d.length < 1024) (hr : ∀ h c, env.recv h c = .data d)
    (hg : ∀ h fd, env.fcntlGet h fd = .ok) (hset : ∀ h fd b, env.fcntlSet h fd b = .ok) (s : St) (hT : 0 < s.client.timeout) :
    (getRawReply env s).1 = .stop .fuel := by
  have loop : ∀ n acc got (s : St), 0 < s.client.timeout → wp env (rawReplyLoop n 0 acc got) (fun _ _ => False) (fun e _ => e = .fuel) s := by
    intro n
    induction n with
    | zero => intro acc got s hT; rfl
    | succ n ih =>
      intro acc got s hT
      have hread : answer env (.raw s.client.sock) s.hist = .data d := by
        unfold answer normRecv
        rw [hr]
        have : d.isEmpty = false := by cases d <;> simp_all
        simp only [this, Bool.false_eq_true, if_false]
        rw [List.take_of_length_le (by omega)]
      unfold rawReplyLoop
      rw [wp_bind, wp_gets, wp_bind, wp_gets, wp_bind]
      unfold sysRecv
      rw [wp_bind, Proofs.wp_ask]
      unfold answer at hread
      rw [hread, wp_ite]
      refine ⟨nofun, fun _ => ?_⟩
      rw [wp_pure]
      dsimp only
      rw [wp_ite, wp_ite]
      exact ⟨fun h => absurd hl (by omega), fun _ => ⟨fun _ => ih _ _ _ hT, fun h => absurd hT h⟩⟩
  have : wp env getRawReply (fun _ _ => False) (fun e _ => e = .fuel) s := by
    unfold getRawReply setNonBlocking sysFcntlGet sysFcntlSet logIfErr
    simp only [wp_bind, wp_gets, Proofs.wp_ask, hg, hset, wp_pure, wp_env]
    exact wp_mono (loop _ _ _ _ hT) (fun _ _ h => h.elim) (fun _ _ h => h)
  unfold wp at this
  split at this
  · exact this.elim
  · rename_i e _ hrun
    rw [hrun, this]

/-- Non-vacuity: such a server. -/
example : (getRawReply { scripted [] with recv := fun _ _ => .data b!"250-more\r\n", fuel := 1000 } (fresh .smtp)).1 = .stop .fuel :=
  C43_endless_reply _ b!"250-more\r\n" (by decide) (by decide) (fun _ _ => rfl) (fun _ _ => rfl) (fun _ _ _ => rfl) _ (by decide)

/-- A server that answers slowly. -/
example : (let r := sendMail mail (scripted [.err, .err, .data b!"220 hi\r\n", .err, .data b!"250 ok\r\n", .err]) (fresh .smtp)
    (sleeps r.2.hist, commandSends r.2.hist, r.1)) = (8, 2, .ok (-86)) := by decide +kernel

theorem doCall_between {h0 : Hist} {T : Nat} (c : Call) (hc : ∀ n, c ≠ .setCommandTimeout n) :
    Keeps env (Between h0 T) (Between h0 T) (Locked h0 T) (doCall c) := by
  have mod : ∀ (f : Client → Client) {α : Type} (a : α), (∀ x, (f x).timeout = x.timeout) → Keeps env (Between h0 T) (Between h0 T) (Locked h0 T) (do M.modify f; pure a) := by
    intro f α a hf s hs
    exact hs.noCmd ⟨hf _, .same rfl⟩
  unfold doCall
  refine Keeps.bind (Q := Between h0 T) (fun s hs => hs.noCmd ⟨rfl, .one trivial⟩) fun _ => ?_
  cases c with
  | setServerName p =>
    dsimp only
    unfold setServerName
    split
    · exact .pure _
    · exact .stop (fun _ h => h.locked) _
    · exact mod _ _ fun _ => rfl
  | setServerPort n => exact mod _ _ fun _ => rfl
  | setBatchMode b => exact mod _ _ fun _ => rfl
  | setCommandTimeout n => exact absurd rfl (hc n)
  | setCredentials c => exact mod _ _ fun _ => rfl
  | setKeepUsingBaseSendCommands b => exact mod _ _ fun _ => rfl
  | setAcceptSelfSignedCert b => exact mod _ _ fun _ => rfl
  | sendMail m => exact ((lockStep_talk h0 T).sendMail m).bind fun _ => .pure _

theorem runCalls_between {h0 : Hist} {T : Nat} (cs : List Call) (hc : ∀ n, .setCommandTimeout n ∉ cs) :
    Keeps env (Between h0 T) (Between h0 T) (Locked h0 T) (runCalls cs) := by
  induction cs with
  | nil => exact .pure _
  | cons c cs ih =>
    exact (doCall_between c (fun n h => hc n (by simp [h]))).bind fun _ => (ih fun n h => hc n (by simp [h])).bind fun _ => .pure _

/-- **C54, partial.** In the whole life of a client with a fixed timeout, with any calls, any server and any network, no command is sent before all
commands sent earlier are settled: something was read after them, or the timeout has passed. Missing: that the reply was read *completely* (refuted
below). -/
theorem C54_lock_step_partial (env : Env) (s : St) (cs : List Call) (hc : ∀ n, .setCommandTimeout n ∉ cs) :
    ∃ evs, (life cs env s).2.hist = s.hist ++ evs ∧ LockStep s.client.timeout evs := by
  have h0 : Between s.hist s.client.timeout s := ⟨rfl, [], by simp, by intro pre c d r post h; simp at h, by intro pre c d r post h; simp at h⟩
  have : Keeps env (Between s.hist s.client.timeout) (Locked s.hist s.client.timeout) (Locked s.hist s.client.timeout) (life cs) := by
    unfold life
    refine (runCalls_between cs hc).bind fun _ => Keeps.bind (Q := Locked s.hist s.client.timeout) (fun s1 h1 => ?_) fun _ => .pure _
    unfold destroy
    rw [wp_bind, wp_emit]
    have h2 : Between s.hist s.client.timeout { s1 with hist := s1.hist ++ [.destroy] } := h1.noCmd ⟨rfl, .one trivial⟩
    exact wp_mono ((Proofs.cleanup_steps (env := env) (R := Lull RestEv)).run _) (fun _ _ h => (h2.noCmd h.noCmd).locked)
      (fun _ _ h => (h2.noCmd h.noCmd).locked)
  exact final (this s h0)

/-- Non-vacuity: a run with six commands, all settled. -/
example : (let r := life [.sendMail mail] (scripted (.data b!"220 hi\r\n" :: clear [b!"250 ok\r\n", b!"250 ok\r\n", b!"250 ok\r\n", b!"354 go\r\n",
    b!"250 done\r\n"])) (fresh .smtp)
    (commandSends r.2.hist, dataReads r.2.hist, r.1)) = (5, 6, .ok [.returned 0]) := by decide +kernel

/-- **C54, refuted** in its last part: over TLS, the second part of a reply that comes in two parts is taken as the reply to the next command. Here
the server answers MAIL FROM by "250-one", "250 two" and rejects the recipient by 550; the client takes "250 two" as the reply to RCPT TO, sends
DATA, and takes the 550 as the reply to DATA. -/
theorem C54_reply_to_wrong_command :
    (let r := sendMail mail (scripted [.data b!"220 hi\r\n", .data b!"250 ok\r\n", .data b!"250-one\r\n", .data b!"250 two\r\n",
        .data b!"550 no such user\r\n"]) (fresh .forced)
     (r.1, (conversation r.2.hist).map fun | .cmd _ d a => (d, a) | .content _ d => (d, []) | .quit _ d => (d, []))) =
    (.ok 550, [(b!"ehlo localhost\r\n", b!"250 ok\r\n"), (b!"MAIL FROM: <me@here.org>\r\n", b!"250-one\r\n"),
      (b!"RCPT TO: <you@there.org>\r\n", b!"250 two\r\n"), (b!"DATA\r\n", b!"550 no such user\r\n")]) := by decide +kernel

end Verif.Props
