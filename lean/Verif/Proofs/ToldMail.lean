import Verif.Proofs.Told
/-!
# What an error code tells: the conversation
-/
namespace Verif.Proofs
open Verif Verif.Model Verif.Spec

variable {env : Env} {α : Type} {K : Kind → Prop}

/-! ### Commands with their replies -/

theorem SendFailed.imp {k} {P Q : Bytes → Prop} {a b : Ev → Prop} (hpq : ∀ d, P d → Q d) (hab : ∀ e, a e → b e) {h : Hist} (hh : SendFailed k P a h) :
    SendFailed k Q b h := by
  obtain ⟨pre, ch, d, e, post, rfl, hp, h⟩ := hh
  exact ⟨pre, ch, d, e, post, rfl, hpq _ hp, fun x hx => hab x (h x hx)⟩

theorem NoReply.imp {T} {P Q : Bytes → Prop} {a b : Ev → Prop} (hpq : ∀ d, P d → Q d) (hab : ∀ e, a e → b e) {h : Hist} (hh : NoReply T P a h) :
    NoReply T Q b h := by
  obtain ⟨pre, ch, d, n, mid, post, rfl, hp, hv, h⟩ := hh
  exact ⟨pre, ch, d, n, mid, post, rfl, hpq _ hp, hv, fun x hx => hab x (h x hx)⟩

theorem shut_failed {k ch d n} {s s' : St} (h : OnlyCloses (St.snoc s (.send k ch d (.fail n))) s') {P : Bytes → Prop} (hp : P d) :
    ∃ evs, s'.hist = s.hist ++ evs ∧ SendFailed k P IsClosing evs := by
  obtain ⟨-, -, post, he, hc⟩ := h
  exact ⟨.send k ch d (.fail n) :: post, by rw [he]; simp [St.snoc], [], ch, d, n, post, rfl, hp, hc⟩

/-- What the result of a command tells. -/
theorem FbOut.told {d : Bytes} {e t : Int} {s s' : St} {code : Int} (h : FbOut d e t s s' code) {P : Bytes → Prop} (hp : P (cstr d))
    (he : ∀ h, SendFailed .cmd P IsClosing h → Cause s.client.timeout s.client.kind h e)
    (ht : ∀ h, NoReply s.client.timeout P IsClosing h → Cause s.client.timeout s.client.kind h t) : Told code s s' := by
  cases h with
  | failed ch n h =>
    obtain ⟨evs, hx, hf⟩ := shut_failed h hp
    exact ⟨evs, hx, .inr (.inr (he _ hf))⟩
  | late ch n mid post hx hv hc => exact ⟨_, hx, .inr (.inr (ht _ ⟨[], ch, _, n, mid, post, rfl, hp, hv, hc⟩))⟩
  | garbled ch n mid post x hx hu hd hr h0 hn hc =>
    exact ⟨_, hx, .inr (.inl ⟨[.send .cmd ch (cstr d) (.sent n)], mid, post, x, by simp, hu, hd, hr, fun c => extract_negative h0 (by omega) c⟩)⟩
  | answered ch n mid x hx hu hd hr h0 hc hch =>
    refine ⟨_, hx, ?_⟩
    rcases Int.lt_or_le (extractReturnCode (some x)) 0 with hn | hn
    · exact .inr (.inl ⟨[.send .cmd ch (cstr d) (.sent n)], mid, [], x, by simp, hu, hd, hr, fun c => extract_negative h0 hn c⟩)
    · exact .inl hn

theorem sendPtrFb_tells {d : Bytes} {e t : Int} (h0 : e ≠ 0) {P : Bytes → Prop} (hp : P (cstr d))
    (he : ∀ T k h, SendFailed .cmd P IsClosing h → Cause T k h e) (ht : ∀ T k h, NoReply T P IsClosing h → Cause T k h t) : TellsCause env K (sendPtrFb d e t) :=
  fun s _ => wp_mono (sendPtrFb_fb d e t s h0) (fun _ _ h => h.told hp (he _ _) (ht _ _)) fun _ _ h => h

/-! ### The greeting -/

/-- What waiting for the greeting gives. -/
def Greeted (code : Int) (s s' : St) : Prop :=
  ∃ evs, s'.hist = s.hist ++ evs ∧ ((code = -3 ∧ InVain s.client.timeout evs) ∨ 0 ≤ code ∨ Garbled evs)

theorem greetingResult_greeted {read : M RecvRes} (hr : ∀ s, wp env read
      (fun r s' => SameConn s.client s'.client ∧ ∃ evs, s'.hist = s.hist ++ evs ∧ ((∃ ch, evs = [.recv ch r]) ∨ evs = [] ∧ r = .err)) (fun _ _ => True) s) (s : St) :
    wp env (do greetingResult (← waitLoop read s.client.timeout)) (fun code s' => Greeted code s s') (fun _ _ => True) s := by
  rw [wp_bind]
  refine wp_mono (waitLoop_awaited hr _ s) ?_ (fun _ _ h => h)
  rintro r s1 ⟨-, evs, he, hu, hm⟩
  unfold greetingResult
  cases r with
  | none => exact ⟨evs, he, .inl ⟨rfl, hm⟩⟩
  | some d =>
    obtain ⟨ch, hm⟩ := hm
    have key : ∀ s2, StandsStill s1 s2 → Greeted (extractReturnCode (some (bufferText d))) s s2 := by
      intro s2 h2
      refine ⟨evs, by rw [h2.2.2, he], .inr ?_⟩
      rcases Int.lt_or_le (extractReturnCode (some (bufferText d))) 0 with hn | hn
      · refine .inr ⟨[], evs, [], bufferText d, by simp, hu, dataReads_pos hm, .inr ⟨ch, d, hm, ?_⟩, fun c => extract_negative ?_ hn c⟩
        · unfold bufferText; rw [cstr_upToNul]
        · unfold bufferText; exact cstr_no_nul _
      · exact .inl hn
    dsimp only
    rw [wp_bind]
    refine wp_mono ((addLog_still _ _).run s1) (fun _ s2 h2 => ?_) (fun _ _ _ => trivial)
    rw [wp_ite]
    refine ⟨fun _ => ?_, fun _ => key s2 h2⟩
    rw [wp_bind]
    exact wp_mono ((addLog_still _ _).run s2) (fun _ s3 h3 => key s3 (Preord.trans (R := StandsStill) h2 h3)) (fun _ _ _ => trivial)

theorem checkServerGreetings_greeted (s : St) : wp env checkServerGreetings (fun code s' => Greeted code s s') (fun _ _ => True) s := by
  unfold checkServerGreetings
  simp only [wp_bind, wp_gets, wp_ite]
  refine ⟨fun _ => ?_, fun _ => ?_⟩
  · simpa only [wp_bind] using greetingResult_greeted bioRead_one s
  · simpa only [wp_bind] using greetingResult_greeted (sysRecv_one _) s

/-! ### EHLO -/

/-- Waiting for the rest of the answer to EHLO. -/
theorem ehloLoop_rest (t : Int) (n : Nat) (o : Bytes) (s : St) :
    wp env (ehloLoop t n o) (fun r s' => s'.client.timeout = s.client.timeout ∧ s'.client.kind = s.client.kind ∧ ∃ evs, s'.hist = s.hist ++ evs ∧ (∀ e ∈ evs, ¬ IsSend e) ∧
      (match r with | .inl code => (0 ≤ code ∧ code ≠ 250) ∨ Garbled evs ∨ (code = t ∧ ∃ part mid, evs = part ++ mid ∧ InVain s.client.timeout mid) | .inr _ => True))
      (fun _ _ => True) s := by
  induction n generalizing o s with
  | zero => trivial
  | succ n ih =>
    unfold ehloLoop
    rw [wp_ite]
    refine ⟨fun _ => ⟨rfl, rfl, [], by simp, by simp, trivial⟩, fun _ => ?_⟩
    rw [wp_bind]
    refine wp_mono (getServerReply_awaited s) ?_ (fun _ _ _ => trivial)
    rintro code s1 ⟨hc, evs, he, hu, ha⟩
    have htk : s1.client.timeout = s.client.timeout ∧ s1.client.kind = s.client.kind := by unfold SameConn at hc; rw [hc]; exact ⟨rfl, rfl⟩
    rw [wp_ite]
    refine ⟨fun hm => ⟨htk.1, htk.2, evs, he, hu, ?_⟩, fun _ => ?_⟩
    · rcases ha.garbled hu (by omega) with ⟨-, h⟩ | h
      · exact .inr (.inr ⟨rfl, [], evs, rfl, h⟩)
      · exact .inr (.inl h)
    rw [wp_ite]
    refine ⟨fun h250 => ⟨htk.1, htk.2, evs, he, hu, ?_⟩, fun _ => ?_⟩
    · rcases Int.lt_or_le code 0 with hn | hn
      · rcases ha.garbled hu hn with ⟨h, -⟩ | h
        · contradiction
        · exact .inr (.inl h)
      · exact .inl ⟨hn, h250⟩
    · rw [wp_bind]
      have : Steps env StandsStill lastResponseText := by unfold lastResponseText; steps []
      refine wp_mono (this.run s1) (fun r s2 h2 => ?_) (fun _ _ _ => trivial)
      refine wp_mono (ih _ s2) ?_ (fun _ _ h => h)
      rintro r s3 ⟨h3t, h3k, evs3, he3, hu3, h3⟩
      refine ⟨h3t.trans (h2.1.trans htk.1), h3k.trans (h2.2.1.trans htk.2), evs ++ evs3, by rw [he3, h2.2.2, he, List.append_assoc], ?_, ?_⟩
      · intro e hm
        rcases List.mem_append.mp hm with hm | hm
        · exact hu e hm
        · exact hu3 e hm
      · cases r with
        | inr _ => trivial
        | inl c =>
          rcases h3 with h | h | ⟨rfl, part, mid, rfl, hv⟩
          · exact .inl h
          · exact .inr (.inl (by simpa using Garbled.mono (pre := evs) (post := []) h))
          · exact .inr (.inr ⟨rfl, evs ++ part, mid, by simp, by rw [h2.1, htk.1] at hv; exact hv⟩)

/-- EHLO: answered, or the code tells. -/
theorem identify_told {e t : Int} (he0 : e < 0) (ht0 : t < 0) (s : St)
    (he : ∀ h, SendFailed .cmd (· = b!"ehlo localhost\r\n") IsClosing h → Cause s.client.timeout s.client.kind h e)
    (ht : ∀ h, NoReply s.client.timeout (· = b!"ehlo localhost\r\n") IsClosing h ∨ NoRest s.client.timeout b!"ehlo localhost\r\n" h →
      Cause s.client.timeout s.client.kind h t) :
    wp env (identify e t) (fun code s' => Told code s s' ∧ Onward s s' ∧ (code = 250 → ∃ evs, s'.hist = s.hist ++ evs ∧ AfterEhlo evs)) (fun _ _ => True) s := by
  have hcs : cstr ehloCmd = b!"ehlo localhost\r\n" := by decide
  unfold identify
  rw [wp_bind]
  refine wp_mono ((addLog_still _ _).run s) (fun _ s1 h1 => ?_) (fun _ _ _ => trivial)
  obtain ⟨h1t, h1k, h1h⟩ := h1
  rw [wp_bind]
  refine wp_mono (wp_and (sendFb_fb ehloCmd e t s1 (by omega)) ((sendFb_steps (R := Onward) (fun _ _ _ => .one) e t).run s1)) ?_ (fun _ _ _ => trivial)
  rintro code s2 ⟨hf, hx⟩
  have told : Told code s s2 := by
    refine (hf.told (P := (· = b!"ehlo localhost\r\n")) hcs (by rw [h1t, h1k]; exact he) (by rw [h1t, h1k]; exact fun h hh => ht h (.inl hh))).after ⟨h1t, h1k, .same h1h⟩
  have ho2 : Onward s s2 := Onward.trans ⟨h1t, h1k, .same h1h⟩ hx
  rw [wp_ite]
  refine ⟨fun hne => ⟨told, ho2, fun h => absurd h hne⟩, fun h250 => ?_⟩
  have h250 := Decidable.not_not.mp h250
  have : Steps env StandsStill lastResponseText := by unfold lastResponseText; steps []
  rw [wp_bind]
  refine wp_mono (this.run s2) (fun r s3 h3 => ?_) (fun _ _ _ => trivial)
  rw [wp_bind, wp_env, wp_bind]
  refine wp_mono (ehloLoop_rest t _ _ s3) ?_ (fun _ _ h => h)
  rintro r s4 ⟨h4t, h4k, evs, h4h, hu, h4⟩
  have ho : Onward s s4 := (ho2.trans h3.onward).trans ⟨h4t, h4k, evs, h4h⟩
  -- what happened up to the first answer
  obtain ⟨ch, n, mid, h2h, hu', hd⟩ : ∃ ch n mid, s2.hist = s.hist ++ .send .cmd ch b!"ehlo localhost\r\n" (.sent n) :: mid ∧
      (∀ e ∈ mid, ¬ IsSend e) ∧ 0 < dataReads mid := by
    cases hf with
    | answered ch n mid x hh hu' hd hr hz hc hch => exact ⟨ch, n, mid, by rw [hh, h1h, hcs], hu', hd⟩
    | failed ch n h => omega
    | late ch n mid post hh hv hc => omega
    | garbled ch n mid post x hh hu hd hr hz hn hc => omega
  have hall : s4.hist = s.hist ++ .send .cmd ch b!"ehlo localhost\r\n" (.sent n) :: (mid ++ evs) := by rw [h4h, h3.2.2, h2h]; simp
  have hun : ∀ e ∈ mid ++ evs, ¬ IsSend e := by
    intro e hm
    rcases List.mem_append.mp hm with hm | hm
    · exact hu' e hm
    · exact hu e hm
  have hd' : 0 < dataReads (mid ++ evs) := by rw [dataReads_append]; omega
  cases r with
  | inl c =>
    refine ⟨⟨_, hall, ?_⟩, ho, fun _ => ⟨_, hall, [], ch, n, mid ++ evs, rfl, hun, hd'⟩⟩
    rcases h4 with h | h | ⟨rfl, part, mid', rfl, hv⟩
    · exact .inl h.1
    · exact .inr (.inl (by simpa using Garbled.mono (pre := .send .cmd ch b!"ehlo localhost\r\n" (.sent n) :: mid) (post := []) h))
    · refine .inr (.inr (ht _ (.inr ⟨[], ch, n, mid ++ part, mid', by simp, ?_, ?_⟩)))
      · exact fun e hm => hun e (by simp only [List.mem_append] at hm ⊢; rcases hm with h | h <;> simp [h])
      · rw [(ho2.trans h3.onward).1] at hv; exact hv
  | inr o =>
    have : Steps env StandsStill (setAuthOptions o) := .modifyMem fun _ => ⟨rfl, rfl, rfl⟩
    dsimp only
    rw [wp_bind]
    refine wp_mono (this.run s4) (fun _ s5 h5 => ?_) (fun _ _ _ => trivial)
    have h5h : s5.hist = s.hist ++ .send .cmd ch b!"ehlo localhost\r\n" (.sent n) :: (mid ++ evs) := by rw [h5.2.2, hall]
    exact ⟨⟨_, h5h, .inl (by decide)⟩, ho.trans h5.onward, fun _ => ⟨_, h5h, [], ch, n, mid ++ evs, rfl, hun, hd'⟩⟩

/-! ### Logging in -/

theorem prefix_cstr {p : Bytes} (h : 0 ∉ p) (x : Bytes) : p <+: cstr (p ++ x) := by
  rw [cstr_prefix72 h]; exact List.prefix_append _ _

theorem loginText_line (u : Bytes) : LoginText (cstr (authLoginLine u)) := by
  have ha := Props.C03_encode_alphabet u
  have : cstr (authLoginLine u) = authLoginLine u := by
    apply cstr_eq_self
    intro h0
    unfold authLoginLine at h0
    rcases List.mem_append.mp h0 with h | h
    · rcases ha 0 h with h | h | h
      · revert h; unfold Spec.Base64.Alphabet; decide
      · exact absurd h (by decide)
      · exact absurd h (by decide)
    · exact absurd h (by decide)
  rw [this]
  exact .inr (.inr (.inr ⟨Base64.encode u, rfl, ha⟩))

theorem login_told {d : Bytes} (hl : LoginText (cstr d)) : TellsCause env K (sendPtrFb d (-81) (-82)) :=
  sendPtrFb_tells (by decide) hl (fun _ _ _ h => .login h) (fun _ _ _ h => .loginLate h)

/-- AUTH LOGIN and the user name: not answered with 334, the result is -81. -/
theorem loginStep_tells {d : Bytes} (hl : LoginText (cstr d)) {rest : M Int} (hr : TellsCause env K rest) :
    TellsCause env K (do if (← sendPtrFb d (-81) (-82)) ≠ 334 then pure (-81) else rest) := by
  intro s hk
  rw [wp_bind]
  refine wp_mono (wp_and (sendPtrFb_fb d (-81) (-82) s (by decide)) ((sendPtrFb_steps' (R := Onward) d (-81) (-82)).run s)) ?_ (fun _ _ _ => trivial)
  rintro code s1 ⟨hf, hx⟩
  rw [wp_ite]
  refine ⟨fun hne => ?_, fun _ => wp_mono (hr s1 (by rw [hx.2.1]; exact hk)) (fun _ _ h => h.after hx) (fun _ _ h => h)⟩
  cases hf with
  | failed ch n h =>
    obtain ⟨evs, he, hf⟩ := shut_failed h hl
    exact ⟨evs, he, .inr (.inr (.login hf))⟩
  | late ch n mid post hh hv hc => exact ⟨_, hh, .inr (.inr (.loginRefused ⟨[], ch, _, n, mid, post, rfl, hl, hv.unsaid, .inl hv, hc⟩))⟩
  | garbled ch n mid post x hh hu hd hr hz hn hc =>
    exact ⟨_, hh, .inr (.inr (.loginRefused ⟨[], ch, _, n, mid, post, rfl, hl, hu, .inr ⟨x, hr, extract_other hz (by omega)⟩, hc⟩))⟩
  | answered ch n mid x hh hu hd hr hz hc hch =>
    exact ⟨_, hh, .inr (.inr (.loginRefused ⟨[], ch, _, n, mid, [], by simp, hl, hu, .inr ⟨x, hr, extract_other hz hne⟩, by simp⟩))⟩

/-- Logging in, after EHLO has been answered. -/
theorem authenticateIfNeeded_tells {s0 s : St} (h0 : Onward s0 s) {evs : Hist} (he : s.hist = s0.hist ++ evs) (ha : AfterEhlo evs) :
    wp env authenticateIfNeeded (fun code s' => Told code s0 s') (fun _ _ => True) s := by
  have run : ∀ {m : M Int}, TellsCause env (fun _ => True) m → wp env m (fun code s' => Told code s0 s') (fun _ _ => True) s := fun h =>
    wp_mono (h s trivial) (fun _ _ h => h.after h0) (fun _ _ h => h)
  have done : ∀ {m : M Int}, wp env m (fun code s' => Told code s0 s') (fun _ _ => True) s → Steps env Onward m →
      wp env (do let code ← m; if code ≠ 235 then pure code else pure 0) (fun code s' => Told code s0 s') (fun _ _ => True) s := by
    intro m hm hx
    rw [wp_bind]
    refine wp_mono (wp_and hm (hx.run s)) ?_ (fun _ _ _ => trivial)
    rintro code s1 ⟨h, hx⟩
    rw [wp_ite]
    exact ⟨fun _ => h, fun _ => told_good (Int.le_refl 0) (h0.2.2.trans hx.2.2)⟩
  have fx : ∀ d, Steps env Onward (sendPtrFb d (-81) (-82)) := fun d => sendPtrFb_steps' d _ _
  unfold authenticateIfNeeded
  rw [wp_bind, wp_gets, wp_ite]
  refine ⟨fun hc => done ?_ ?_, fun _ => told_good (Int.le_refl 0) h0.2.2⟩
  · unfold authenticateClient
    rw [wp_bind, wp_gets]
    cases hcr : s.client.credential with
    | none => rw [hcr] at hc; cases hc
    | some c =>
      dsimp only
      rw [wp_bind, wp_gets]
      cases s.client.authOptions with
      | none => trivial
      | some o =>
        dsimp only
        rw [wp_ite]
        refine ⟨fun _ => run ?_, fun _ => (wp_ite ..).mpr ⟨fun _ => run ?_, fun _ => (wp_ite ..).mpr ⟨fun _ => run ?_, fun _ => ?_⟩⟩⟩
        · unfold authPlainM
          refine tells_bind (addLog_steps _ _) fun _ => login_told (.inl ?_)
          unfold authPlain
          rw [List.append_assoc]
          exact prefix_cstr (by decide) _
        · unfold authLoginM
          exact tells_bind (addLog_steps _ _) fun _ => loginStep_tells (.inr (.inr (.inl (by decide)))) (loginStep_tells (loginText_line _) (login_told (loginText_line _)))
        · unfold authXOAuth2M
          refine tells_bind (addLog_steps _ _) fun _ => login_told (.inr (.inl ?_))
          unfold authXOAuth2
          rw [List.append_assoc]
          exact prefix_cstr (by decide) _
        · exact ⟨evs, he, .inr (.inr (.noMechanism ha))⟩
  · unfold authenticateClient authPlainM authLoginM authXOAuth2M
    steps [addLog_steps, fx]

/-- EHLO and then logging in. -/
theorem ehlo_then {e t : Int} (he0 : e < 0) (ht0 : t < 0)
    (he : ∀ T k h, K k → SendFailed .cmd (· = b!"ehlo localhost\r\n") IsClosing h → Cause T k h e)
    (ht : ∀ T k h, K k → NoReply T (· = b!"ehlo localhost\r\n") IsClosing h ∨ NoRest T b!"ehlo localhost\r\n" h → Cause T k h t) {rest : M Int}
    (hr : ∀ s0 s, K s0.client.kind → Onward s0 s → ∀ evs, s.hist = s0.hist ++ evs → AfterEhlo evs → wp env rest (fun code s' => Told code s0 s') (fun _ _ => True) s) :
    TellsCause env K (do let code ← identify e t; if code ≠ 250 then pure code else rest) := by
  intro s hk
  rw [wp_bind]
  refine wp_mono (identify_told he0 ht0 s (fun h => he _ _ h hk) fun h => ht _ _ h hk) ?_ (fun _ _ _ => trivial)
  rintro code s1 ⟨ht, ho, hc⟩
  rw [wp_ite]
  refine ⟨fun _ => ht, fun h => ?_⟩
  obtain ⟨evs, hh, ha⟩ := hc (Decidable.not_not.mp h)
  exact hr s s1 hk ho evs hh ha

theorem secureIdent_then {k : Kind} (hk : k ≠ .smtp) :
    TellsCause env (· = k) (do let code ← getServerSecureIdentification; if code ≠ 250 then pure code else authenticateIfNeeded) := by
  have : TellsCause env (· = k) (do
      addLog b!"Contacting the server again but via the secure channel..."
      let code ← identify (-59) (-60)
      if code ≠ 250 then pure code else authenticateIfNeeded) :=
    tells_bind (addLog_steps _ _) fun _ => ehlo_then (by decide) (by decide) (fun T k' h e => by subst e; exact .secureEhlo hk)
      (fun T k' h e => by subst e; exact .secureEhloLate hk) fun s0 s hk ho evs he ha => authenticateIfNeeded_tells ho he ha
  intro s hs
  have := this s hs
  unfold getServerSecureIdentification
  simpa only [wp_bind] using this

/-! ### Establishing the session -/

/-- Nothing is sent. -/
def Unspoken (s s' : St) : Prop := s'.client.timeout = s.client.timeout ∧ s'.client.kind = s.client.kind ∧ NewEvents (fun e => ¬ IsSend e) s s'

theorem Unspoken.same {s s' : St} (ht : s'.client.timeout = s.client.timeout) (hk : s'.client.kind = s.client.kind) (h : s'.hist = s.hist) : Unspoken s s' := ⟨ht, hk, .same h⟩
theorem Unspoken.one {s : St} {e : Ev} (h : ¬ IsSend e) : Unspoken s (St.snoc s e) := ⟨rfl, rfl, .one h⟩
theorem Unspoken.trans {a b c : St} (h : Unspoken a b) (h' : Unspoken b c) : Unspoken a c := ⟨h'.1.trans h.1, h'.2.1.trans h.2.1, h.2.2.trans h'.2.2⟩
theorem Unspoken.onward {s s' : St} (h : Unspoken s s') : Onward s s' := by
  obtain ⟨ht, hk, evs, he, -⟩ := h
  exact ⟨ht, hk, evs, he⟩

instance : Harmless Unspoken where
  refl := fun _ => .same rfl rfl rfl
  trans := .trans
  log := fun _ _ _ _ _ _ _ => .same rfl rfl rfl
  errno := fun _ _ => .same rfl rfl rfl
  resp := fun _ _ => .same rfl rfl rfl
  auth := fun _ _ => .same rfl rfl rfl
  fcntlGet := fun _ _ _ => .one (by simp [IsSend])
  fcntlSet := fun _ _ _ _ => .one (by simp [IsSend])
  select := fun _ _ _ => .one (by simp [IsSend])
  sockopt := fun _ _ _ => .one (by simp [IsSend])
  resolve := fun _ _ _ => .one (by simp [IsSend])
  connect := fun _ _ _ _ => .one (by simp [IsSend])

theorem initializeSession_mute : Steps env Unspoken initializeSession := by
  unfold initializeSession initializePOSIX
  refine .bind (.modifyMem fun _ => .same rfl rfl rfl) fun _ => .bind (.ask fun s r => .one (by simp [IsSend])) fun r => ?_
  cases r with
  | err e => exact .bind (.modify fun _ => .same rfl rfl rfl) fun _ => .bind (logErrno_steps _) fun _ => .pure _
  | val fd =>
    refine .bind (.modify fun _ => .same rfl rfl rfl) fun _ => ?_
    steps [sysResolve_steps, setNonBlocking_steps, addLog_steps, connectPOSIX_steps]

/-- If the result is 0, nothing was sent. -/
def MuteAt0 (env : Env) (m : M Int) : Prop := ∀ s, wp env m (fun code s' => code = 0 → Unspoken s s') (fun _ _ => True) s

theorem mute0_bind {m : M α} {f : α → M Int} (hm : Steps env Unspoken m) (hf : ∀ a, MuteAt0 env (f a)) : MuteAt0 env (m >>= f) := by
  intro s
  rw [wp_bind]
  exact wp_mono (hm.run s) (fun a s1 h1 => wp_mono (hf a s1) (fun _ _ h h0 => h1.trans (h h0)) (fun _ _ h => h)) (fun _ _ _ => trivial)

theorem mute0_ite {c : Prop} [Decidable c] {a b : M Int} (ha : MuteAt0 env a) (hb : MuteAt0 env b) : MuteAt0 env (if c then a else b) := by
  split <;> assumption

/-- The result is not 0. -/
def Never0 (env : Env) (m : M Int) : Prop := ∀ s, wp env m (fun code _ => code ≠ 0) (fun _ _ => True) s

theorem never0_pure {c : Int} (h : c ≠ 0) : Never0 env (pure c) := fun _ => h
theorem never0_bind {m : M α} {f : α → M Int} (hm : Steps env Onward m) (hf : ∀ a, Never0 env (f a)) : Never0 env (m >>= f) := by
  intro s
  rw [wp_bind]
  exact wp_mono (hm.run s) (fun a s1 _ => hf a s1) (fun _ _ _ => trivial)
theorem Never0.mute {m : M Int} (h : Never0 env m) : MuteAt0 env m := fun s => wp_mono (h s) (fun _ _ h h0 => absurd h0 h) fun _ _ h => h

theorem startTLSNegotiation_mute : MuteAt0 env startTLSNegotiation := by
  have tls : ∀ op, Steps env Unspoken (sysTls op) := fun op => .ask fun s r => .one (by simp [IsSend])
  have bad : ∀ {c : Int}, c ≠ 0 → MuteAt0 env (pure c) := fun h => (never0_pure h).mute
  have zero : MuteAt0 env (pure 0) := fun s _ => .same rfl rfl rfl
  have errno : ∀ {c : Int}, c ≠ 0 → Never0 env (do setErrNo (← M.ask' (·.tlsErr)); pure c) := fun h =>
    never0_bind (.ask' _) fun _ => never0_bind (setErrNo_steps _) fun _ => never0_pure h
  unfold startTLSNegotiation
  refine mute0_bind (addLog_steps _ _) fun _ => mute0_bind (tls _) fun _ => mute0_ite
    (mute0_bind (.modify fun _ => .same rfl rfl rfl) fun _ => (errno (by decide)).mute) (mute0_bind (.modify fun _ => .same rfl rfl rfl) fun _ =>
      mute0_bind .histLength fun id => mute0_bind (tls _) fun _ =>
      mute0_ite (mute0_bind (.modify fun _ => .same rfl rfl rfl) fun _ => bad (by decide)) (mute0_bind (.gets _) fun _ =>
      mute0_bind (.modify fun _ => .same rfl rfl rfl) fun _ => mute0_bind (.gets _) fun name => ?_))
  cases name with
  | none => exact fun _ => trivial
  | some name =>
    refine mute0_bind (.gets _) fun _ => mute0_ite (fun _ => trivial) (mute0_bind (tls _) fun _ => mute0_ite (bad (by decide))
      (mute0_bind (tls _) fun _ => mute0_ite (never0_bind cleanup_steps fun _ => errno (by decide)).mute
      (mute0_bind (addLog_steps _ _) fun _ => mute0_bind (tls _) fun _ => mute0_ite (never0_bind cleanup_steps fun _ => errno (by decide)).mute
      (mute0_bind (addLog_steps _ _) fun _ => mute0_bind (tls _) fun _ => mute0_ite (never0_bind cleanup_steps fun _ => never0_pure (by decide)).mute
      (mute0_bind (tls _) fun res => mute0_bind (.gets _) fun _ => mute0_ite ?_ (mute0_ite ?_ ?_))))))
    · exact mute0_bind (addLog_steps _ _) fun _ => mute0_bind (addLog_steps _ _) fun _ => zero
    · exact (never0_bind (.env' _) fun _ => never0_bind (addLog_steps _ _) fun _ => never0_bind cleanup_steps fun _ => never0_pure (by decide)).mute
    · exact mute0_bind (addLog_steps _ _) fun _ => zero

/-- What opening the session gives. -/
def OpenedOr (code : Int) (s s' : St) : Prop := Told code s s' ∨ (code = -3 ∧ ∃ evs, s'.hist = s.hist ++ evs ∧ NoGreeting s.client.timeout evs)

theorem OpenedOr.after {code : Int} {a b c : St} (h : Unspoken a b) (h' : OpenedOr code b c) : OpenedOr code a c := by
  rcases h' with h' | ⟨hc, y, hy, pre, mid, rfl, hp, hv⟩
  · exact .inl (h'.after h.onward)
  · obtain ⟨ht, -, x, hx, hm⟩ := h
    refine .inr ⟨hc, x ++ (pre ++ mid), by rw [hy, hx]; simp, x ++ pre, mid, by simp, ?_, by rw [← ht]; exact hv⟩
    intro e he
    rcases List.mem_append.mp he with he | he
    · exact hm e he
    · exact hp e he

theorem greetings_then {rest : M Int} (hr : TellsCause env K rest) (s : St) (hk : K s.client.kind) :
    wp env (do let code ← checkServerGreetings; if code ≠ 220 then pure code else rest) (fun code s' => OpenedOr code s s') (fun _ _ => True) s := by
  rw [wp_bind]
  refine wp_mono (wp_and (checkServerGreetings_greeted s) ((checkServerGreetings_steps (R := Onward)).run s)) ?_ (fun _ _ _ => trivial)
  rintro code s1 ⟨⟨evs, he, hg⟩, hx⟩
  rw [wp_ite]
  refine ⟨fun _ => ?_, fun _ => wp_mono (hr s1 (by rw [hx.2.1]; exact hk)) (fun _ _ h => .inl (h.after hx)) fun _ _ h => h⟩
  rcases hg with ⟨h, hv⟩ | h | h
  · exact .inr ⟨h, evs, he, [], evs, rfl, by simp, hv⟩
  · exact .inl ⟨evs, he, .inl h⟩
  · exact .inl ⟨evs, he, .inr (.inl h)⟩

theorem establish_caused (s : St) : wp env establish (fun code s' => OpenedOr code s s') (fun _ _ => True) s := by
  have greeted : ∀ (k : Kind), k ≠ .forced → ∀ rest, (∀ s0 s, s0.client.kind = k → Onward s0 s → ∀ evs, s.hist = s0.hist ++ evs → AfterEhlo evs →
      wp env rest (fun code s' => Told code s0 s') (fun _ _ => True) s) → ∀ s, s.client.kind = k →
      wp env (establishGreeted rest) (fun code s' => OpenedOr code s s') (fun _ _ => True) s := by
    intro k hk rest hr s hs
    unfold establishGreeted sendServerIdentification
    exact greetings_then (K := (· = k)) (ehlo_then (by decide) (by decide) (fun T k' h e => by subst e; exact .ehlo hk) (fun T k' h e => by subst e; exact .ehloLate hk) hr) s hs
  unfold establish
  rw [wp_bind]
  refine wp_mono (wp_and (initializeSession_tells (K := fun _ => True) s trivial) (initializeSession_mute.run s)) ?_ (fun _ _ _ => trivial)
  rintro code s1 ⟨ht, hm⟩
  rw [wp_ite]
  refine ⟨fun _ => .inl ht, fun _ => ?_⟩
  rw [wp_bind, wp_gets]
  have later : ∀ {m : M Int}, wp env m (fun code s' => OpenedOr code s1 s') (fun _ _ => True) s1 → wp env m (fun code s' => OpenedOr code s s') (fun _ _ => True) s1 :=
    fun h => wp_mono h (fun _ _ h => h.after hm) fun _ _ h => h
  cases hk : s1.client.kind with
  | smtp => exact later (greeted .smtp (by decide) _ (fun s0 s _ ho evs he ha => authenticateIfNeeded_tells ho he ha) s1 hk)
  | forced =>
    refine later ?_
    unfold establishForced
    dsimp only
    rw [wp_bind]
    refine wp_mono (wp_and (startTLSNegotiation_tells s1 (by rw [hk]; decide)) (startTLSNegotiation_mute s1)) ?_ (fun _ _ _ => trivial)
    rintro code s2 ⟨ht, hm2⟩
    rw [wp_ite]
    refine ⟨fun _ => .inl ht, fun h0 => ?_⟩
    have hm2 := hm2 (Decidable.not_not.mp h0)
    exact wp_mono (greetings_then (K := (· = .forced)) (secureIdent_then (by decide)) s2 (by rw [hm2.2.1, hk])) (fun _ _ h => h.after hm2) fun _ _ h => h
  | opportunistic =>
    refine later (greeted .opportunistic (by decide) _ (fun s0 s hk ho evs he ha => ?_) s1 hk)
    have : TellsCause env (· = .opportunistic) establishOpportunistic := by
      have raw : ∀ d e t, Steps env Onward (sendRawFb d e t) := fun d e t => sendRawFb_steps (fun _ _ _ => .one) e t
      unfold establishOpportunistic
      refine tells_bind (.gets _) fun r => ?_
      split
      · exact tells_stop _
      · refine tells_bind (addLog_steps _ _) fun _ => tells_test ?_ ?_
          (tells_test (startTLSNegotiation_tells.mono (by rintro k rfl; decide)) startTLSNegotiation_steps (secureIdent_then (by decide)))
        · unfold upgradeToSecureConnection
          refine tells_bind (addLog_steps _ _) fun _ s hs => ?_
          exact wp_mono (sendRawFb_fb _ _ _ s (by decide)) (fun _ _ h => h.told (P := (· = b!"STARTTLS\r\n")) (by decide) (fun _ h => .starttls hs h)
            fun _ h => .starttlsLate hs h) fun _ _ h => h
        · unfold upgradeToSecureConnection
          steps [addLog_steps, raw]
      · exact tells_bind (addLog_steps _ _) fun _ => tells_bind (.modify fun s => .same rfl rfl rfl) fun _ => tells_pure (by decide)
    exact wp_mono (this s (by rw [ho.2.1]; exact hk)) (fun _ _ h => h.after ho) fun _ _ h => h

end Verif.Proofs
