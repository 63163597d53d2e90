import Verif.Proofs.Bcc
import Verif.Props.Values
import Verif.Props.Codes
import Verif.Spec.Login
/-!
# C42 as an exchange, C56: mail only after the requested authentication succeeded
-/
namespace Verif.Props
open Verif Verif.Model Verif.Spec

variable {env : Env} {α : Type}

/-- Between the two states a reply was read that reads as code 0. -/
def ZeroRead (s s' : St) : Prop := ∃ evs, s'.hist = s.hist ++ evs ∧ ReplyIn evs 0

theorem ZeroRead.after {a b c : St} (h : Proofs.Ext a b) (h' : ZeroRead b c) : ZeroRead a c := by
  obtain ⟨x, hx⟩ := h
  obtain ⟨y, hy, pre, mid, post, rfl, h1, h2⟩ := h'
  exact ⟨x ++ (pre ++ mid ++ post), by rw [hy, hx, List.append_assoc], x ++ pre, mid, post, by simp, h1, h2⟩

theorem ZeroRead.before {a b c : St} (h : ZeroRead a b) (h' : Proofs.Ext b c) : ZeroRead a c := by
  obtain ⟨x, hx, pre, mid, post, rfl, h1, h2⟩ := h
  obtain ⟨y, hy⟩ := h'
  exact ⟨pre ++ mid ++ post ++ y, by rw [hy, hx, List.append_assoc], pre, mid, post ++ y, by simp, h1, h2⟩

/-- The code returns 0 only when a reply reads as 0. -/
def ZeroCoded (env : Env) (m : M Int) : Prop := ∀ s, Proofs.post env m (fun code s' => (code = 0 → ZeroRead s s') ∧ Proofs.Ext s s') s

theorem zeroCoded_pure {c : Int} (h : c ≠ 0) : ZeroCoded env (pure c) := fun _ => ⟨fun h' => absurd h' h, .same rfl⟩

theorem zeroCoded_stop (e : Stop) : ZeroCoded env (M.stop e) := fun _ => trivial

theorem zeroCoded_bind {m : M α} {f : α → M Int} (hm : Proofs.Steps env Proofs.Ext m) (hf : ∀ a, ZeroCoded env (f a)) : ZeroCoded env (m >>= f) := by
  intro s
  unfold Proofs.post
  rw [Proofs.wp_bind]
  exact Proofs.post_mono (Proofs.post_steps hm s) fun a s1 h1 =>
    Proofs.post_mono (hf a s1) fun _ _ h => ⟨fun h0 => (h.1 h0).after h1, h1.trans h.2⟩

theorem zeroCoded_ite {c : Prop} [Decidable c] {a b : M Int} (ha : ZeroCoded env a) (hb : ZeroCoded env b) : ZeroCoded env (if c then a else b) := by
  split <;> assumption

theorem gotCode_zero {s s' : St} {code : Int} (h : Proofs.GotCode s code s') : (code = 0 → ZeroRead s s') ∧ Proofs.Ext s s' := by
  obtain ⟨t, ⟨_, evs, h1, h2, h3⟩, hc⟩ := h
  refine ⟨fun h0 => ⟨evs, h1, ?_⟩, evs, h1⟩
  subst h0
  rcases hc with hc | hc
  · exact absurd hc (by decide)
  · refine ⟨[], evs, [], by simp, fun e he => ?_, by rw [h3]; exact hc⟩
    have := h2 e he
    cases e <;> simp_all [Proofs.QuietEv, Proofs.DeafEv, IsSend]

theorem getRawReply_zero : ZeroCoded env getRawReply := fun s =>
  Proofs.wp_mono (Proofs.getRawReply_code s) (fun _ _ h => gotCode_zero h) (fun _ _ _ => trivial)
theorem getTlsReply_zero : ZeroCoded env getTlsReply := fun s =>
  Proofs.wp_mono (Proofs.getTlsReply_code s) (fun _ _ h => gotCode_zero h) (fun _ _ _ => trivial)

theorem getServerReply_zero : ZeroCoded env getServerReply := by
  unfold getServerReply
  exact zeroCoded_bind (.gets _) fun _ => zeroCoded_ite getRawReply_zero getTlsReply_zero

theorem reply_zero {m : M Int} (hm : ZeroCoded env m) {t : Int} (ht : t ≠ 0) : ZeroCoded env (do
    let code ← m
    if code ≠ -1 then pure code
    else do
      cleanup
      pure t) := by
  intro s
  unfold Proofs.post
  rw [Proofs.wp_bind]
  refine Proofs.post_mono (hm s) fun code s1 h => ?_
  rw [Proofs.wp_ite]
  refine ⟨fun _ => h, fun _ => ?_⟩
  rw [Proofs.wp_bind]
  exact Proofs.post_mono (Proofs.post_steps (Proofs.cleanup_steps (R := Proofs.Ext)) s1) fun _ s2 h2 => ⟨fun h0 => absurd h0 ht, h.2.trans h2⟩

theorem sendRawFb_zero {d : Bytes} {e t : Int} (he : e ≠ 0) (ht : t ≠ 0) : ZeroCoded env (sendRawFb d e t) := by
  unfold sendRawFb
  exact zeroCoded_bind (Proofs.sendRaw_steps (fun _ _ _ => Proofs.Ext.one) _) fun _ => zeroCoded_ite (zeroCoded_pure he) (reply_zero getRawReply_zero ht)

theorem sendTlsFb_zero {d : Bytes} {e t : Int} (he : e ≠ 0) (ht : t ≠ 0) : ZeroCoded env (sendTlsFb d e t) := by
  unfold sendTlsFb
  exact zeroCoded_bind (Proofs.sendBioWith_steps Proofs.cleanup_steps (fun _ _ _ => Proofs.Ext.one) _) fun _ =>
    zeroCoded_ite (zeroCoded_pure he) (reply_zero getTlsReply_zero ht)

theorem sendFb_zero {d : Bytes} {e t : Int} (he : e ≠ 0) (ht : t ≠ 0) : ZeroCoded env (sendFb d e t) := by
  unfold sendFb
  exact zeroCoded_bind (.gets _) fun _ => zeroCoded_bind (.gets _) fun _ => zeroCoded_ite (sendRawFb_zero he ht) (sendTlsFb_zero he ht)

theorem checkServerGreetings_zero : ZeroCoded env checkServerGreetings := by
  have key : ∀ {read : M RecvRes}, (∀ s, Proofs.wp env read
      (fun r s' => match r with | .data d => Proofs.Heard (upToNul d) s s' | _ => Proofs.Heard [] s s') (fun _ => Proofs.Quiet s) s) →
      ∀ n, ZeroCoded env (do greetingResult (← waitLoop read n)) := by
    intro read hr n s
    unfold Proofs.post
    rw [Proofs.wp_bind]
    refine Proofs.wp_mono (Proofs.waitLoop_heard hr n s) (fun r s1 h => ?_) (fun _ _ _ => trivial)
    cases r with
    | none =>
      obtain ⟨_, evs, he, _⟩ := h
      exact ⟨fun h0 => absurd h0 (by decide), evs, he⟩
    | some d =>
      obtain ⟨hg, hx⟩ := gotCode_zero ⟨_, h, Proofs.buffer_code d⟩
      unfold greetingResult
      dsimp only
      rw [Proofs.wp_bind]
      refine Proofs.post_mono (Proofs.post_steps (Proofs.addLog_steps (R := Proofs.Ext) _ _) s1) fun _ s2 h2 => ?_
      rw [Proofs.wp_ite]
      refine ⟨fun _ => ?_, fun _ => ⟨fun h0 => (hg h0).before h2, hx.trans h2⟩⟩
      rw [Proofs.wp_bind]
      exact Proofs.post_mono (Proofs.post_steps (Proofs.addLog_steps (R := Proofs.Ext) _ _) s2) fun _ s3 h3 =>
        ⟨fun h0 => ((hg h0).before h2).before h3, (hx.trans h2).trans h3⟩
  unfold checkServerGreetings
  refine zeroCoded_bind (.gets _) fun _ => zeroCoded_ite ?_ ?_
  · exact zeroCoded_bind (.gets _) fun t => key Proofs.bioRead_heard t
  · exact zeroCoded_bind (.gets _) fun sock => zeroCoded_bind (.gets _) fun t => key (Proofs.sysRecv_heard _) t

theorem ehloLoop_zero {t : Int} (ht : t ≠ 0) (n : Nat) (o : Bytes) (s : St) :
    Proofs.post env (ehloLoop t n o) (fun r s' => match r with | .inl code => (code = 0 → ZeroRead s s') | .inr _ => True) s := by
  induction n generalizing o s with
  | zero => trivial
  | succ n ih =>
    unfold ehloLoop Proofs.post
    rw [Proofs.wp_ite]
    refine ⟨fun _ => trivial, fun _ => ?_⟩
    rw [Proofs.wp_bind]
    refine Proofs.post_mono (getServerReply_zero s) fun code s1 ⟨hg, hx⟩ => ?_
    rw [Proofs.wp_ite]
    refine ⟨fun _ => fun h0 => absurd h0 ht, fun _ => ?_⟩
    rw [Proofs.wp_ite]
    refine ⟨fun _ => hg, fun _ => ?_⟩
    rw [Proofs.wp_bind]
    refine Proofs.post_mono (Proofs.post_steps (Proofs.lastResponseText_steps (R := Proofs.Ext)) s1) fun r s2 h2 => ?_
    refine Proofs.post_mono (ih _ s2) fun r s3 h3 => ?_
    cases r with
    | inl c => exact fun h0 => (h3 h0).after (hx.trans h2)
    | inr _ => trivial

theorem identify_zero {e t : Int} (he : e ≠ 0) (ht : t ≠ 0) : ZeroCoded env (identify e t) := by
  intro s
  refine Proofs.post_and ?_ (Proofs.post_steps (Proofs.identify_steps' (R := Proofs.Ext) e t) s)
  unfold identify Proofs.post
  rw [Proofs.wp_bind]
  refine Proofs.post_mono (Proofs.post_steps (Proofs.addLog_steps (R := Proofs.Ext) _ _) s) fun _ s1 h1 => ?_
  rw [Proofs.wp_bind]
  refine Proofs.post_mono (sendFb_zero he ht s1) fun code s2 ⟨hg, hx⟩ => ?_
  rw [Proofs.wp_ite]
  refine ⟨fun _ h0 => (hg h0).after h1, fun _ => ?_⟩
  rw [Proofs.wp_bind]
  refine Proofs.post_mono (Proofs.post_steps (Proofs.lastResponseText_steps (R := Proofs.Ext)) s2) fun r s3 h3 => ?_
  rw [Proofs.wp_bind, Proofs.wp_env, Proofs.wp_bind]
  refine Proofs.post_mono (ehloLoop_zero ht _ _ s3) fun r s4 h4 => ?_
  cases r with
  | inl c => exact fun h0 => (h4 h0).after ((h1.trans hx).trans h3)
  | inr _ => exact fun h0 => absurd h0 (by decide)

/-! ### The exchange -/

/-- Between the states there was a complete authentication on one channel, and nothing else was said. -/
def LoggedIn (c : Credential) (s s' : St) : Prop :=
  ∃ l items, Login c.username c.password l ∧ Turns (Proofs.chan s.client) l items ∧ Proofs.Said items s s'

theorem zeroRead_replied {d : Bytes} {s s' : St} (h : Proofs.Replied d 0 s s') : ZeroRead s s' := by
  obtain ⟨n, t, ⟨hc, evs, h1, h2, h3⟩, hr⟩ := h
  refine ⟨.send .cmd (Proofs.chan s.client) (cstr d) (.sent n) :: evs, by rw [h1]; simp [Proofs.St.snoc], ?_⟩
  refine ⟨[.send .cmd (Proofs.chan s.client) (cstr d) (.sent n)], evs, [], by simp, fun e he => ?_, by rw [h3]; exact hr⟩
  have := h2 e he
  cases e <;> simp_all [Proofs.QuietEv, Proofs.DeafEv, IsSend]

/-- One command of an exchange. -/
theorem authLine_post (d : Bytes) (s : St) : Proofs.post env (sendPtrFb d (-81) (-82)) (fun code s' =>
    (∀ k, code = k → 0 ≤ k → ∃ t, Proofs.Said [.cmd (Proofs.chan s.client) (cstr d) t] s s' ∧ ReplyCode t k) ∧ (code = 0 → ZeroRead s s') ∧
    Proofs.Ext s s') s := by
  refine Proofs.post_mono (Proofs.sendPtrFb_post d (-81) (-82) s (by decide)) fun code s' ⟨h, hx⟩ => ⟨fun k hk h0 => ?_, fun h0 => ?_, hx⟩
  · subst hk
    rcases h with h | h | h
    · exact h.said
    · omega
    · omega
  · rcases h with h | h | h
    · rw [h0] at h; exact zeroRead_replied h
    · omega
    · omega

theorem authenticateClient_login {c : Credential} (hm : Modest c) (s : St) (hc : s.client.credential = some c) :
    Proofs.post env authenticateClient (fun code s' => (code = 235 → LoggedIn c s s') ∧ (code = 0 → ZeroRead s s')) s := by
  obtain ⟨n1, n2, n3⟩ := C42_commands_without_nul c c.username
  have n4 := (C42_commands_without_nul c c.password).2.1
  have l1 := hm.length
  have plain : Proofs.post env (authPlainM c) (fun code s' => (code = 235 → LoggedIn c s s') ∧ (code = 0 → ZeroRead s s')) s := by
    unfold authPlainM Proofs.post
    rw [Proofs.wp_bind]
    refine Proofs.post_mono (Proofs.post_deaf (Proofs.addLog_steps _ _) s) fun _ s1 h1 => ?_
    refine Proofs.post_mono (authLine_post _ s1) fun code s2 ⟨h2, h3, _⟩ => ⟨fun h => ?_, fun h => (h3 h).after h1.ext⟩
    obtain ⟨t, hs, hr⟩ := h2 235 h (by decide)
    rw [n1] at hs
    refine ⟨_, _, .plain ((C42_plain_partial c hm.user.1 hm.password).1 (by omega)), .cons hr .nil, ?_⟩
    rw [← h1.chan]
    exact h1.then_said hs
  have xoauth : Proofs.post env (authXOAuth2M c) (fun code s' => (code = 235 → LoggedIn c s s') ∧ (code = 0 → ZeroRead s s')) s := by
    unfold authXOAuth2M Proofs.post
    rw [Proofs.wp_bind]
    refine Proofs.post_mono (Proofs.post_deaf (Proofs.addLog_steps _ _) s) fun _ s1 h1 => ?_
    refine Proofs.post_mono (authLine_post _ s1) fun code s2 ⟨h2, h3, _⟩ => ⟨fun h => ?_, fun h => (h3 h).after h1.ext⟩
    obtain ⟨t, hs, hr⟩ := h2 235 h (by decide)
    rw [n3] at hs
    refine ⟨_, _, .xoauth2 (C42_xoauth2_partial c hm.user.2 hm.length), .cons hr .nil, ?_⟩
    rw [← h1.chan]
    exact h1.then_said hs
  have login : Proofs.post env (authLoginM c) (fun code s' => (code = 235 → LoggedIn c s s') ∧ (code = 0 → ZeroRead s s')) s := by
    unfold authLoginM Proofs.post
    rw [Proofs.wp_bind]
    refine Proofs.post_mono (Proofs.post_deaf (Proofs.addLog_steps _ _) s) fun _ s1 h1 => ?_
    rw [Proofs.wp_bind]
    refine Proofs.post_mono (authLine_post _ s1) fun code s2 ⟨h2, _, x2⟩ => ?_
    rw [Proofs.wp_ite]
    refine ⟨fun _ => ⟨fun h => absurd h (by decide), fun h => absurd h (by decide)⟩, fun hk => ?_⟩
    obtain ⟨t2, s2', r2⟩ := h2 334 (Decidable.not_not.mp hk) (by decide)
    rw [Proofs.wp_bind]
    refine Proofs.post_mono (authLine_post _ s2) fun code s3 ⟨h3, _, x3⟩ => ?_
    rw [Proofs.wp_ite]
    refine ⟨fun _ => ⟨fun h => absurd h (by decide), fun h => absurd h (by decide)⟩, fun hk => ?_⟩
    obtain ⟨t3, s3', r3⟩ := h3 334 (Decidable.not_not.mp hk) (by decide)
    refine Proofs.post_mono (authLine_post _ s3) fun code s4 ⟨h4, z4, _⟩ =>
      ⟨fun h => ?_, fun h => (z4 h).after ((h1.ext.trans x2).trans x3)⟩
    obtain ⟨t4, s4', r4⟩ := h4 235 h (by decide)
    rw [s3'.chan, s2'.chan, h1.chan] at s4'
    rw [s2'.chan, h1.chan] at s3'
    rw [h1.chan] at s2'
    rw [n2] at s3'
    rw [n4] at s4'
    have e1 : cstr b!"AUTH LOGIN\r\n" = b!"AUTH LOGIN\r\n" := by decide
    rw [e1] at s2'
    exact ⟨_, _, .login ((C42_login_partial c.username).1 (by omega)) ((C42_login_partial c.password).1 (by omega)),
      .cons r2 (.cons r3 (.cons r4 .nil)), h1.then_said ((s2'.trans s3').trans s4')⟩
  unfold authenticateClient Proofs.post
  rw [Proofs.wp_bind, Proofs.wp_gets, hc]
  dsimp only
  rw [Proofs.wp_bind, Proofs.wp_gets]
  cases s.client.authOptions with
  | none => trivial
  | some o =>
    dsimp only
    simp only [Proofs.wp_ite]
    exact ⟨fun _ => plain, fun _ => ⟨fun _ => login, fun _ => ⟨fun _ => xoauth, fun _ => ⟨fun h => absurd h (by decide), fun h => absurd h (by decide)⟩⟩⟩⟩

/-- **C42, partial (the exchange).** When `authenticateClient` reports success, 235, then exactly one complete exchange took place on one channel:
the texts sent are those of one mechanism, a server reads exactly the user name and the password of the credential from them, and each was answered
with the code that asks for the next or, the last one, with 235. Missing: credentials that are not `Modest`. -/
theorem C42_exchange_partial (env : Env) (s s' : St) (c : Credential) (hm : Modest c) (hc : s.client.credential = some c)
    (h : authenticateClient env s = (.ok 235, s')) :
    ∃ ch l items evs, Login c.username c.password l ∧ Turns ch l items ∧ s'.hist = s.hist ++ evs ∧
      (NoShortWrites evs → conversation evs = items) := by
  have := authenticateClient_login (env := env) hm s hc
  unfold Proofs.post Proofs.wp at this
  rw [h] at this
  obtain ⟨l, items, h1, h2, _, evs, h3, h4⟩ := this.1 rfl
  exact ⟨_, l, items, evs, h1, h2, h3, fun hn => by rw [conversation, h4 hn]⟩

/-! ### C56 -/

/-- Only the first greeting of the session. -/
def JustEhlo : Proofs.Texts := fun _ k d => k = .cmd ∧ d = b!"ehlo localhost\r\n"

/-- Anything. -/
def AnyText : Proofs.Texts := fun _ _ _ => True

theorem authenticateIfNeeded_login {c : Credential} (hm : Modest c) (s : St) (hc : s.client.credential = some c) :
    Proofs.post env authenticateIfNeeded (fun code s' => code = 0 → ZeroRead s s' ∨ LoggedIn c s s') s := by
  unfold authenticateIfNeeded Proofs.post
  rw [Proofs.wp_bind, Proofs.wp_gets, hc]
  simp only [Option.isSome_some, if_true]
  rw [Proofs.wp_bind]
  refine Proofs.post_mono (authenticateClient_login hm s hc) fun code s1 ⟨h1, h2⟩ => ?_
  rw [Proofs.wp_ite]
  exact ⟨fun _ h0 => .inl (h2 h0), fun h _ => .inr (h1 (Decidable.not_not.mp h))⟩

/-- How the opening of a connection may come to report success, for a client with a credential. -/
def OpenedFor (c : Credential) (s s' : St) : Prop :=
  ZeroRead s s' ∨ (∃ s1, Proofs.Ext s s1 ∧ LoggedIn c s1 s') ∨ (s.client.kind = .opportunistic ∧ Proofs.Saying JustEhlo s s')

theorem ident_login {c : Credential} (hm : Modest c) (s : St) (hc : s.client.credential = some c) (e t : Int) (he : e ≠ 0) (ht : t ≠ 0) :
    Proofs.post env (do
      let code ← identify e t
      if code ≠ 250 then pure code else authenticateIfNeeded) (fun code s' => code = 0 → ZeroRead s s' ∨ ∃ s1, Proofs.Ext s s1 ∧ LoggedIn c s1 s') s := by
  unfold Proofs.post
  rw [Proofs.wp_bind]
  refine Proofs.post_mono (Proofs.post_and (identify_zero he ht s)
    (Proofs.post_steps (Proofs.identify_steps (R := Proofs.Saying AnyText) (fun s _ _ => .one trivial) e t) s)) ?_
  rintro code s1 ⟨⟨z1, x1⟩, y1⟩
  rw [Proofs.wp_ite]
  refine ⟨fun _ => fun h0 => .inl (z1 h0), fun _ => ?_⟩
  refine Proofs.post_mono (authenticateIfNeeded_login hm s1 (by rw [y1.1]; exact hc)) fun code s2 h2 h0 => ?_
  rcases h2 h0 with h | h
  · exact .inl (h.after x1)
  · exact .inr ⟨s1, x1, h⟩

theorem secureIdent_login {c : Credential} (hm : Modest c) (s : St) (hc : s.client.credential = some c) :
    Proofs.post env (do
      let code ← getServerSecureIdentification
      if code ≠ 250 then pure code else authenticateIfNeeded) (fun code s' => code = 0 → ZeroRead s s' ∨ ∃ s1, Proofs.Ext s s1 ∧ LoggedIn c s1 s') s := by
  have step : Proofs.post env (addLog b!"Contacting the server again but via the secure channel..." >>= fun _ => do
      let code ← identify (-59) (-60)
      if code ≠ 250 then pure code else authenticateIfNeeded)
      (fun code s' => code = 0 → ZeroRead s s' ∨ ∃ s1, Proofs.Ext s s1 ∧ LoggedIn c s1 s') s := by
    unfold Proofs.post
    rw [Proofs.wp_bind]
    refine Proofs.post_mono (Proofs.post_deaf (Proofs.addLog_steps _ _) s) fun _ s1 h1 => ?_
    have hc1 : s1.client.credential = some c := by rw [h1.1]; exact hc
    refine Proofs.post_mono (ident_login hm s1 hc1 (-59) (-60) (by decide) (by decide)) fun code s2 h2 h0 => ?_
    rcases h2 h0 with h | ⟨s3, x3, h⟩
    · exact .inl (h.after h1.ext)
    · exact .inr ⟨s3, h1.ext.trans x3, h⟩
  unfold getServerSecureIdentification Proofs.post
  unfold Proofs.post at step
  rw [Proofs.wp_bind] at step ⊢
  rw [Proofs.wp_bind]
  exact Proofs.wp_mono step (fun _ _ h => by rw [Proofs.wp_bind] at h; exact h) (fun _ _ h => h)

theorem establish_opened {c : Credential} (hm : Modest c) (s : St) (hc : s.client.credential = some c) :
    Proofs.post env establish (fun code s' => code = 0 → OpenedFor c s s') s := by
  have saying : ∀ {β : Type} {m : M β} {s : St}, Proofs.Steps env (Proofs.Saying JustEhlo) m → Proofs.Steps env Proofs.Ext m →
      Proofs.post env m (fun _ s' => Proofs.Saying JustEhlo s s' ∧ Proofs.Ext s s') s := fun h h' => Proofs.post_and (Proofs.post_steps h _) (Proofs.post_steps h' _)
  -- the part after STARTTLS or the forced handshake
  have secured : ∀ s, s.client.credential = some c → Proofs.post env (do
      let code ← getServerSecureIdentification
      if code ≠ 250 then pure code else authenticateIfNeeded) (fun code s' => code = 0 → ZeroRead s s' ∨ ∃ s1, Proofs.Ext s s1 ∧ LoggedIn c s1 s') s :=
    fun s h => secureIdent_login hm s h
  have greeted : ∀ s0 s rest, Proofs.Saying JustEhlo s0 s → Proofs.Ext s0 s → s.client.credential = some c →
      (∀ s1, Proofs.Saying JustEhlo s0 s1 → Proofs.Ext s0 s1 → s1.client.credential = some c →
        Proofs.post env rest (fun code s' => code = 0 → OpenedFor c s0 s') s1) →
      Proofs.post env (establishGreeted rest) (fun code s' => code = 0 → OpenedFor c s0 s') s := by
    intro s0 s rest y0 x0 hc hr
    unfold establishGreeted Proofs.post
    rw [Proofs.wp_bind]
    refine Proofs.post_mono (Proofs.post_and (checkServerGreetings_zero s) (saying (s := s) Proofs.checkServerGreetings_steps Proofs.checkServerGreetings_steps)) ?_
    rintro code s1 ⟨⟨z1, _⟩, y1, x1⟩
    rw [Proofs.wp_ite]
    refine ⟨fun _ h0 => .inl ((z1 h0).after x0), fun _ => ?_⟩
    have hc1 : s1.client.credential = some c := y1.1.trans hc
    unfold sendServerIdentification
    rw [Proofs.wp_bind]
    refine Proofs.post_mono (Proofs.post_and (identify_zero (by decide) (by decide) s1) (saying (s := s1)
      (Proofs.identify_steps (fun s _ _ => .one ⟨rfl, rfl⟩) _ _) (Proofs.identify_steps' _ _))) ?_
    rintro code s2 ⟨⟨z2, _⟩, y2, x2⟩
    rw [Proofs.wp_ite]
    refine ⟨fun _ h0 => .inl ((z2 h0).after (x0.trans x1)), fun _ => ?_⟩
    exact hr s2 (Proofs.Preord.trans y0 (Proofs.Preord.trans y1 y2)) ((x0.trans x1).trans x2) (y2.1.trans hc1)
  unfold establish Proofs.post
  rw [Proofs.wp_bind]
  refine Proofs.post_mono (Proofs.post_and (saying (s := s) Proofs.initializeSession_steps Proofs.initializeSession_steps)
    (Proofs.post_steps (Proofs.initializeSession_steps (R := fun s s' => SameConfig s.client s'.client)) s)) ?_
  rintro code s1 ⟨⟨y1, x1⟩, g1⟩
  rw [Proofs.wp_ite]
  refine ⟨fun h h0 => absurd h0 h, fun _ => ?_⟩
  have hc1 : s1.client.credential = some c := y1.1.trans hc
  rw [Proofs.wp_bind, Proofs.wp_gets]
  cases hk : s1.client.kind with
  | smtp =>
    refine greeted s s1 _ y1 x1 hc1 fun s2 y2 x2 hc2 => ?_
    refine Proofs.post_mono (authenticateIfNeeded_login hm s2 hc2) fun code s3 h h0 => ?_
    rcases h h0 with h | h
    · exact .inl (h.after x2)
    · exact .inr (.inl ⟨s2, x2, h⟩)
  | forced =>
    dsimp only
    unfold establishForced
    rw [Proofs.wp_bind]
    refine Proofs.post_mono (saying (s := s1) Proofs.startTLSNegotiation_steps Proofs.startTLSNegotiation_steps) ?_
    rintro code s2 ⟨y2, x2⟩
    rw [Proofs.wp_ite]
    refine ⟨fun h h0 => absurd h0 h, fun _ => ?_⟩
    rw [Proofs.wp_bind]
    refine Proofs.post_mono (Proofs.post_and (checkServerGreetings_zero s2) (saying (s := s2) Proofs.checkServerGreetings_steps Proofs.checkServerGreetings_steps)) ?_
    rintro code s3 ⟨⟨z3, _⟩, y3, x3⟩
    rw [Proofs.wp_ite]
    refine ⟨fun _ h0 => .inl ((z3 h0).after (x1.trans x2)), fun _ => ?_⟩
    refine Proofs.post_mono (secured s3 ((y3.1.trans y2.1).trans hc1)) fun code s4 h h0 => ?_
    rcases h h0 with h | ⟨s5, x5, h⟩
    · exact .inl (h.after ((x1.trans x2).trans x3))
    · exact .inr (.inl ⟨s5, ((x1.trans x2).trans x3).trans x5, h⟩)
  | opportunistic =>
    refine greeted s s1 _ y1 x1 hc1 fun s2 y2 x2 hc2 => ?_
    unfold establishOpportunistic Proofs.post
    rw [Proofs.wp_bind, Proofs.wp_gets]
    cases isStartTLSSupported s2.client.lastResponse with
    | error u => trivial
    | ok b =>
      cases b with
      | false =>
        have : Proofs.Steps env (Proofs.Saying JustEhlo) (do
            addLog b!"Info: STARTTLS is not an available option by the server, the communication will then remain unencrypted."
            setKeepUsingBase true
            pure (0 : Int)) := by
          unfold setKeepUsingBase
          steps [Proofs.addLog_steps, Proofs.Steps.modify]
          exact Proofs.Opening.keep _
        refine Proofs.post_mono (Proofs.post_steps this s2) fun code s3 y3 _ => .inr (.inr ⟨?_, Proofs.Preord.trans y2 y3⟩)
        rw [← hk]
        exact g1.1.symm
      | true =>
        dsimp only
        rw [Proofs.wp_bind]
        refine Proofs.post_mono (saying (s := s2) (Proofs.addLog_steps _ _) (Proofs.addLog_steps _ _)) ?_
        rintro _ s3 ⟨y3, x3⟩
        unfold upgradeToSecureConnection
        rw [Proofs.wp_bind, Proofs.wp_bind]
        refine Proofs.post_mono (saying (s := s3) (Proofs.addLog_steps _ _) (Proofs.addLog_steps _ _)) ?_
        rintro _ s4 ⟨y4, x4⟩
        refine Proofs.post_mono (Proofs.post_and (sendRawFb_zero (by decide) (by decide) s4)
          (Proofs.post_steps (Proofs.sendRawFb_steps (R := Proofs.Saying AnyText) (fun s _ _ => .one trivial) _ _) s4)) ?_
        rintro code s5 ⟨⟨z5, x5⟩, y5⟩
        rw [Proofs.wp_ite]
        have X := ((x2.trans x3).trans x4)
        refine ⟨fun _ h0 => .inl ((z5 h0).after X), fun _ => ?_⟩
        rw [Proofs.wp_bind]
        refine Proofs.post_mono (saying (s := s5) Proofs.startTLSNegotiation_steps Proofs.startTLSNegotiation_steps) ?_
        rintro code s6 ⟨y6, x6⟩
        rw [Proofs.wp_ite]
        refine ⟨fun h h0 => absurd h0 h, fun _ => ?_⟩
        refine Proofs.post_mono (secured s6 ((((y6.1.trans y5.1).trans y4.1).trans y3.1).trans hc2)) fun code s7 h h0 => ?_
        rcases h h0 with h | ⟨s8, x8, h⟩
        · exact .inl (h.after ((X.trans x5).trans x6))
        · exact .inr (.inl ⟨s8, ((X.trans x5).trans x6).trans x8, h⟩)

/-- The first thing said for a mail. -/
theorem sendMailConnected_head (env : Env) (m : Message) (hm : NulFree m) (s : St) :
    ∃ evs, (sendMailConnected m env s).2.hist = s.hist ++ evs ∧
      (evs = [] ∨ ∃ d ∈ senderForms m.from, ∃ r rest, evs = .send .cmd (Proofs.chan s.client) d r :: rest) := by
  let P (s' : St) : Prop := ∃ evs, s'.hist = s.hist ++ evs ∧
      (evs = [] ∨ ∃ d ∈ senderForms m.from, ∃ r rest, evs = .send .cmd (Proofs.chan s.client) d r :: rest)
  suffices h : Proofs.wp env (sendMailConnected m) (fun _ => P) (fun _ => P) s by
    unfold Proofs.wp at h
    split at h <;> (rename_i e; rw [e]; exact h)
  have ext : ∀ {a b : St}, (∃ d ∈ senderForms m.from, ∃ r, Proofs.Ext (Proofs.St.snoc s (.send .cmd (Proofs.chan s.client) d r)) a) → Proofs.Ext a b → P b := by
    rintro a b ⟨d, hd, r, x, hx⟩ ⟨y, hy⟩
    exact ⟨.send .cmd (Proofs.chan s.client) d r :: (x ++ y), by rw [hy, hx]; simp [Proofs.St.snoc], .inr ⟨d, hd, r, _, rfl⟩⟩
  obtain ⟨f, fs, hf, hfm⟩ : ∃ f fs, mailFormats m.from = f :: fs ∧ f ∈ senderForms m.from := by
    rw [Proofs.mailFormats_eq]
    exact ⟨_, _, rfl, by simp [senderForms]⟩
  have hn : cstr f = f := Proofs.senderForms_nul (hm.addresses _ (by simp)) f hfm
  have rest : Proofs.Steps env Proofs.Ext (sendMailRest m) := by
    unfold sendMailRest
    steps [Proofs.setMailHeaders_steps, Proofs.setMailBody_steps, Proofs.cleanup_steps]
  let F (s' : St) : Prop := ∃ d ∈ senderForms m.from, ∃ r, Proofs.Ext (Proofs.St.snoc s (.send .cmd (Proofs.chan s.client) d r)) s'
  have go : ∀ s1 : St, s1.hist = s.hist → Proofs.chan s1.client = Proofs.chan s.client →
      Proofs.wp env (mailFromLoop 0 (f :: fs)) (fun _ => F) (fun _ => P) s1 := by
    intro s1 hh hch
    unfold mailFromLoop addLog
    simp only [Proofs.wp_bind, Proofs.wp_gets]
    have same : P s1 := ⟨[], by simp [hh], .inl rfl⟩
    cases s1.client.log with
    | none => exact same
    | some l =>
      dsimp only
      cases l.add f b!"c" with
      | error u => exact same
      | ok l' =>
        dsimp only
        rw [Proofs.wp_modifyMem]
        obtain ⟨s2, hs2⟩ : ∃ s2 : St, s2 = { s1 with client := { s1.client with log := some l' }, mem := s1.mem ++ [.log (l.grows f b!"c") l'.content] } := ⟨_, rfl⟩
        rw [← hs2]
        have hch2 : Proofs.chan s2.client = Proofs.chan s.client := by rw [hs2]; exact hch
        have hh2 : s2.hist = s.hist := by rw [hs2]; exact hh
        have first : ∀ a r x, a.hist = s2.hist ++ .send .cmd (Proofs.chan s2.client) (cstr f) r :: x → F a := by
          intro a r x hx
          exact ⟨f, hfm, r, x, by rw [hx, hh2, hn, hch2]; simp [Proofs.St.snoc]⟩
        have over : ∀ a, Proofs.Over f s2 a → F a := by
          rintro a ⟨r, _, x, hx, _⟩
          exact first a r x (by rw [hx]; simp [Proofs.St.snoc])
        refine Proofs.wp_mono (Proofs.sendPtrFb_out f (-85) (-86) s2 (by decide)) (fun code s3 h3 => ?_) (fun _ s3 h3 => ext (over s3 h3) (.same rfl))
        have h3 : F s3 := by
          rcases h3 with ⟨n, t, ⟨_, x, hx, _⟩, _⟩ | ⟨_, _, h3⟩
          · exact first s3 (.sent n) x (by rw [hx]; simp [Proofs.St.snoc])
          · exact over s3 h3
        have more : ∀ {β : Type} {p : M β}, Proofs.Steps env Proofs.Ext p → Proofs.wp env p (fun _ => F) (fun _ => P) s3 := by
          intro β p hp
          refine Proofs.wp_mono (hp.run s3) (fun _ s4 h4 => ?_) (fun _ s4 h4 => ext h3 h4)
          obtain ⟨d, hd, r, hx⟩ := h3
          exact ⟨d, hd, r, hx.trans h4⟩
        exact more (.ite (.pure _) (.ite (.pure _) (Proofs.mailFromLoop_steps _ _)))
  unfold sendMailConnected setMailRecipients
  rw [Proofs.wp_bind, Proofs.wp_modify, Proofs.wp_bind, Proofs.wp_bind, hf]
  refine Proofs.wp_mono (go _ rfl rfl) (fun code s1 h1 => ?_) (fun _ _ h => h)
  have more : ∀ {β : Type} {p : M β} {s2 : St}, F s2 → Proofs.Steps env Proofs.Ext p → Proofs.wp env p (fun _ => F) (fun _ => P) s2 := by
    intro β p s2 h2 hp
    refine Proofs.wp_mono (hp.run s2) (fun _ s4 h4 => ?_) (fun _ s4 h4 => ext h2 h4)
    obtain ⟨d, hd, r, hx⟩ := h2
    exact ⟨d, hd, r, hx.trans h4⟩
  refine Proofs.wp_mono (more h1 (.ite (.pure _) (Proofs.recipientsLoop_steps _))) (fun code s2 h2 => ?_) (fun _ _ h => h)
  exact Proofs.wp_mono (more h2 (.ite (.pure _) rest)) (fun _ _ h => ext h (.same rfl)) (fun _ _ h => h)

/-- **C56, partial.** A client with credentials that opens a connection: the history of `sendMail` consists of an opening without any MAIL FROM
command or content, and the rest. If there is anything in the rest, then it starts with a MAIL FROM command, and the conversation of the opening ended
with a complete authentication on the same channel, in which the server read exactly the user name and the password of the client, and which the
server answered with 235. Missing: the opportunistic client when it did not ask for STARTTLS (`C56_skipped_without_starttls`), and openings in which a
reply reads as number 0 (`C56_zero_greeting`). -/
theorem C56_mail_only_after_login_partial (env : Env) (m : Message) (hm : NulFree m) (s : St) (c : Credential) (hc : s.client.credential = some c)
    (hmod : Modest c) (hn : s.client.isConnected = false) :
    ∃ opening evs, (sendMail m env s).2.hist = s.hist ++ opening ++ evs ∧ (∀ e ∈ opening, isMail e = false) ∧ contents opening = [] ∧
      (evs = [] ∨ ReplyIn opening 0 ∨ (s.client.kind = .opportunistic ∧ ∀ d ∈ commands opening, d = b!"ehlo localhost\r\n") ∨
        ∃ ch, ∃ d ∈ senderForms m.from, ∃ r rest, evs = .send .cmd ch d r :: rest ∧ EndsWithLogin ch c opening) := by
  unfold sendMail
  rw [Proofs.bind_run, Proofs.gets_run]
  dsimp only
  rw [if_neg (by simp [hn]), Proofs.bind_run]
  have h1 := (Proofs.establish_steps (env := env) (R := Proofs.NewEvents (Proofs.Allowed (Proofs.OnlyContent fun _ => False)))).state s
  have h2 := ((Proofs.establish_noMail (env := env)).state s).noMail
  have h3 := establish_opened (env := env) hmod s hc
  unfold Proofs.post Proofs.wp at h3
  cases hes : establish env s with
  | mk r s1 =>
    rw [hes] at h1 h2 h3
    obtain ⟨opening, ho, hno⟩ := h1
    obtain ⟨opening', ho', hno'⟩ := h2
    dsimp only at ho ho'
    obtain rfl : opening = opening' := List.append_cancel_left (ho.symm.trans ho')
    have hcont := Proofs.contents_none (fun _ h => h) hno
    cases r with
    | stop e => exact ⟨opening, [], by simp [ho], hno', hcont, .inl rfl⟩
    | ok code =>
      dsimp only at h3 ⊢
      by_cases h0 : code = 0
      · rw [if_neg (by simpa using h0)]
        obtain ⟨evs, he, hhead⟩ := sendMailConnected_head env m hm s1
        refine ⟨opening, evs, by rw [he, ho], hno', hcont, ?_⟩
        rcases hhead with hhead | ⟨d, hd, r, rest, hev⟩
        · exact .inl hhead
        rcases h3 h0 with ⟨x, hx, hz⟩ | ⟨s2, ⟨a, ha⟩, l, items, hl, ht, hs, b, hb, htalk⟩ | ⟨hk, _, x, hx, hall⟩
        · obtain rfl : x = opening := List.append_cancel_left (hx.symm.trans ho)
          exact .inr (.inl hz)
        · refine .inr (.inr (.inr ⟨_, d, hd, r, rest, hev, l, items, hl, ?_, fun hns => ?_⟩))
          · rw [Proofs.chan_same hs]
            exact ht
          · obtain rfl : opening = a ++ b := by
              refine List.append_cancel_left (ho.symm.trans ?_)
              rw [hb, ha, List.append_assoc]
            have hb' := htalk (Proofs.noShort_append hns).2
            refine ⟨(talk a).2, ?_⟩
            rw [conversation, Proofs.talk_append (by rw [hb']), hb']
        · obtain rfl : x = opening := List.append_cancel_left (hx.symm.trans ho)
          refine .inr (.inr (.inl ⟨hk, fun t ht => ?_⟩))
          simp only [commands, List.mem_filterMap] at ht
          obtain ⟨e, he, hte⟩ := ht
          have hae := hall e he
          split at hte
          · simp only [Option.some.injEq] at hte
            subst hte
            exact hae.2
          · cases hte
      · rw [if_pos h0]
        exact ⟨opening, [], by rw [Proofs.pure_run]; simp [ho], hno', hcont, .inl rfl⟩

/-- **C56, refuted** for the opportunistic client: the server does not offer STARTTLS (but it offers AUTH); the mail is sent without
authentication and `sendMail` reports success. -/
theorem C56_skipped_without_starttls :
    let s : St := { fresh .opportunistic with client := { (fresh .opportunistic).client with credential := some { username := b!"joe", password := b!"pw" } } }
    (let r := sendMail mail (scripted ([.data b!"220 hi\r\n"] ++
        clear [b!"250-mail.org\r\n250-AUTH PLAIN\r\n250 OK\r\n", b!"250 ok\r\n", b!"250 ok\r\n", b!"354 go\r\n", b!"250 ok\r\n"])) s
     (r.1, commands r.2.hist)) =
      (.ok 0, [b!"ehlo localhost\r\n", b!"MAIL FROM: <me@here.org>\r\n", b!"RCPT TO: <you@there.org>\r\n", b!"DATA\r\n", b!"\r\n.\r\n"]) := by
  decide +kernel

/-- **C56, refuted** for replies that read as 0: after the greeting `000` the mail is sent at once. -/
theorem C56_zero_greeting :
    (let r := sendMail mail (scripted ([.data b!"000 hi\r\n"] ++ clear [b!"250 ok\r\n", b!"250 ok\r\n", b!"354 go\r\n", b!"250 ok\r\n"]))
        (withCredential .implicit)
     (r.1, commands r.2.hist)) =
      (.ok 0, [b!"MAIL FROM: <me@here.org>\r\n", b!"RCPT TO: <you@there.org>\r\n", b!"DATA\r\n", b!"\r\n.\r\n"]) := by
  decide +kernel

/-- Non-vacuity: the credentials are modest, and a mail is delivered after authentication with LOGIN; after a 535 there is no MAIL FROM. -/
example : Modest { username := b!"joe", password := b!"pw" } := ⟨by decide, by decide, by decide⟩

example :
    (let r := sendMail mail (scripted ([.data b!"220 hi\r\n"] ++ clear [b!"250-mail.org\r\n250-AUTH LOGIN XOAUTH2\r\n250 OK\r\n",
        b!"334 u\r\n", b!"334 p\r\n", b!"235 ok\r\n", b!"250 ok\r\n", b!"250 ok\r\n", b!"354 go\r\n", b!"250 ok\r\n"])) (withCredential .implicit)
     (r.1, commands r.2.hist)) =
      (.ok 0, [b!"ehlo localhost\r\n", b!"AUTH LOGIN\r\n", b!"am9l\r\n", b!"cHc=\r\n", b!"MAIL FROM: <me@here.org>\r\n",
        b!"RCPT TO: <you@there.org>\r\n", b!"DATA\r\n", b!"\r\n.\r\n"]) ∧
    (let r := sendMail mail (scripted ([.data b!"220 hi\r\n"] ++ clear [b!"250-mail.org\r\n250-AUTH PLAIN\r\n250 OK\r\n", b!"535 no\r\n"]))
        (withCredential .implicit)
     (r.1, commands r.2.hist)) = (.ok 535, [b!"ehlo localhost\r\n", b!"AUTH PLAIN AGpvZQBwdw==\r\n"]) := by decide +kernel

end Verif.Props
