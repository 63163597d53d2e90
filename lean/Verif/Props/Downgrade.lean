import Verif.Props.Secure
import Verif.Props.Login
/-!
# C57: no way back to clear text after STARTTLS
-/
namespace Verif.Props
open Verif Verif.Model Verif.Spec Verif.Proofs

variable {env : Env}

/-- As long as the client is not connected nothing is sent, and it stays so. -/
structure Muted (s s' : St) : Prop where
  isConnected : s'.client.isConnected = false
  kind : s'.client.kind = s.client.kind
  ptrRaw : s'.client.ptrRaw = s.client.ptrRaw
  events : NewEvents (fun e => ¬ IsSend e) s s'

theorem Muted.trans {a b c : St} (h : Muted a b) (h' : Muted b c) : Muted a c :=
  ⟨h'.isConnected, h'.kind.trans h.kind, h'.ptrRaw.trans h.ptrRaw, h.events.trans h'.events⟩

theorem quiet_noSend {e : Ev} (h : QuietEv e) : ¬ IsSend e := by cases e <;> simp_all [QuietEv, DeafEv, IsSend]

theorem prep_noSend {e : Ev} (h : PrepEv e) : ¬ IsSend e := by cases e <;> simp_all [PrepEv, IsSend]

theorem Prepared.muted {s s' : St} (h : Prepared s s') : Muted s s' :=
  ⟨h.isConnected, h.kind, h.ptrRaw, h.events.mono fun _ => prep_noSend⟩

theorem Quiet.muted {s s' : St} (h : Quiet s s') (hc : s.client.isConnected = false) : Muted s s' := by
  obtain ⟨h1, h2⟩ := h
  unfold SameConn at h1
  exact ⟨by rw [h1]; exact hc, by rw [h1], by rw [h1], h2.mono fun _ => quiet_noSend⟩

/-- A command on the socket while the client is not connected: after it nothing is sent, and unless one of the two error codes is
returned the reply was read. -/
theorem sendRawFb_muted (d : Bytes) (e t : Int) (s : St) (he : e ≠ 0) (hc : s.client.isConnected = false) :
    wp env (sendRawFb d e t)
      (fun code s' => ∃ r, Muted (St.snoc s (.send .cmd (.raw s.client.sock) (cstr d) r)) s' ∧
        (code = e ∨ code = t ∨ ∃ n evs, r = .sent n ∧ s'.hist = s.hist ++ .send .cmd (.raw s.client.sock) (cstr d) r :: evs ∧
          (∀ x ∈ evs, ¬ IsSend x) ∧ ReplyCode (heard evs) code))
      (fun _ s' => ∃ r, Muted (St.snoc s (.send .cmd (.raw s.client.sock) (cstr d) r)) s') s := by
  have refl : ∀ r, Muted (St.snoc s (.send .cmd (.raw s.client.sock) (cstr d) r)) (St.snoc s (.send .cmd (.raw s.client.sock) (cstr d) r)) :=
    fun r => ⟨hc, rfl, rfl, .same rfl⟩
  unfold sendRawFb sendRaw sendRawWith
  rw [wp_bind, wp_bind, wp_gets, wp_bind]
  refine wp_mono (sysSend_out _ _ _ s) ?_ (fun _ s' h => ⟨.never, by rw [h]; exact refl _⟩)
  rintro r s1 ⟨hnv, rfl⟩
  cases r with
  | sent n =>
    dsimp only
    rw [wp_pure, if_neg (by decide), wp_bind]
    refine wp_mono (getRawReply_code _) ?_ (fun _ s' h => ⟨.sent n, Quiet.muted h hc⟩)
    intro code s2 h2
    have hm := Quiet.muted h2.quiet hc
    obtain ⟨tx, ⟨_, evs, h3, h4, h5⟩, h6⟩ := h2
    rw [wp_ite]
    refine ⟨fun hn => ⟨.sent n, hm, .inr (.inr ⟨n, evs, rfl, ?_, fun x hx => quiet_noSend (h4 x hx), ?_⟩)⟩, fun _ => ?_⟩
    · rw [h3]; simp [St.snoc]
    · rcases h6 with h6 | h6
      · exact absurd h6 hn
      · rw [h5]; exact h6
    · rw [wp_bind]
      exact wp_mono (cleanup_prep.run s2) (fun _ s3 h => ⟨.sent n, hm.trans (Prepared.muted (h hm.isConnected)), .inr (.inl rfl)⟩)
        (fun _ s3 h => ⟨.sent n, hm.trans (Prepared.muted (h hm.isConnected))⟩)
  | fail n =>
    dsimp only
    rw [wp_bind]
    unfold setErrNo
    rw [wp_modify, wp_bind]
    have h1 : Muted (St.snoc s (.send .cmd (.raw s.client.sock) (cstr d) (.fail n)))
        { St.snoc s (.send .cmd (.raw s.client.sock) (cstr d) (.fail n)) with
          client := { (St.snoc s (.send .cmd (.raw s.client.sock) (cstr d) (.fail n))).client with lastErrNo := n } } := ⟨hc, rfl, rfl, .same rfl⟩
    refine wp_mono (cleanup_prep.run _) (fun _ s3 h => ?_) (fun _ s3 h => ⟨.fail n, h1.trans (Prepared.muted (h hc))⟩)
    rw [wp_pure, if_pos he]
    exact ⟨.fail n, h1.trans (Prepared.muted (h hc)), .inl rfl⟩
  | never => exact absurd rfl hnv

/-- Not a STARTTLS in clear. -/
def NoUpgrade : Ev → Prop
  | .send .cmd (.raw _) d _ => d ≠ b!"STARTTLS\r\n"
  | _ => True

theorem noSend_noUpgrade {e : Ev} (h : ¬ IsSend e) : NoUpgrade e := by
  unfold NoUpgrade; split
  · exact absurd trivial h
  · trivial

theorem end_noUpgrade {e : Ev} (h : EndEv e) : NoUpgrade e := by
  unfold NoUpgrade; split
  · exact absurd h.1 (by simp)
  · trivial

/-- Before STARTTLS: what may be sent. -/
def NotStartTls (k : SendKind) (d : Bytes) : Prop := k ≠ .content → d ≠ b!"STARTTLS\r\n"

/-- No STARTTLS so far. -/
def Before (h0 : Hist) (s : St) : Prop := ∃ evs, s.hist = h0 ++ evs ∧ ∀ e ∈ evs, NoUpgrade e

theorem Before.add {h0 : Hist} {s s' : St} (h : Before h0 s) (h' : NewEvents NoUpgrade s s') : Before h0 s' := by
  obtain ⟨a, h1, h2⟩ := h
  obtain ⟨b, h3, h4⟩ := h'
  exact ⟨a ++ b, by rw [h3, h1, List.append_assoc], mem_app h2 h4⟩

theorem before_guard (h0 : Hist) : GuardInv NotStartTls (Before h0) where
  quitOk := fun _ => by decide
  client := fun _ _ _ _ h => h
  quiet := fun _ e he h => h.add (.one (noSend_noUpgrade (quiet_noSend (deaf_quiet he))))
  recvRaw := fun _ _ h => h.add (.one trivial)
  recvTls := fun _ _ _ _ h => h.add (.one trivial)
  send := by
    intro s k c d r hs h
    refine h.add (.one ?_)
    cases hs with
    | clear hd _ =>
      unfold NoUpgrade; split
      · next e => cases e; exact hd nofun
      · trivial
    | tls _ _ _ =>
      unfold NoUpgrade; split
      · next e => cases e
      · trivial
    | upgrade hd _ _ => exact absurd rfl (hd nofun)
  closed := fun s h => h.add ⟨_, rfl, fun e he => end_noUpgrade (closing_end _ e he)⟩

/-- … and not switched to the base send commands. -/
def BeforeTls (h0 : Hist) (s : St) : Prop := Before h0 s ∧ s.client.ptrRaw = false

theorem beforeTls_guard (h0 : Hist) : GuardInv NotStartTls (BeforeTls h0) where
  quitOk := (before_guard h0).quitOk
  client := fun s c m hc h => ⟨(before_guard h0).client s c m hc h.1, by unfold SameConn at hc; rw [hc]; exact h.2⟩
  quiet := fun s e he h => ⟨(before_guard h0).quiet s e he h.1, h.2⟩
  recvRaw := fun s r h => ⟨(before_guard h0).recvRaw s r h.1, h.2⟩
  recvTls := fun s b r hb h => ⟨(before_guard h0).recvTls s b r hb h.1, h.2⟩
  send := fun s k c d r hs h => ⟨(before_guard h0).send s k c d r hs h.1, h.2⟩
  closed := fun s h => ⟨(before_guard h0).closed s h.1, (closedClient_ptrRaw _).trans h.2⟩

theorem notStartTls_mail (m : Message) : MailTexts NotStartTls m where
  content := fun _ h => absurd rfl h
  sender := fun f hf _ h => by
    have : f.head? = some 77 := by
      simp only [mailFormats, List.mem_cons, List.not_mem_nil, or_false] at hf
      rcases hf with rfl | rfl | rfl <;> rfl
    cases f with
    | nil => simp at this
    | cons a f =>
      simp only [List.head?_cons, Option.some.injEq] at this
      subst this
      have := congrArg List.head? h
      simp [cstr] at this
  rcpt := fun a _ _ h => by
    have := congrArg List.head? h
    simp [cstr, rcptTo] at this
  data := fun _ => by decide
  done := fun _ => by decide

/-- After STARTTLS: a TLS connection or none, and nothing in clear but to descriptor 0. -/
structure After (h0 : Hist) (s : St) : Prop where
  kind : s.client.kind ≠ .smtp
  ptrRaw : s.client.ptrRaw = false
  bio : s.client.bio = none → s.client.sock = 0
  hist : ∃ evs, s.hist = h0 ++ evs ∧ ∀ e ∈ evs, ClearToZero e

/-- Before or after STARTTLS anything but a QUIT of other form. -/
def QuitIsQuit (k : SendKind) (d : Bytes) : Prop := k = .quit → d = quitCmd

theorem After.add {h0 : Hist} {s s' : St} (h : After h0 s) (hc : SameConn s.client s'.client) (h' : NewEvents ClearToZero s s') : After h0 s' := by
  obtain ⟨a, h1, h2⟩ := h.hist
  obtain ⟨b, h3, h4⟩ := h'
  unfold SameConn at hc
  exact ⟨by rw [hc]; exact h.kind, by rw [hc]; exact h.ptrRaw, by rw [hc]; exact h.bio, a ++ b, by rw [h3, h1, List.append_assoc], mem_app h2 h4⟩

theorem after_guard (h0 : Hist) : GuardInv QuitIsQuit (After h0) where
  quitOk := fun _ => rfl
  client := fun s c _ hc h => h.add hc (.same rfl)
  quiet := fun _ e he h => h.add rfl (.one (by cases e <;> first | trivial | exact absurd he id))
  recvRaw := fun _ _ h => h.add rfl (.one trivial)
  recvTls := fun _ _ _ _ h => h.add rfl (.one trivial)
  send := by
    intro s k c d r hs h
    refine h.add rfl (.one ?_)
    cases hs with
    | clear _ hc =>
      rcases hc with hc | hc | ⟨_, hc⟩
      · rw [h.ptrRaw] at hc; exact absurd hc (by decide)
      · exact absurd hc h.kind
      · exact h.bio hc
    | tls _ _ _ => trivial
    | upgrade _ hq _ => exact absurd (hq rfl) (by decide)
  closed := fun s h => by
    obtain ⟨a, h1, h2⟩ := h.hist
    refine ⟨by rw [closedClient_kind]; exact h.kind, by rw [closedClient_ptrRaw]; exact h.ptrRaw, fun _ => closedClient_sock _,
      a ++ closingEvs s.client, by rw [h1, List.append_assoc], mem_app h2 fun e he => ?_⟩
    unfold closingEvs at he
    rcases List.mem_append.mp he with he | he
    · split at he
      · simp at he
      · split at he
        · rw [List.mem_singleton.mp he]; trivial
        · simp at he
    · split at he
      · rw [List.mem_singleton.mp he]; trivial
      · simp at he

/-- How a session of the opportunistic client may look: no STARTTLS, or one after which all is well, or one that was answered by a text that
reads as code 0. -/
def Upgrading (h0 : Hist) (s : St) : Prop :=
  Before h0 s ∨ ∃ a fd r b, s.hist = h0 ++ (a ++ .send .cmd (.raw fd) b!"STARTTLS\r\n" r :: b) ∧ (∀ e ∈ a, NoUpgrade e) ∧
    ((∀ e ∈ b, ClearToZero e) ∨ Answered (a ++ .send .cmd (.raw fd) b!"STARTTLS\r\n" r :: b) b!"STARTTLS\r\n" 0)

theorem noSend_clear {e : Ev} (h : ¬ IsSend e) : ClearToZero e := by
  unfold ClearToZero; split
  · exact absurd trivial h
  · trivial

theorem sendMail_upgrading (m : Message) (s : St) (hk : s.client.kind = .opportunistic) (hp : s.client.ptrRaw = false) :
    wp env (sendMail m) (fun _ => Upgrading s.hist) (fun _ => Upgrading s.hist) s := by
  have g1 := before_guard s.hist
  haveI := g1.guarded
  haveI := g1.mail (fun _ h => h)
  haveI := (est_guard (beforeTls_guard s.hist) .opportunistic).guarded
  have conn1 : ∀ s1, Before s.hist s1 → wp env (sendMailConnected m) (fun _ => Upgrading s.hist) (fun _ => Upgrading s.hist) s1 := fun s1 h1 =>
    wp_mono (Pres.use (gd_sendMailConnected (D := NotStartTls) (R := Pres (Before s.hist)) m (notStartTls_mail m)) h1) (fun _ _ h => .inl h) (fun _ _ h => .inl h)
  have b0 : Before s.hist s := ⟨[], by simp, by simp⟩
  unfold sendMail
  rw [wp_bind, wp_gets, wp_ite]
  refine ⟨fun _ => conn1 s b0, fun hc => ?_⟩
  have hc : s.client.isConnected = false := by simpa using hc
  rw [wp_bind]
  -- what is known when the connection was established
  have est : wp env establish
      (fun code s' => Upgrading s.hist s' ∧ (code = 0 → Before s.hist s' ∨
        ∃ a fd r b, s'.hist = s.hist ++ (a ++ .send .cmd (.raw fd) b!"STARTTLS\r\n" r :: b) ∧ (∀ e ∈ a, NoUpgrade e) ∧
          (After (s.hist ++ (a ++ [.send .cmd (.raw fd) b!"STARTTLS\r\n" r])) s' ∨
           Answered (a ++ .send .cmd (.raw fd) b!"STARTTLS\r\n" r :: b) b!"STARTTLS\r\n" 0))) (fun _ => Upgrading s.hist) s := by
    unfold establish
    rw [wp_bind]
    refine wp_mono (initializeSession_prep.run s) ?_ (fun _ _ h1 => .inl (b0.add ((h1 hc).events.mono fun _ h => noSend_noUpgrade (prep_noSend h))))
    intro code s1 h1
    have h1 := h1 hc
    have b1 := b0.add (h1.events.mono fun _ h => noSend_noUpgrade (prep_noSend h))
    have hk1 := h1.kind.trans hk
    have hp1 := h1.ptrRaw.trans hp
    rw [wp_ite]
    refine ⟨fun hn => ⟨.inl b1, fun h0 => absurd h0 hn⟩, fun _ => ?_⟩
    rw [wp_bind, wp_gets, hk1]
    dsimp only
    unfold establishGreeted
    rw [wp_bind]
    refine wp_mono (Pres.use (gd_checkServerGreetings (D := NotStartTls) (R := Pres (Est (BeforeTls s.hist) .opportunistic))) ⟨⟨b1, hp1⟩, h1.isConnected, hk1⟩)
      ?_ (fun _ _ h => .inl h.1.1)
    rintro code s2 h2
    rw [wp_ite]
    refine ⟨fun _ => ⟨.inl h2.1.1, fun _ => .inl h2.1.1⟩, fun _ => ?_⟩
    rw [wp_bind]
    refine wp_mono (Pres.use (gd_identify (D := NotStartTls) (R := Pres (Est (BeforeTls s.hist) .opportunistic)) (fun _ => by decide) (-20) (-21)) h2)
      ?_ (fun _ _ h => .inl h.1.1)
    rintro code s3 h3
    rw [wp_ite]
    refine ⟨fun _ => ⟨.inl h3.1.1, fun _ => .inl h3.1.1⟩, fun _ => ?_⟩
    unfold establishOpportunistic
    rw [wp_bind, wp_gets]
    cases isStartTLSSupported s3.client.lastResponse with
    | error u => exact .inl h3.1.1
    | ok b =>
      cases b with
      | false =>
        dsimp only
        rw [wp_bind]
        refine wp_mono (Pres.use (addLog_steps (R := Pres (Est (BeforeTls s.hist) .opportunistic)) _ _) h3) ?_ (fun _ _ h => .inl h.1.1)
        rintro _ s4 h4
        unfold setKeepUsingBase
        rw [wp_bind, wp_modify]
        exact ⟨.inl h4.1.1, fun _ => .inl h4.1.1⟩
      | true =>
        dsimp only
        rw [wp_bind]
        refine wp_mono (Pres.use (addLog_steps (R := Pres (Est (BeforeTls s.hist) .opportunistic)) _ _) h3) ?_ (fun _ _ h => .inl h.1.1)
        rintro _ s4 h4
        rw [wp_bind]
        unfold upgradeToSecureConnection
        rw [wp_bind]
        refine wp_mono (Pres.use (addLog_steps (R := Pres (Est (BeforeTls s.hist) .opportunistic)) _ _) h4) ?_ (fun _ _ h => .inl h.1.1)
        rintro _ s5 h5
        obtain ⟨a, ha, hn⟩ := h5.1.1
        -- nothing is sent after STARTTLS until the negotiation
        have muted : ∀ {r s'}, Muted (St.snoc s5 (.send .cmd (.raw s5.client.sock) (cstr startTlsCmd) r)) s' →
            ∃ b, s'.hist = s.hist ++ (a ++ .send .cmd (.raw s5.client.sock) b!"STARTTLS\r\n" r :: b) ∧ ∀ e ∈ b, ¬ IsSend e := by
          intro r s' h
          obtain ⟨b, hb, hbs⟩ := h.events
          exact ⟨b, by rw [hb]; simp only [St.snoc, ha, List.append_assoc]; rfl, hbs⟩
        have up : ∀ {r s'}, Muted (St.snoc s5 (.send .cmd (.raw s5.client.sock) (cstr startTlsCmd) r)) s' → Upgrading s.hist s' := by
          intro r s' h
          obtain ⟨b, hb, hbs⟩ := muted h
          exact .inr ⟨a, s5.client.sock, r, b, hb, hn, .inl fun e he => noSend_clear (hbs e he)⟩
        refine wp_mono (sendRawFb_muted startTlsCmd (-30) (-31) s5 (by decide) h5.2) ?_ (fun _ _ ⟨r, h⟩ => up h)
        rintro code s6 ⟨r, h6, hcode⟩
        rw [wp_ite]
        refine ⟨fun _ => ⟨up h6, fun h0 => .inr ?_⟩, fun _ => ?_⟩
        · obtain ⟨b, hb, hbs⟩ := muted h6
          refine ⟨a, s5.client.sock, r, b, hb, hn, .inr ?_⟩
          rcases hcode with h | h | ⟨n, evs, hr, he, hq, hz⟩
          · omega
          · omega
          · have : evs = b := by
              rw [hb, ha] at he
              simp only [List.append_assoc, List.append_cancel_left_eq, List.cons.injEq] at he
              exact he.2.symm
            subst this
            subst hr
            exact ⟨a, .raw s5.client.sock, n, evs, [], by simp, hq, by rw [← h0]; exact hz⟩
        · rw [wp_bind]
          refine wp_mono (wp_and (startTLSNegotiation_prep.run s6) (startTLSNegotiation_ok s6)) ?_
            (fun _ _ h => up (h6.trans (Prepared.muted (h.1 h6.isConnected))))
          rintro code s7 ⟨h7, k7⟩
          have h7 := h6.trans (Prepared.muted (h7 h6.isConnected))
          rw [wp_ite]
          refine ⟨fun hn0 => ⟨up h7, fun h0 => absurd h0 hn0⟩, fun h0 => ?_⟩
          obtain ⟨bio, hb, _⟩ := k7 (Decidable.not_not.mp h0)
          have g2 := after_guard (s.hist ++ (a ++ [.send .cmd (.raw s5.client.sock) b!"STARTTLS\r\n" r]))
          haveI := g2.guarded
          have a7 : After (s.hist ++ (a ++ [.send .cmd (.raw s5.client.sock) b!"STARTTLS\r\n" r])) s7 := by
            obtain ⟨b, hb7, hbs⟩ := muted h7
            refine ⟨by rw [h7.kind]; show s5.client.kind ≠ _; rw [h5.3]; decide, by rw [h7.ptrRaw]; exact h5.1.2, fun h => by rw [hb] at h; simp at h, b, by rw [hb7]; simp,
              fun e he => noSend_clear (hbs e he)⟩
          have fin : ∀ {s'}, After (s.hist ++ (a ++ [.send .cmd (.raw s5.client.sock) b!"STARTTLS\r\n" r])) s' →
              ∃ b, s'.hist = s.hist ++ (a ++ .send .cmd (.raw s5.client.sock) b!"STARTTLS\r\n" r :: b) ∧ ∀ e ∈ b, ClearToZero e := by
            intro s' h
            obtain ⟨b, hb, hz⟩ := h.hist
            exact ⟨b, by rw [hb]; simp, hz⟩
          have fin' : ∀ {s'}, After (s.hist ++ (a ++ [.send .cmd (.raw s5.client.sock) b!"STARTTLS\r\n" r])) s' → Upgrading s.hist s' := by
            intro s' h
            obtain ⟨b, hb, hz⟩ := fin h
            exact .inr ⟨a, s5.client.sock, r, b, hb, hn, .inl hz⟩
          refine wp_mono (Pres.use (?_ : Steps env (Pres (After (s.hist ++ (a ++ [.send .cmd (.raw s5.client.sock) b!"STARTTLS\r\n" r])))) _) a7)
            (fun _ s' h => ⟨fin' h, fun _ => .inr ?_⟩) (fun _ _ h => fin' h)
          · unfold getServerSecureIdentification
            have g2 := gd_identify (D := QuitIsQuit) (env := env) (R := Pres (After (s.hist ++ (a ++ [.send .cmd (.raw s5.client.sock) b!"STARTTLS\r\n" r])))) nofun
            have g3 := gd_authenticateIfNeeded (D := QuitIsQuit) (env := env) (R := Pres (After (s.hist ++ (a ++ [.send .cmd (.raw s5.client.sock) b!"STARTTLS\r\n" r]))))
              (fun _ => nofun)
            steps [g2, addLog_steps]
          · obtain ⟨b, hb, hz⟩ := fin h
            exact ⟨a, s5.client.sock, r, b, hb, hn, .inl h⟩
  refine wp_mono est ?_ (fun _ _ h => h)
  rintro code s1 ⟨h1, h2⟩
  rw [wp_ite]
  refine ⟨fun _ => h1, fun h0 => ?_⟩
  rcases h2 (Decidable.not_not.mp h0) with h2 | ⟨a, fd, r, b, e, ha, h2⟩
  · exact conn1 _ h2
  · rcases h2 with h2 | h2
    · have g2 := after_guard (s.hist ++ (a ++ [.send .cmd (.raw fd) b!"STARTTLS\r\n" r]))
      haveI := g2.guarded
      haveI := g2.mail (fun _ h => ⟨h.kind, h.ptrRaw, h.bio, h.hist⟩)
      have fin : ∀ {s'}, After (s.hist ++ (a ++ [.send .cmd (.raw fd) b!"STARTTLS\r\n" r])) s' → Upgrading s.hist s' := by
        intro s' h
        obtain ⟨b, hb, hz⟩ := h.hist
        exact .inr ⟨a, fd, r, b, by rw [hb]; simp, ha, .inl hz⟩
      exact wp_mono (Pres.use (gd_sendMailConnected (D := QuitIsQuit) (R := Pres (After _)) m ⟨fun _ => nofun, fun _ _ => nofun, fun _ _ => nofun, nofun, nofun⟩) h2)
        (fun _ _ h => fin h) (fun _ _ h => fin h)
    · have fin : ∀ s', Ext s1 s' → Upgrading s.hist s' := by
        rintro s' ⟨evs, h⟩
        refine .inr ⟨a, fd, r, b ++ evs, by rw [h, e]; simp, ha, .inr ?_⟩
        obtain ⟨p, c, n, mid, q, h1, h3, h4⟩ := h2
        exact ⟨p, c, n, mid, q ++ evs, by rw [← List.cons_append, ← List.append_assoc, h1]; simp, h3, h4⟩
      exact wp_mono ((sendMailConnected_steps (R := Ext) m).run s1) (fun _ _ h => fin _ h) (fun _ _ h => fin _ h)

/-- **C57, partial.** An opportunistic client that is not set to the base send commands sends a message, whatever the server and the
network do. If it sends STARTTLS on a socket, nothing else is sent in clear on that socket, be it that the server refuses STARTTLS, that the
negotiation fails, or that the TLS connection breaks. Missing: a STARTTLS answered by a text that reads as code 0 (refuted below), and the socket
with number 0 (which the client also uses after it closed its socket). -/
theorem C57_no_downgrade_partial (env : Env) (s : St) (m : Message) (hk : s.client.kind = .opportunistic) (hp : s.client.ptrRaw = false) :
    ∃ evs, (sendMail m env s).2.hist = s.hist ++ evs ∧
      (StaysUpgraded evs ∨ Answered evs b!"STARTTLS\r\n" 0 ∨ ∃ r, .send .cmd (.raw 0) b!"STARTTLS\r\n" r ∈ evs) := by
  have h := state_of (sendMail_upgrading (env := env) m s hk hp)
  rcases h with ⟨evs, h1, h2⟩ | ⟨a, fd, r, b, h1, h2, h3⟩
  · refine ⟨evs, h1, .inl ?_⟩
    rintro a fd r b rfl
    exact absurd rfl (h2 (.send .cmd (.raw fd) b!"STARTTLS\r\n" r) (by simp))
  · refine ⟨_, h1, ?_⟩
    rcases h3 with h3 | h3
    · by_cases hz : ∃ r', .send .cmd (.raw 0) b!"STARTTLS\r\n" r' ∈ a ++ .send .cmd (.raw fd) b!"STARTTLS\r\n" r :: b
      · exact .inr (.inr hz)
      left
      intro a' fd' r' b' e
      have hfd : fd' ≠ 0 := by
        rintro rfl
        exact hz ⟨r', by rw [e]; simp⟩
      -- the second STARTTLS cannot be before the first one
      have hb : ∀ e ∈ b', ClearToZero e := by
        rcases List.append_eq_append_iff.mp e with ⟨x, hx1, hx2⟩ | ⟨x, hx1, hx2⟩
        · cases x with
          | nil =>
            simp only [List.nil_append, List.cons.injEq] at hx2
            rw [← hx2.2]
            exact h3
          | cons y x =>
            simp only [List.cons_append, List.cons.injEq] at hx2
            intro e he
            exact h3 e (by rw [hx2.2]; simp [he])
        · cases x with
          | nil =>
            simp only [List.nil_append, List.cons.injEq] at hx2
            rw [hx2.2]
            exact h3
          | cons y x =>
            simp only [List.cons_append, List.cons.injEq] at hx2
            exact absurd rfl (h2 (.send .cmd (.raw fd') b!"STARTTLS\r\n" r') (by rw [hx1, hx2.1]; simp))
      intro k d r'' hm
      exact hfd (hb _ hm)
    · exact .inr (.inl h3)

/-- The hypotheses are met by a new client; here the server offers STARTTLS and then refuses it: that was the last thing said. -/
example :
    (fresh .opportunistic).client.kind = .opportunistic ∧ (fresh .opportunistic).client.ptrRaw = false ∧
    (let r := sendMail mail (scripted ([.data b!"220 hi\r\n"] ++ clear [b!"250-STARTTLS\r\n250 ok\r\n", b!"454 not now\r\n"])) (fresh .opportunistic)
     (r.1, r.2.hist.filterMap fun e => match e with
       | .send .cmd c d (.sent _) => some (c, d)
       | _ => none)) = (.ok 454, [(.raw 5, b!"ehlo localhost\r\n"), (.raw 5, b!"STARTTLS\r\n")]) := by decide +kernel

/-- The history of the next theorem, and where STARTTLS is in it. -/
def zeroReplyHist : Hist := (sendMail mail (scripted ([.data b!"220 hi\r\n"] ++ clear [b!"250-STARTTLS\r\n250 ok\r\n", b!"000\r\n", b!"250 ok\r\n",
  b!"250 ok\r\n", b!"354 go\r\n"])) (fresh .opportunistic)).2.hist
def zeroReplyAt : Nat := zeroReplyHist.findIdx fun e => e == .send .cmd (.raw 5) b!"STARTTLS\r\n" (.sent 10)

/-- **C57 is false**: the server answers STARTTLS with `000`. The client takes the code for success and goes on in clear: the addresses of the
mail are sent on the socket. -/
theorem C57_zero_reply :
    ¬ StaysUpgraded (sendMail mail (scripted ([.data b!"220 hi\r\n"] ++ clear [b!"250-STARTTLS\r\n250 ok\r\n", b!"000\r\n", b!"250 ok\r\n",
        b!"250 ok\r\n", b!"354 go\r\n"])) (fresh .opportunistic)).2.hist := by
  intro h
  exact h (zeroReplyHist.take zeroReplyAt) 5 (.sent 10) (zeroReplyHist.drop (zeroReplyAt + 1)) (by decide +kernel) .cmd b!"RCPT TO: <you@there.org>\r\n" (.sent 26)
    (by decide +kernel)

end Verif.Props
