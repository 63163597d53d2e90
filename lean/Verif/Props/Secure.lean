import Verif.Proofs.Private
import Verif.Proofs.Calls
import Verif.Spec.Script
/-!
# C38, C39, C40: what the secure clients say in clear and over TLS
-/
namespace Verif.Props
open Verif Verif.Model Verif.Spec Verif.Proofs

variable {env : Env}

/-! ## C38: no credentials in clear -/

theorem public_mail {P : Bytes → Prop} {m : Message} (h : ∀ d, PublicCommand m d → P d) : MailTexts (CmdOk P) m where
  content := nofun
  sender := by
    intro f hf _
    simp only [mailFormats, List.mem_cons, List.not_mem_nil, or_false] at hf
    rcases hf with rfl | rfl | rfl
    · exact h _ .mailFrom1
    · exact h _ .mailFrom2
    · exact h _ .mailFrom3
  rcpt := by
    intro a ha _
    refine h _ (.rcptTo ?_)
    obtain ⟨l, hl, ha⟩ := ha
    unfold recipientEmails
    simp only [List.mem_cons, List.not_mem_nil, or_false] at hl
    rcases hl with rfl | rfl | rfl <;> simp only [List.map_append, List.mem_append, List.mem_map]
    · exact .inl (.inl ⟨a, ha, rfl⟩)
    · exact .inl (.inr ⟨a, ha, rfl⟩)
    · exact .inr ⟨a, ha, rfl⟩
  data := fun _ => h _ .data
  done := fun _ => h _ .endOfData

theorem secured_private {P : Bytes → Prop} (h : P ehloCmd) (s : St) (hd : Discreet P s) (hb : s.client.bio ≠ none) :
    wp env (do
      let code ← getServerSecureIdentification
      if code ≠ 250 then pure code else authenticateIfNeeded) (fun _ => Discreet P) (fun _ => Discreet P) s := by
  haveI := (discreet_guard P).guarded
  unfold getServerSecureIdentification
  rw [wp_bind, wp_bind]
  refine addLog_private _ _ s hd hb fun s1 hd1 hb1 => ?_
  refine wp_mono (wp_and (Pres.use (gd_identify (D := CmdOk P) (R := Pres (Discreet P)) (fun _ => h) (-59) (-60)) hd1)
    (identify_bio (-59) (-60) (by decide) (by decide) s1 hd1.ptrRaw)) ?_ (fun _ _ h => h.1)
  rintro code s2 ⟨hd2, h2⟩
  rw [wp_ite]
  refine ⟨fun _ => hd2, fun hc => ?_⟩
  refine authenticateIfNeeded_private s2 hd2 ?_
  have := h2 (Decidable.not_not.mp hc)
  unfold SameConn at this
  rw [this]
  exact hb1

theorem negotiate_private {P : Bytes → Prop} (s : St) (hd : Discreet P s) (hc : s.client.isConnected = false) :
    wp env startTLSNegotiation (fun code s' => Discreet P s' ∧ s'.client.isConnected = false ∧ (code = 0 → s'.client.bio ≠ none))
      (fun _ => Discreet P) s := by
  refine wp_mono (wp_and (startTLSNegotiation_prep.run s) (startTLSNegotiation_ok s)) ?_ (fun _ _ h => (h.1 hc).discreet hd)
  rintro code s' ⟨h, h'⟩
  refine ⟨(h hc).discreet hd, (h hc).isConnected, fun h0 => ?_⟩
  obtain ⟨b, hb, _⟩ := h' h0
  rw [hb]
  simp

/-- A sendMail of a secure client whose send commands were not switched to the base ones keeps everything private. -/
theorem sendMail_private {P : Bytes → Prop} (m : Message) (h : ∀ d, PublicCommand m d → P d) (s : St) (hd : Discreet P s)
    (Q : St → Prop) (hQ : ∀ s', Discreet P s' → Q s')
    (hQ' : ∀ s', s'.client.kind = .opportunistic → (∀ e ∈ s'.hist, ClearCmd P e) → Q s') :
    wp env (sendMail m) (fun _ => Q) (fun _ => Q) s := by
  have g := discreet_guard P
  haveI := g.guarded
  haveI := (est_guard g .opportunistic).guarded
  haveI := g.mail (fun s h => ⟨h.kind, h.ptrRaw, h.hist⟩)
  have conn : ∀ s, Discreet P s → wp env (sendMailConnected m) (fun _ => Q) (fun _ => Q) s := fun s hd =>
    wp_mono (Pres.use (gd_sendMailConnected (D := CmdOk P) (R := Pres (Discreet P)) m (public_mail h)) hd) (fun _ _ h => hQ _ h) (fun _ _ h => hQ _ h)
  -- in the plaintext fall-back the invariant holds without the flag
  have g2 : GuardInv (CmdOk P) (fun s => s.client.kind = .opportunistic ∧ ∀ e ∈ s.hist, ClearCmd P e) :=
    { quitOk := nofun
      client := fun s c _ hc h => ⟨by unfold SameConn at hc; rw [hc]; exact h.1, h.2⟩
      quiet := fun _ _ he h => ⟨h.1, mem_snoc h.2 (quiet_clearCmd (deaf_quiet he))⟩
      recvRaw := fun _ _ h => ⟨h.1, mem_snoc h.2 trivial⟩
      recvTls := fun _ _ _ _ h => ⟨h.1, mem_snoc h.2 trivial⟩
      send := by
        intro s k c d r hs h
        refine ⟨h.1, mem_snoc h.2 ?_⟩
        cases hs with
        | clear hd _ =>
          unfold ClearCmd
          split
          · next e => cases e; exact hd rfl
          · trivial
        | tls hd _ _ =>
          unfold ClearCmd
          split
          · next e => cases e
          · trivial
        | upgrade hd _ _ => exact hd rfl
      closed := fun s h => ⟨by rw [closedClient_kind]; exact h.1, mem_app h.2 fun e he => end_clearCmd (closing_end _ e he)⟩ }
  haveI := g2.mail (fun _ h => h)
  have conn2 : ∀ s, s.client.kind = .opportunistic → (∀ e ∈ s.hist, ClearCmd P e) → wp env (sendMailConnected m) (fun _ => Q) (fun _ => Q) s :=
    fun s hk hh =>
    wp_mono (Pres.use (gd_sendMailConnected (D := CmdOk P) (R := Pres (fun s => s.client.kind = .opportunistic ∧ ∀ e ∈ s.hist, ClearCmd P e)) m (public_mail h)) ⟨hk, hh⟩)
      (fun _ _ h => hQ' _ h.1 h.2) (fun _ _ h => hQ' _ h.1 h.2)
  have est : s.client.isConnected = false → wp env establish
      (fun _ s' => Discreet P s' ∨ (s'.client.kind = .opportunistic ∧ ∀ e ∈ s'.hist, ClearCmd P e)) (fun _ => Discreet P) s := by
    intro hc
    unfold establish
    rw [wp_bind]
    refine wp_mono (initializeSession_prep.run s) ?_ (fun _ _ h => (h hc).discreet hd)
    intro code s1 h1
    have hd1 := (h1 hc).discreet hd
    have hc1 := (h1 hc).isConnected
    rw [wp_ite]
    refine ⟨fun _ => .inl hd1, fun _ => ?_⟩
    rw [wp_bind, wp_gets]
    cases hk : s1.client.kind with
    | smtp => exact absurd hk hd1.kind
    | forced =>
      dsimp only
      unfold establishForced
      rw [wp_bind]
      refine wp_mono (negotiate_private s1 hd1 hc1) ?_ (fun _ _ h => h)
      rintro code s2 ⟨hd2, _, hb2⟩
      rw [wp_ite]
      refine ⟨fun _ => .inl hd2, fun h0 => ?_⟩
      have hb2 := hb2 (Decidable.not_not.mp h0)
      rw [wp_bind]
      refine wp_mono (wp_and (Pres.use (gd_checkServerGreetings (D := CmdOk P) (R := Pres (Discreet P))) hd2)
        ((checkServerGreetings_steps (R := Quiet)).run s2)) ?_ (fun _ _ h => h.1)
      rintro code s3 ⟨hd3, h3⟩
      rw [wp_ite]
      refine ⟨fun _ => .inl hd3, fun _ => ?_⟩
      refine wp_mono (secured_private (h _ .ehlo) s3 hd3 ?_) (fun _ _ h => .inl h) (fun _ _ h => h)
      have := h3.1; unfold SameConn at this; rw [this]; exact hb2
    | opportunistic =>
      dsimp only
      unfold establishGreeted
      rw [wp_bind]
      refine wp_mono (Pres.use (gd_checkServerGreetings (D := CmdOk P) (R := Pres (Est (Discreet P) .opportunistic))) ⟨hd1, hc1, hk⟩)
        ?_ (fun _ _ h => h.1)
      rintro code s2 h2
      rw [wp_ite]
      refine ⟨fun _ => .inl h2.1, fun _ => ?_⟩
      rw [wp_bind]
      refine wp_mono (Pres.use (gd_identify (D := CmdOk P) (R := Pres (Est (Discreet P) .opportunistic)) (fun _ => h _ .ehlo) (-20) (-21)) h2)
        ?_ (fun _ _ h => h.1)
      rintro code s3 h3
      rw [wp_ite]
      refine ⟨fun _ => .inl h3.1, fun _ => ?_⟩
      unfold establishOpportunistic
      rw [wp_bind, wp_gets]
      cases isStartTLSSupported s3.client.lastResponse with
      | error u => exact h3.1
      | ok b =>
        cases b with
        | false =>
          dsimp only
          rw [wp_bind]
          refine wp_mono (Pres.use (addLog_steps (R := Pres (Est (Discreet P) .opportunistic)) _ _) h3) ?_ (fun _ _ h => h.1)
          rintro _ s4 h4
          unfold setKeepUsingBase
          rw [wp_bind, wp_modify]
          exact .inr ⟨h4.3, h4.1.hist⟩
        | true =>
          dsimp only
          rw [wp_bind]
          refine wp_mono (Pres.use (addLog_steps (R := Pres (Est (Discreet P) .opportunistic)) _ _) h3) ?_ (fun _ _ h => h.1)
          rintro _ s4 h4
          rw [wp_bind]
          unfold upgradeToSecureConnection
          rw [wp_bind]
          refine wp_mono (Pres.use (addLog_steps (R := Pres (Est (Discreet P) .opportunistic)) _ _) h4) ?_ (fun _ _ h => h.1)
          rintro _ s5 h5
          refine wp_mono (gd_upgrade (D := CmdOk P) (R := Pres (Est (Discreet P) .opportunistic)) (fun _ => h _ .startTls) nofun (-30) (-31) s5 h5.3)
            ?_ (fun _ _ h => (h h5).1)
          intro code s6 h6
          have h6 := h6 h5
          rw [wp_ite]
          refine ⟨fun _ => .inl h6.1, fun _ => ?_⟩
          rw [wp_bind]
          refine wp_mono (negotiate_private s6 h6.1 h6.2) ?_ (fun _ _ h => h)
          rintro code s7 ⟨hd7, _, hb7⟩
          rw [wp_ite]
          refine ⟨fun _ => .inl hd7, fun h0 => ?_⟩
          have hb7 := hb7 (Decidable.not_not.mp h0)
          exact wp_mono (secured_private (h _ .ehlo) s7 hd7 hb7) (fun _ _ h => .inl h) (fun _ _ h => h)
  unfold sendMail
  rw [wp_bind, wp_gets, wp_ite]
  refine ⟨fun _ => conn s hd, fun hc => ?_⟩
  rw [wp_bind]
  refine wp_mono (est (by simpa using hc)) ?_ (fun _ _ h => hQ _ h)
  rintro code s' (h' | h')
  · rw [wp_ite]
    exact ⟨fun _ => hQ _ h', fun _ => conn _ h'⟩
  · rw [wp_ite]
    exact ⟨fun _ => hQ' _ h'.1 h'.2, fun _ => conn2 _ h'.1 h'.2⟩


/-- The commands in clear of the messages sent by these calls. -/
def PublicOf (cs : List Call) (d : Bytes) : Prop := ∃ m, .sendMail m ∈ cs ∧ PublicCommand m d

/-- **C38, forced client.** Whatever the user calls (except switching to the base send commands) and whatever the server and the
network do: all commands the forced client ever sends in clear are public ones. (In fact there are hardly any, see C39.) -/
theorem C38_forced (env : Env) (name : Bytes) (port : Nat) (cs : List Call)
    (hk : .setKeepUsingBaseSendCommands true ∉ cs) (fd : Int) (d : Bytes) (r : SendRes)
    (h : .send .cmd (.raw fd) d r ∈ (life cs env { client := Client.init .forced name port, hist := [] }).2.hist) :
    PublicOf cs d := by
  have inv : CallInv env (· ∈ cs) (fun s => Discreet (PublicOf cs) s ∧ s.client.kind = .forced) (Discreet (PublicOf cs)) :=
    { stop := fun _ h => h.1
      event := fun s c _ h => ⟨⟨h.1.kind, h.1.ptrRaw, mem_snoc h.1.hist trivial⟩, h.2⟩
      serverName := fun s c h => ⟨⟨h.1.kind, h.1.ptrRaw, h.1.hist⟩, h.2⟩
      port := fun s c h => ⟨⟨h.1.kind, h.1.ptrRaw, h.1.hist⟩, h.2⟩
      batch := fun s c h => ⟨⟨h.1.kind, h.1.ptrRaw, h.1.hist⟩, h.2⟩
      timeout := fun s c h => ⟨⟨h.1.kind, h.1.ptrRaw, h.1.hist⟩, h.2⟩
      credential := fun s c h => ⟨⟨h.1.kind, h.1.ptrRaw, h.1.hist⟩, h.2⟩
      keep := fun s b hb h => ⟨⟨h.1.kind, by cases b with | false => rfl | true => exact absurd hb hk, h.1.hist⟩, h.2⟩
      accept := fun s b h => ⟨⟨h.1.kind, h.1.ptrRaw, mem_snoc h.1.hist trivial⟩, h.2⟩
      sendMail := by
        intro s m hm h
        haveI := kind_anything
        refine wp_mono (wp_and ((sendMail_steps (R := fun s s' : St => s'.client.kind = s.client.kind) m).run s)
          (sendMail_private m (fun d hd => ⟨m, hm, hd⟩) s h.1 (fun s' => s'.client.kind ≠ .opportunistic → Discreet (PublicOf cs) s')
            (fun _ h _ => h) (fun _ h _ h' => absurd h h'))) ?_ ?_
        · rintro _ s' ⟨h1, h2⟩
          exact ⟨h2 (by rw [h1, h.2]; decide), h1.trans h.2⟩
        · rintro _ s' ⟨h1, h2⟩
          exact h2 (by rw [h1, h.2]; decide) }
  have g := discreet_guard (PublicOf cs)
  haveI := g.guarded
  have := inv.life
    (fun s h => Pres.use (gd_cleanup (D := CmdOk (PublicOf cs)) (R := Pres (Discreet (PublicOf cs)))) ⟨h.1.kind, h.1.ptrRaw, mem_snoc h.1.hist trivial⟩)
    cs (fun _ h => h) { client := Client.init .forced name port, hist := [] } ⟨⟨by simp [Client.init], rfl, by simp⟩, rfl⟩
  exact this.hist _ h

/-- **C38, opportunistic client, partial.** As long as no session was without STARTTLS (then `mKeepUsingBaseSendCommands` is set
for good, and the user does not set it): everything up to and including the next `sendMail`, in whatever way that ends, is
private. What is missing is false, see `C38_sticky_flag`. -/
theorem C38_opportunistic_partial (env : Env) (name : Bytes) (port : Nat) (cs : List Call) (m : Message)
    (hk : ∀ b, .setKeepUsingBaseSendCommands b ∉ cs)
    (hf : (runCalls cs env { client := Client.init .opportunistic name port, hist := [] }).2.client.ptrRaw = false)
    (fd : Int) (d : Bytes) (r : SendRes)
    (h : .send .cmd (.raw fd) d r ∈ (sendMail m env (runCalls cs env { client := Client.init .opportunistic name port, hist := [] }).2).2.hist) :
    PublicOf (cs ++ [.sendMail m]) d := by
  have inv : CallInv env (· ∈ cs) (fun s => s.client.kind = .opportunistic ∧ (s.client.ptrRaw = true ∨ Discreet (PublicOf (cs ++ [.sendMail m])) s))
      (fun s => s.client.kind = .opportunistic ∧ (s.client.ptrRaw = true ∨ Discreet (PublicOf (cs ++ [.sendMail m])) s)) :=
    { stop := fun _ h => h
      event := fun s c _ h => ⟨h.1, h.2.imp id fun h => ⟨h.kind, h.ptrRaw, mem_snoc h.hist trivial⟩⟩
      serverName := fun s c h => ⟨h.1, h.2.imp id fun h => ⟨h.kind, h.ptrRaw, h.hist⟩⟩
      port := fun s c h => ⟨h.1, h.2.imp id fun h => ⟨h.kind, h.ptrRaw, h.hist⟩⟩
      batch := fun s c h => ⟨h.1, h.2.imp id fun h => ⟨h.kind, h.ptrRaw, h.hist⟩⟩
      timeout := fun s c h => ⟨h.1, h.2.imp id fun h => ⟨h.kind, h.ptrRaw, h.hist⟩⟩
      credential := fun s c h => ⟨h.1, h.2.imp id fun h => ⟨h.kind, h.ptrRaw, h.hist⟩⟩
      keep := fun s b hb h => absurd hb (hk b)
      accept := fun s b h => ⟨h.1, h.2.imp id fun h => ⟨h.kind, h.ptrRaw, mem_snoc h.hist trivial⟩⟩
      sendMail := by
        intro s m' hm h
        haveI := kind_anything
        haveI := sticky_anything
        have hkind := (sendMail_steps (env := env) (R := fun s s' : St => s'.client.kind = s.client.kind) m').run s
        rcases h.2 with hp | hp
        · exact wp_mono (wp_and hkind ((sendMail_steps (R := fun s s' : St => s.client.ptrRaw = true → s'.client.ptrRaw = true) m').run s))
            (fun _ s' h' => ⟨h'.1.trans h.1, .inl (h'.2 hp)⟩) (fun _ s' h' => ⟨h'.1.trans h.1, .inl (h'.2 hp)⟩)
        · have := sendMail_private (env := env) m' (P := PublicOf (cs ++ [.sendMail m])) (fun d hd => ⟨m', by simp [hm], hd⟩) s hp
            (fun s' => s'.client.kind = .opportunistic → s'.client.ptrRaw = true ∨ Discreet (PublicOf (cs ++ [.sendMail m])) s')
            (fun _ h _ => .inr h) (fun s' h h' h'' => by
              cases hr : s'.client.ptrRaw with
              | true => exact .inl rfl
              | false => exact .inr ⟨by rw [h'']; decide, hr, h'⟩)
          exact wp_mono (wp_and hkind this) (fun _ s' h' => ⟨h'.1.trans h.1, h'.2 (h'.1.trans h.1)⟩) (fun _ s' h' => ⟨h'.1.trans h.1, h'.2 (h'.1.trans h.1)⟩) }
  have h1 := state_of (inv.runCalls cs (fun _ h => h) { client := Client.init .opportunistic name port, hist := [] } ⟨rfl, .inr ⟨by simp [Client.init], rfl, by simp⟩⟩)
  revert h hf h1
  generalize (runCalls cs env { client := Client.init .opportunistic name port, hist := [] }).2 = s1
  intro hf h h1
  have hd : Discreet (PublicOf (cs ++ [.sendMail m])) s1 := by
    rcases h1.2 with h' | h'
    · rw [hf] at h'; exact absurd h' (by decide)
    · exact h'
  have := state_of (sendMail_private (env := env) m (P := PublicOf (cs ++ [.sendMail m])) (fun d hd => ⟨m, by simp, hd⟩) s1 hd
    (fun s' => ∀ e ∈ s'.hist, ClearCmd (PublicOf (cs ++ [.sendMail m])) e) (fun _ h => h.hist) (fun _ _ h => h))
  exact this _ h

/-- No public command begins like AUTH. -/
theorem C38_public_is_not_auth (m : Message) (d : Bytes) (h : PublicCommand m d) : ¬ b!"AUTH" <+: d := by
  rintro ⟨t, ht⟩
  have h1 : d.head? = some 65 := by rw [← ht]; rfl
  cases h <;> exact absurd h1 (by simp [cstr])

/-- Two sessions: the first server offers nothing, the second STARTTLS and AUTH. -/
def stickyScript : List RecvRes :=
  [.data b!"220 hi\r\n"] ++ clear [b!"250 ok\r\n", b!"250 ok\r\n", b!"250 ok\r\n", b!"354 go\r\n", b!"250 ok\r\n"] ++
  [.data b!"220 hi\r\n"] ++ clear [b!"250-STARTTLS\r\n250 ok\r\n", b!"220 go\r\n"] ++
  [.data b!"250-AUTH PLAIN\r\n250 ok\r\n"] ++ clear [b!"235 ok\r\n"]

/-- **C38 is false for the opportunistic client**: after one session without STARTTLS, the client has switched to the base send
commands for good, and in the next session, where TLS is negotiated, it sends the credentials beside it, in clear. -/
theorem C38_sticky_flag :
    (let r := runCalls [.setCredentials { username := b!"joe", password := b!"secret" }, .sendMail mail, .sendMail mail] (scripted stickyScript)
        (fresh .opportunistic)
     r.2.hist.contains (.send .cmd (.raw 5) b!"AUTH PLAIN AGpvZQBzZWNyZXQ=\r\n" (.sent 29)) &&
     r.2.hist.contains (.tls (.verifyResult 76) 0)) = true := by decide +kernel

/-- A private session: the hypotheses of `C38_opportunistic_partial` and `C38_forced` are met, the mail is sent. -/
example :
    (let r := runCalls [.setCredentials { username := b!"joe", password := b!"secret" }, .sendMail mail] (scripted
        ([.data b!"220 hi\r\n"] ++ clear [b!"250-STARTTLS\r\n250 ok\r\n", b!"220 go\r\n"] ++
         [.data b!"250-AUTH PLAIN\r\n250 ok\r\n", .data b!"235 ok\r\n", .data b!"250 ok\r\n", .data b!"250 ok\r\n", .data b!"354 go\r\n",
          .data b!"250 ok\r\n"])) (fresh .opportunistic)
     (r.1, r.2.client.ptrRaw)) = (.ok [.done, .returned 0], false) ∧
    (let r := runCalls [.setCredentials { username := b!"joe", password := b!"secret" }, .sendMail mail] (scripted
        [.data b!"220 hi\r\n", .data b!"250-AUTH PLAIN\r\n250 ok\r\n", .data b!"235 ok\r\n", .data b!"250 ok\r\n", .data b!"250 ok\r\n",
         .data b!"354 go\r\n", .data b!"250 ok\r\n"]) (fresh .forced)
     (r.1, r.2.hist.any (fun e => e matches .send _ (.raw _) _ _), (r.2.hist.filter (fun e => e matches .send _ (.tls _ _) _ _)).length)) =
       (.ok [.done, .returned 0], false, 12) := by decide +kernel

/-! ## C39: the forced client and its socket -/

/-- What is sent in clear goes to descriptor 0. -/
def ClearToZero : Ev → Prop
  | .send _ (.raw fd) _ _ => fd = 0
  | _ => True

theorem prep_zero {e : Ev} (h : PrepEv e) : ClearToZero e := by
  unfold ClearToZero; split <;> simp_all [PrepEv]

/-- A forced client that has a TLS connection or none at all. -/
structure Wrapped (s : St) : Prop where
  kind : s.client.kind = .forced
  ptrRaw : s.client.ptrRaw = false
  bio : s.client.bio = none → s.client.sock = 0
  hist : ∀ e ∈ s.hist, ClearToZero e

/-- The same between the calls. -/
structure WrappedIdle (s : St) : Prop where
  kind : s.client.kind = .forced
  ptrRaw : s.client.ptrRaw = false
  bio : s.client.isConnected = true → s.client.bio = none → s.client.sock = 0
  hist : ∀ e ∈ s.hist, ClearToZero e

theorem Wrapped.idle {s : St} (h : Wrapped s) : WrappedIdle s := ⟨h.kind, h.ptrRaw, fun _ => h.bio, h.hist⟩

theorem wrapped_guard : GuardInv (fun _ _ => True) Wrapped where
  quitOk := trivial
  client := fun s c _ hc h => by
    unfold SameConn at hc
    rw [hc]
    exact ⟨h.kind, h.ptrRaw, h.bio, h.hist⟩
  quiet := fun _ e he h => ⟨h.kind, h.ptrRaw, h.bio, mem_snoc h.hist (by cases e <;> first | trivial | exact absurd he id)⟩
  recvRaw := fun _ _ h => ⟨h.kind, h.ptrRaw, h.bio, mem_snoc h.hist trivial⟩
  recvTls := fun _ _ _ _ h => ⟨h.kind, h.ptrRaw, h.bio, mem_snoc h.hist trivial⟩
  send := by
    intro s k c d r hs h
    refine ⟨h.kind, h.ptrRaw, h.bio, mem_snoc h.hist ?_⟩
    cases hs with
    | clear _ hc =>
      rcases hc with hc | hc | ⟨_, hc⟩
      · rw [h.ptrRaw] at hc; exact absurd hc (by decide)
      · rw [h.kind] at hc; exact absurd hc (by decide)
      · exact h.bio hc
    | tls _ _ _ => trivial
    | upgrade _ _ hk => rw [h.kind] at hk; exact absurd hk (by decide)
  closed := fun s h => ⟨by rw [closedClient_kind]; exact h.kind, by rw [closedClient_ptrRaw]; exact h.ptrRaw, fun _ => closedClient_sock _,
    mem_app h.hist fun e he => by
      have := closing_end _ e he
      unfold closingEvs at he
      rcases List.mem_append.mp he with he | he
      · split at he
        · simp at he
        · split at he
          · rw [List.mem_singleton.mp he]; trivial
          · simp at he
      · split at he
        · rw [List.mem_singleton.mp he]; trivial
        · simp at he⟩

theorem anyMail (m : Message) : MailTexts (fun _ _ => True) m := ⟨fun _ => trivial, fun _ _ => trivial, fun _ _ => trivial, trivial, trivial⟩

theorem sendMail_wrapped (m : Message) (s : St) (h : WrappedIdle s) : wp env (sendMail m) (fun _ => WrappedIdle) (fun _ => WrappedIdle) s := by
  haveI := wrapped_guard.guarded
  haveI := wrapped_guard.mail (fun _ h => ⟨h.kind, h.ptrRaw, h.bio, h.hist⟩)
  have conn : ∀ s, Wrapped s → wp env (sendMailConnected m) (fun _ => WrappedIdle) (fun _ => WrappedIdle) s := fun s hd =>
    wp_mono (Pres.use (gd_sendMailConnected (D := fun _ _ => True) (R := Pres Wrapped) m (anyMail m)) hd) (fun _ _ h => h.idle) (fun _ _ h => h.idle)
  unfold sendMail
  rw [wp_bind, wp_gets, wp_ite]
  refine ⟨fun hc => conn s ⟨h.kind, h.ptrRaw, h.bio hc, h.hist⟩, fun hc => ?_⟩
  have hc : s.client.isConnected = false := by simpa using hc
  have prep : ∀ {s s'}, s.client.kind = .forced → s.client.ptrRaw = false → (∀ e ∈ s.hist, ClearToZero e) → Prepared s s' → WrappedIdle s' :=
    fun hk hp hh h => ⟨h.kind.trans hk, h.ptrRaw.trans hp, fun hc => by rw [h.isConnected] at hc; exact absurd hc (by decide),
      (h.events.mono fun _ => prep_zero).all hh⟩
  rw [wp_bind]
  have est : wp env establish (fun code s' => WrappedIdle s' ∧ (code = 0 → Wrapped s')) (fun _ => WrappedIdle) s := by
    unfold establish
    rw [wp_bind]
    refine wp_mono (initializeSession_prep.run s) ?_ (fun _ _ h1 => prep h.kind h.ptrRaw h.hist (h1 hc))
    intro code s1 h1
    have h1 := h1 hc
    have i1 := prep h.kind h.ptrRaw h.hist h1
    rw [wp_ite]
    refine ⟨fun hn => ⟨i1, fun h0 => absurd h0 hn⟩, fun _ => ?_⟩
    rw [wp_bind, wp_gets, i1.kind]
    dsimp only
    unfold establishForced
    rw [wp_bind]
    refine wp_mono (wp_and (startTLSNegotiation_prep.run s1) (startTLSNegotiation_ok s1)) ?_ (fun _ _ h2 => prep i1.kind i1.ptrRaw i1.hist (h2.1 h1.isConnected))
    rintro code s2 ⟨h2, k2⟩
    have h2 := h2 h1.isConnected
    have i2 := prep i1.kind i1.ptrRaw i1.hist h2
    rw [wp_ite]
    refine ⟨fun hn => ⟨i2, fun h0 => absurd h0 hn⟩, fun h0 => ?_⟩
    obtain ⟨b, hb, _⟩ := k2 (Decidable.not_not.mp h0)
    have w2 : Wrapped s2 := ⟨i2.kind, i2.ptrRaw, fun h => by rw [hb] at h; exact absurd h (by simp), i2.hist⟩
    refine wp_mono (Pres.use (?_ : Steps env (Pres Wrapped) _) w2) (fun _ _ h => ⟨h.idle, fun _ => h⟩) (fun _ _ h => h.idle)
    unfold getServerSecureIdentification
    have g1 := gd_checkServerGreetings (D := fun _ _ => True) (env := env) (R := Pres Wrapped)
    have g2 := gd_identify (D := fun _ _ => True) (env := env) (R := Pres Wrapped) trivial
    have g3 := gd_authenticateIfNeeded (D := fun _ _ => True) (env := env) (R := Pres Wrapped) (fun _ => trivial)
    steps [g2, addLog_steps]
  refine wp_mono est ?_ (fun _ _ h => h)
  rintro code s1 ⟨h1, h1'⟩
  rw [wp_ite]
  exact ⟨fun _ => h1, fun h0 => conn s1 (h1' (Decidable.not_not.mp h0))⟩

/-- Whatever happens, a forced client writes in clear only to descriptor 0. -/
theorem forced_life_zero (env : Env) (name : Bytes) (port : Nat) (cs : List Call) (hk : .setKeepUsingBaseSendCommands true ∉ cs) :
    ∀ e ∈ (life cs env { client := Client.init .forced name port, hist := [] }).2.hist, ClearToZero e := by
  have inv : CallInv env (· ∈ cs) WrappedIdle (fun s => ∀ e ∈ s.hist, ClearToZero e) :=
    { stop := fun _ h => h.hist
      event := fun s c _ h => ⟨h.kind, h.ptrRaw, h.bio, mem_snoc h.hist trivial⟩
      serverName := fun s c h => ⟨h.kind, h.ptrRaw, h.bio, h.hist⟩
      port := fun s c h => ⟨h.kind, h.ptrRaw, h.bio, h.hist⟩
      batch := fun s c h => ⟨h.kind, h.ptrRaw, h.bio, h.hist⟩
      timeout := fun s c h => ⟨h.kind, h.ptrRaw, h.bio, h.hist⟩
      credential := fun s c h => ⟨h.kind, h.ptrRaw, h.bio, h.hist⟩
      keep := fun s b hb h => ⟨h.kind, by cases b with | false => rfl | true => exact absurd hb hk, h.bio, h.hist⟩
      accept := fun s b h => ⟨h.kind, h.ptrRaw, h.bio, mem_snoc h.hist trivial⟩
      sendMail := fun s m _ h => wp_mono (sendMail_wrapped m s h) (fun _ _ h => h) (fun _ _ h => h.hist) }
  haveI := wrapped_guard.guarded
  refine inv.life ?_ cs (fun _ h => h) _ ⟨rfl, rfl, fun h => absurd h (by simp [Client.init]), by simp⟩
  intro s h
  cases hc : s.client.isConnected with
  | true =>
    refine wp_mono (Pres.use (gd_cleanup (D := fun _ _ => True) (R := Pres Wrapped)) (s := St.snoc s .destroy) ?_) (fun _ _ h => h.hist) (fun _ _ h => h.hist)
    exact ⟨h.kind, h.ptrRaw, h.bio hc, mem_snoc h.hist trivial⟩
  | false =>
    refine wp_mono (cleanup_prep.run (St.snoc s .destroy)) ?_ ?_
    · exact fun _ s' h' => ((h' hc).events.mono fun _ => prep_zero).all (mem_snoc h.hist trivial)
    · exact fun _ s' h' => ((h' hc).events.mono fun _ => prep_zero).all (mem_snoc h.hist trivial)

/-- **C39, partial.** A forced client whose user does not switch to the base send commands never writes in clear to a socket it
opened, if the operating system did not give it descriptor 0 (the process has its standard input open). Without this hypothesis it
is false, see `C39_descriptor_zero`. -/
theorem C39_forced_partial (env : Env) (name : Bytes) (port : Nat) (cs : List Call) (hk : .setKeepUsingBaseSendCommands true ∉ cs)
    (h0 : .socket (.val 0) ∉ (life cs env { client := Client.init .forced name port, hist := [] }).2.hist)
    (k : SendKind) (fd : Nat) (d : Bytes) (r : SendRes)
    (h : .send k (.raw fd) d r ∈ (life cs env { client := Client.init .forced name port, hist := [] }).2.hist) :
    .socket (.val fd) ∉ (life cs env { client := Client.init .forced name port, hist := [] }).2.hist := by
  have hz : (fd : Int) = 0 := forced_life_zero env name port cs hk _ h
  have hz : fd = 0 := by omega
  rw [hz]
  exact h0

/-- Descriptor 0 for the connection, and writing fails from the fourth time on. -/
def zeroEnv : Env :=
  { scripted [.data b!"220 hi\r\n", .data b!"250 ok\r\n", .data b!"250 ok\r\n"] (fun n => if n = 2 then some (.fail 32) else none) with
    socket := fun _ => .val 0 }

/-- **C39 is false when the socket is descriptor 0**: it is never closed, and after a failure over TLS the next RCPT command is
written to it in clear. -/
theorem C39_descriptor_zero :
    (let r := sendMail bigMail zeroEnv (fresh .forced)
     r.2.hist.contains (.socket (.val 0)) && r.2.hist.contains (.send .cmd (.raw 0) b!"RCPT TO: <two@there.org>\r\n" (.sent 26)) &&
     !r.2.hist.contains (.close 0)) = true := by decide +kernel

end Verif.Props
