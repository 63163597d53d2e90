import Verif.Proofs.Vetted
import Verif.Proofs.Calls
import Verif.Proofs.Said
import Verif.Spec.Script
/-!
# C40: no use of a TLS connection before its certificate was accepted
-/
namespace Verif.Props
open Verif Verif.Model Verif.Spec Verif.Proofs

variable {α : Type} {env : Env}

theorem anyText (m : Message) : MailTexts (fun _ _ => True) m := ⟨fun _ => trivial, fun _ _ => trivial, fun _ _ => trivial, trivial, trivial⟩

theorem connected_vetted (m : Message) (s : St) (h : Vetted s) : wp env (sendMailConnected m) (fun _ => Vetted) (fun _ => Vetted) s := by
  haveI := vetted_guard.mail (fun _ h => ⟨⟨h.kind, h.accept, h.hist⟩, h.bio⟩)
  exact Pres.use (gd_sendMailConnected (D := fun _ _ => True) (R := Pres Vetted) m (anyText m)) h

/-- EHLO and AUTH over TLS. -/
theorem secured_vetted (s : St) (h : Vetted s) :
    wp env (do
      let code ← getServerSecureIdentification
      if code ≠ 250 then pure code else authenticateIfNeeded) (fun _ => Vetted) (fun _ => Vetted) s := by
  haveI := vetted_guard.guarded
  unfold getServerSecureIdentification
  have g2 := gd_identify (D := fun _ _ => True) (env := env) (R := Pres Vetted) trivial
  have g3 := gd_authenticateIfNeeded (D := fun _ _ => True) (env := env) (R := Pres Vetted) (fun _ => trivial)
  refine Pres.use (?_ : Steps env (Pres Vetted) _) h
  steps [g2, addLog_steps]

theorem destroy_setting (s : St) : selfSignedEnabled (St.snoc s .destroy).hist = selfSignedEnabled s.hist :=
  selfSigned_append _ (by simp [NoCall])

theorem call_setting (s : St) (c : Call) (hn : ∀ b, c ≠ .setAcceptSelfSignedCert b) :
    selfSignedEnabled (St.snoc s (.call c)).hist = selfSignedEnabled s.hist := by
  show selfSignedEnabled (s.hist ++ [.call c]) = _
  unfold selfSignedEnabled
  rw [List.foldl_append]
  cases c <;> first | rfl | exact absurd rfl (hn _)

theorem accept_setting (s : St) (b : Bool) : selfSignedEnabled (s.hist ++ [.call (.setAcceptSelfSignedCert b)]) = b := by
  unfold selfSignedEnabled
  rw [List.foldl_append]
  rfl

/-! ### Forced client -/

/-- The forced client between the calls. -/
structure ForcedIdle (s : St) : Prop extends Careful s where
  forced : s.client.kind = .forced
  bio : s.client.isConnected = true → ∀ b, s.client.bio = some b → CertificateAccepted s.hist b.id

theorem sendMail_forced (m : Message) (s : St) (h : ForcedIdle s) : wp env (sendMail m) (fun _ => ForcedIdle) (fun _ => Careful) s := by
  haveI := kind_anything
  haveI := vetted_guard.guarded
  have hk := (sendMail_steps (env := env) (R := fun s s' : St => s'.client.kind = s.client.kind) m).run s
  refine wp_mono (wp_and hk (?_ : wp env (sendMail m)
    (fun _ s' => Careful s' ∧ (s'.client.isConnected = true → ∀ b, s'.client.bio = some b → CertificateAccepted s'.hist b.id)) (fun _ => Careful) s))
    (fun _ s' h' => ⟨h'.2.1, h'.1.trans h.forced, h'.2.2⟩) (fun _ _ h => h.2)
  have conn : ∀ s, Vetted s → wp env (sendMailConnected m)
      (fun _ s' => Careful s' ∧ (s'.client.isConnected = true → ∀ b, s'.client.bio = some b → CertificateAccepted s'.hist b.id)) (fun _ => Careful) s :=
    fun s h => wp_mono (connected_vetted m s h) (fun _ _ h => ⟨h.toCareful, fun _ => h.bio⟩) (fun _ _ h => h.toCareful)
  unfold sendMail
  rw [wp_bind, wp_gets, wp_ite]
  refine ⟨fun hc => conn s ⟨h.toCareful, h.bio hc⟩, fun hc => ?_⟩
  have hc : s.client.isConnected = false := by simpa using hc
  rw [wp_bind]
  have est : wp env establish (fun code s' => (Careful s' ∧ (s'.client.isConnected = true → ∀ b, s'.client.bio = some b → CertificateAccepted s'.hist b.id)) ∧
      (code = 0 → Vetted s')) (fun _ => Careful) s := by
    unfold establish
    rw [wp_bind]
    refine wp_mono (initializeSession_prep.run s) ?_ (fun _ _ h1 => (h1 hc).careful h.toCareful)
    intro code s1 h1
    have h1 := h1 hc
    have i1 := h1.careful h.toCareful
    have nc : ∀ {s : St} {P : Prop}, s.client.isConnected = false → (s.client.isConnected = true → P) := fun h h' => by rw [h] at h'; exact absurd h' (by decide)
    rw [wp_ite]
    refine ⟨fun hn => ⟨⟨i1, nc h1.isConnected⟩, fun h0 => absurd h0 hn⟩, fun _ => ?_⟩
    rw [wp_bind, wp_gets, h1.kind, h.forced]
    dsimp only
    unfold establishForced
    rw [wp_bind]
    refine wp_mono (negotiate_vetted s1 i1 h1.isConnected) ?_ (fun _ _ h => h)
    rintro code s2 ⟨c2, n2, k2, v2⟩
    rw [wp_ite]
    refine ⟨fun hn => ⟨⟨c2, nc n2⟩, fun h0 => absurd h0 hn⟩, fun h0 => ?_⟩
    have v2 := v2 (Decidable.not_not.mp h0)
    rw [wp_bind]
    refine wp_mono (Pres.use (gd_checkServerGreetings (D := fun _ _ => True) (R := Pres Vetted)) v2) ?_ (fun _ _ h => h.toCareful)
    intro code s3 h3
    rw [wp_ite]
    refine ⟨fun _ => ⟨⟨h3.toCareful, fun _ => h3.bio⟩, fun _ => h3⟩, fun _ => ?_⟩
    exact wp_mono (secured_vetted s3 h3) (fun _ _ h => ⟨⟨h.toCareful, fun _ => h.bio⟩, fun _ => h⟩) (fun _ _ h => h.toCareful)
  refine wp_mono est ?_ (fun _ _ h => h)
  rintro code s1 ⟨h1, h1'⟩
  rw [wp_ite]
  exact ⟨fun _ => h1, fun h0 => conn s1 (h1' (Decidable.not_not.mp h0))⟩

/-- **C40, forced client.** Whatever the user calls and whatever the server, the network and OpenSSL do: the client reads from and
writes to a TLS connection only after its certificate was accepted. -/
theorem C40_forced (env : Env) (name : Bytes) (port : Nat) (cs : List Call) :
    AcceptedFirst (life cs env { client := Client.init .forced name port, hist := [] }).2.hist := by
  have inv : CallInv env (fun _ => True) ForcedIdle Careful :=
    { stop := fun _ h => h.toCareful
      event := fun s c hn h => ⟨⟨h.kind, by rw [call_setting s c hn]; exact h.accept, AcceptedFirst.snoc h.hist fun _ hu => nomatch hu⟩, h.forced, fun hc b hb => CertificateAccepted.mono (h.bio hc b hb) _⟩
      serverName := fun s c h => ⟨⟨h.kind, h.accept, h.hist⟩, h.forced, h.bio⟩
      port := fun s c h => ⟨⟨h.kind, h.accept, h.hist⟩, h.forced, h.bio⟩
      batch := fun s c h => ⟨⟨h.kind, h.accept, h.hist⟩, h.forced, h.bio⟩
      timeout := fun s c h => ⟨⟨h.kind, h.accept, h.hist⟩, h.forced, h.bio⟩
      credential := fun s c h => ⟨⟨h.kind, h.accept, h.hist⟩, h.forced, h.bio⟩
      keep := fun s b _ h => ⟨⟨h.kind, h.accept, h.hist⟩, h.forced, h.bio⟩
      accept := fun s b h => ⟨⟨h.kind, (accept_setting s b).symm, AcceptedFirst.snoc h.hist fun _ hu => nomatch hu⟩, h.forced,
        fun hc b hb => CertificateAccepted.mono (h.bio hc b hb) _⟩
      sendMail := fun s m _ h => sendMail_forced m s h }
  haveI := vetted_guard.guarded
  have := inv.life ?_ cs (fun _ _ => trivial) { client := Client.init .forced name port, hist := [] }
    ⟨⟨by simp [Client.init], rfl, fun pre e post _ he => by simp at he⟩, rfl, fun h => by simp [Client.init] at h⟩
  · exact this.hist
  · intro s h
    have hd : Careful (St.snoc s .destroy) :=
      ⟨h.kind, by rw [destroy_setting]; exact h.accept, AcceptedFirst.snoc h.hist fun _ hu => nomatch hu⟩
    cases hc : s.client.isConnected with
    | true =>
      exact wp_mono (Pres.use (gd_cleanup (D := fun _ _ => True) (R := Pres Vetted)) (s := St.snoc s .destroy)
        ⟨hd, fun b hb => CertificateAccepted.mono (h.bio hc b hb) _⟩) (fun _ _ h => h.toCareful) (fun _ _ h => h.toCareful)
    | false =>
      exact wp_mono (cleanup_prep.run (St.snoc s .destroy)) (fun _ s' h' => (h' hc).careful hd) (fun _ s' h' => (h' hc).careful hd)

/-! ### Both secure clients -/

/-- The system's certificates could not be loaded (once). -/
def Lost (s : St) : Prop := .tls .verifyPaths 0 ∈ s.hist

theorem Lost.keep {m : M α} (h : Steps env Ext m) {s : St} (hs : Lost s) : wp env m (fun _ => Lost) (fun _ => Lost) s :=
  wp_mono (h.run s) (fun _ _ ⟨t, e⟩ => by unfold Lost; rw [e]; exact List.mem_append_left _ hs)
    (fun _ _ ⟨t, e⟩ => by unfold Lost; rw [e]; exact List.mem_append_left _ hs)

/-- A negotiation keeps the TLS connection checked, unless the certificates cannot be loaded. -/
theorem negotiate_sound (s : St) (h : Vetted s) (hc : s.client.isConnected = false) :
    wp env startTLSNegotiation (fun code s' => (Lost s' ∨ Vetted s') ∧ (code = 0 → Vetted s')) (fun _ => Careful) s := by
  refine wp_mono (wp_and (negotiate_vetted s h.toCareful hc) (wp_and (startTLSNegotiation_prep.run s) (startTLSNegotiation_fail s h.kind))) ?_
    (fun _ _ h => h.1)
  rintro code s' ⟨⟨h1, _, _, h2⟩, h3, h4⟩
  refine ⟨?_, h2⟩
  have h3 := h3 hc
  rcases h4 with h4 | h4 | h4 | h4
  · exact .inr (h2 h4)
  · exact .inr ⟨h1, fun b hb => by rw [h4] at hb; cases hb⟩
  · refine .inr ⟨h1, fun b hb => ?_⟩
    rw [h4] at hb
    obtain ⟨evs, he, _⟩ := h3.events
    rw [he]
    exact CertificateAccepted.mono (h.bio b hb) _
  · exact .inl h4

theorem sendMail_sound (m : Message) (s : St) (h : Vetted s) :
    wp env (sendMail m) (fun _ s' => Lost s' ∨ Vetted s') (fun _ => Careful) s := by
  haveI := vetted_guard.guarded
  haveI := (est_guard vetted_guard .opportunistic).guarded
  have conn : ∀ s, Vetted s → wp env (sendMailConnected m) (fun _ s' => Lost s' ∨ Vetted s') (fun _ => Careful) s :=
    fun s h => wp_mono (connected_vetted m s h) (fun _ _ h => .inr h) (fun _ _ h => h.toCareful)
  unfold sendMail
  rw [wp_bind, wp_gets, wp_ite]
  refine ⟨fun _ => conn s h, fun hc => ?_⟩
  have hc : s.client.isConnected = false := by simpa using hc
  rw [wp_bind]
  have est : wp env establish (fun code s' => (Lost s' ∨ Vetted s') ∧ (code = 0 → Vetted s')) (fun _ => Careful) s := by
    have good : ∀ (s' : St) (c : Int), Vetted s' → (Lost s' ∨ Vetted s') ∧ (c = 0 → Vetted s') := fun _ _ h => ⟨.inr h, fun _ => h⟩
    unfold establish
    rw [wp_bind]
    refine wp_mono (wp_and (initializeSession_prep.run s) (initializeSession_bio.run s)) ?_ (fun _ _ h1 => (h1.1 hc).careful h.toCareful)
    rintro code s1 ⟨h1, hb1⟩
    have h1 := h1 hc
    have i1 : Vetted s1 := by
      refine ⟨h1.careful h.toCareful, fun b hb => ?_⟩
      unfold SameBio at hb1
      rw [hb1] at hb
      obtain ⟨evs, he, _⟩ := h1.events
      rw [he]
      exact CertificateAccepted.mono (h.bio b hb) _
    rw [wp_ite]
    refine ⟨fun _ => good _ _ i1, fun _ => ?_⟩
    rw [wp_bind, wp_gets]
    cases hk : s1.client.kind with
    | smtp => exact absurd hk i1.kind
    | forced =>
      dsimp only
      unfold establishForced
      rw [wp_bind]
      refine wp_mono (negotiate_sound s1 i1 h1.isConnected) ?_ (fun _ _ h => h)
      rintro code s2 ⟨c2, v2⟩
      rw [wp_ite]
      refine ⟨fun hn => ⟨c2, fun h0 => absurd h0 hn⟩, fun h0 => ?_⟩
      have v2 := v2 (Decidable.not_not.mp h0)
      rw [wp_bind]
      refine wp_mono (Pres.use (gd_checkServerGreetings (D := fun _ _ => True) (R := Pres Vetted)) v2) ?_ (fun _ _ h => h.toCareful)
      intro code s3 h3
      rw [wp_ite]
      exact ⟨fun _ => good _ _ h3, fun _ => wp_mono (secured_vetted s3 h3) (fun _ _ h => good _ _ h) (fun _ _ h => h.toCareful)⟩
    | opportunistic =>
      dsimp only
      unfold establishGreeted
      rw [wp_bind]
      refine wp_mono (Pres.use (gd_checkServerGreetings (D := fun _ _ => True) (R := Pres (Est Vetted .opportunistic))) ⟨i1, h1.isConnected, hk⟩)
        ?_ (fun _ _ h => h.1.toCareful)
      rintro code s2 h2
      rw [wp_ite]
      refine ⟨fun _ => good _ _ h2.1, fun _ => ?_⟩
      rw [wp_bind]
      refine wp_mono (Pres.use (gd_identify (D := fun _ _ => True) (R := Pres (Est Vetted .opportunistic)) trivial (-20) (-21)) h2)
        ?_ (fun _ _ h => h.1.toCareful)
      rintro code s3 h3
      rw [wp_ite]
      refine ⟨fun _ => good _ _ h3.1, fun _ => ?_⟩
      unfold establishOpportunistic
      rw [wp_bind, wp_gets]
      cases isStartTLSSupported s3.client.lastResponse with
      | error u => exact h3.1.toCareful
      | ok b =>
        cases b with
        | false =>
          dsimp only
          rw [wp_bind]
          refine wp_mono (Pres.use (addLog_steps (R := Pres (Est Vetted .opportunistic)) _ _) h3) ?_ (fun _ _ h => h.1.toCareful)
          rintro _ s4 h4
          unfold setKeepUsingBase
          rw [wp_bind, wp_modify]
          exact good _ _ ⟨⟨h4.1.kind, h4.1.accept, h4.1.hist⟩, h4.1.bio⟩
        | true =>
          dsimp only
          rw [wp_bind]
          refine wp_mono (Pres.use (addLog_steps (R := Pres (Est Vetted .opportunistic)) _ _) h3) ?_ (fun _ _ h => h.1.toCareful)
          rintro _ s4 h4
          rw [wp_bind]
          unfold upgradeToSecureConnection
          rw [wp_bind]
          refine wp_mono (Pres.use (addLog_steps (R := Pres (Est Vetted .opportunistic)) _ _) h4) ?_ (fun _ _ h => h.1.toCareful)
          rintro _ s5 h5
          refine wp_mono (gd_upgrade (D := fun _ _ => True) (R := Pres (Est Vetted .opportunistic)) trivial trivial (-30) (-31) s5 h5.3)
            ?_ (fun _ _ h => (h h5).1.toCareful)
          intro code s6 h6
          have h6 := h6 h5
          rw [wp_ite]
          refine ⟨fun _ => good _ _ h6.1, fun _ => ?_⟩
          rw [wp_bind]
          refine wp_mono (negotiate_sound s6 h6.1 h6.2) ?_ (fun _ _ h => h)
          rintro code s7 ⟨hd7, hb7⟩
          rw [wp_ite]
          refine ⟨fun hn => ⟨hd7, fun h0 => absurd h0 hn⟩, fun h0 => ?_⟩
          exact wp_mono (secured_vetted s7 (hb7 (Decidable.not_not.mp h0))) (fun _ _ h => good _ _ h) (fun _ _ h => h.toCareful)
  refine wp_mono est ?_ (fun _ _ h => h)
  rintro code s1 ⟨h1, h1'⟩
  rw [wp_ite]
  exact ⟨fun _ => h1, fun h0 => conn s1 (h1' (Decidable.not_not.mp h0))⟩

/-- **C40, both secure clients, `_partial`.** The same for the opportunistic client, as long as OpenSSL finds the system's
certificates (SSL_CTX_set_default_verify_paths does not fail). Missing: what happens after such a failure, see
`C40_unverified_reuse`. -/
theorem C40_secure_partial (env : Env) (kind : Kind) (hk : kind ≠ .smtp) (name : Bytes) (port : Nat) (cs : List Call)
    (hv : .tls .verifyPaths 0 ∉ (life cs env { client := Client.init kind name port, hist := [] }).2.hist) :
    AcceptedFirst (life cs env { client := Client.init kind name port, hist := [] }).2.hist := by
  have inv : CallInv env (fun _ => True) (fun s => Lost s ∨ Vetted s) (fun s => Lost s ∨ Careful s) :=
    { stop := fun _ h => h.imp id (·.toCareful)
      event := fun s c hn h => h.imp (List.mem_append_left _) fun h => ⟨⟨h.kind, by rw [call_setting s c hn]; exact h.accept,
        AcceptedFirst.snoc h.hist fun _ hu => nomatch hu⟩, fun b hb => CertificateAccepted.mono (h.bio b hb) _⟩
      serverName := fun s c h => h.imp id fun h => ⟨⟨h.kind, h.accept, h.hist⟩, h.bio⟩
      port := fun s c h => h.imp id fun h => ⟨⟨h.kind, h.accept, h.hist⟩, h.bio⟩
      batch := fun s c h => h.imp id fun h => ⟨⟨h.kind, h.accept, h.hist⟩, h.bio⟩
      timeout := fun s c h => h.imp id fun h => ⟨⟨h.kind, h.accept, h.hist⟩, h.bio⟩
      credential := fun s c h => h.imp id fun h => ⟨⟨h.kind, h.accept, h.hist⟩, h.bio⟩
      keep := fun s b _ h => h.imp id fun h => ⟨⟨h.kind, h.accept, h.hist⟩, h.bio⟩
      accept := fun s b h => h.imp (List.mem_append_left _) fun h => ⟨⟨h.kind, (accept_setting s b).symm,
        AcceptedFirst.snoc h.hist fun _ hu => nomatch hu⟩, fun b hb => CertificateAccepted.mono (h.bio b hb) _⟩
      sendMail := by
        rintro s m _ (h | h)
        · exact wp_mono (Lost.keep (sendMail_steps (R := Ext) m) h) (fun _ _ h => .inl h) (fun _ _ h => .inl h)
        · exact wp_mono (sendMail_sound m s h) (fun _ _ h => h) (fun _ _ h => .inr h) }
  haveI := vetted_guard.guarded
  have := inv.life ?_ cs (fun _ _ => trivial) { client := Client.init kind name port, hist := [] }
    (.inr ⟨⟨by simpa [Client.init] using hk, rfl, fun pre e post _ he => by simp at he⟩, fun b h => by simp [Client.init] at h⟩)
  · rcases this with h | h
    · exact absurd h hv
    · exact h.hist
  · rintro s (h | h)
    · exact wp_mono (Lost.keep (cleanup_steps (R := Ext)) (s := St.snoc s .destroy) (List.mem_append_left _ h)) (fun _ _ h => .inl h) (fun _ _ h => .inl h)
    · exact wp_mono (Pres.use (gd_cleanup (D := fun _ _ => True) (R := Pres Vetted)) (s := St.snoc s .destroy)
        ⟨⟨h.kind, by rw [destroy_setting]; exact h.accept, AcceptedFirst.snoc h.hist fun _ hu => nomatch hu⟩,
          fun b hb => CertificateAccepted.mono (h.bio b hb) _⟩) (fun _ _ h => .inr h.toCareful) (fun _ _ h => .inr h.toCareful)

/-- The certificates cannot be loaded. -/
def blindTls : TlsOp → Int
  | .verifyPaths => 0
  | .verifyResult _ => 0
  | _ => 1

def blindEnv : Env := scripted ([.data b!"220 hi\r\n"] ++ clear [b!"250-STARTTLS\r\n250 ok\r\n", b!"220 go\r\n"] ++ [.data b!"220 hi\r\n"]) (tls := blindTls)

/-- **C40 is false for the opportunistic client**: when the system's certificates cannot be loaded, sendMail returns -54 but keeps
the TLS connection; the next sendMail says EHLO over it, and no handshake was ever made nor any certificate looked at. -/
theorem C40_unverified_reuse : ¬ AcceptedFirst (life [.sendMail mail, .sendMail mail] blindEnv (fresh .opportunistic)).2.hist := by
  intro h
  have hm : ∃ pre post, (life [.sendMail mail, .sendMail mail] blindEnv (fresh .opportunistic)).2.hist =
      pre ++ .send .cmd (.tls 24 5) b!"ehlo localhost\r\n" (.sent 16) :: post := List.append_of_mem (by decide +kernel)
  obtain ⟨pre, post, he⟩ := hm
  obtain ⟨r, _, hr⟩ := (h pre _ post 24 he rfl).handshake
  have hn : (life [.sendMail mail, .sendMail mail] blindEnv (fresh .opportunistic)).2.hist.all
      (fun e => !(e matches .tls (.handshake _) _)) = true := by decide +kernel
  have := List.all_eq_true.mp hn (.tls (.handshake 24) r) (by rw [he]; exact List.mem_append_left _ hr)
  simp at this

/-- The client returned -54 and then -21. -/
example : (life [.sendMail mail, .sendMail mail] blindEnv (fresh .opportunistic)).1 = .ok [.returned (-54), .returned (-21)] := by decide +kernel

/-- A session of the opportunistic client in which the certificates are found meets the hypothesis of `C40_secure_partial`; the TLS
connection is used. -/
example :
    (let r := life [.sendMail mail] (scripted
        ([.data b!"220 hi\r\n"] ++ clear [b!"250-STARTTLS\r\n250 ok\r\n", b!"220 go\r\n"] ++
         [.data b!"250 ok\r\n", .data b!"250 ok\r\n", .data b!"250 ok\r\n", .data b!"354 go\r\n", .data b!"250 ok\r\n"])) (fresh .opportunistic)
     (r.1, r.2.hist.contains (.tls .verifyPaths 0), r.2.hist.any (fun e => e matches .send _ (.tls _ _) _ _))) =
    (.ok [.returned 0], false, true) := by decide +kernel

/-- A self-signed certificate is accepted when the user said so before, and refused otherwise. -/
example :
    (let env := scripted [.data b!"220 hi\r\n"] (tls := fun | .verifyResult _ => 18 | _ => 1)
     let r := life [.sendMail mail, .setAcceptSelfSignedCert true, .sendMail mail] env (fresh .forced)
     (r.1, r.2.hist.any (fun e => e matches .send _ (.tls _ _) _ _))) = (.ok [.returned (-58), .done, .returned (-60)], true) := by decide +kernel

end Verif.Props
