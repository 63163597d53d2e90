import Verif.Proofs.Close
import Verif.Proofs.Tls
/-!
# What is said in clear by the secure clients
-/
namespace Verif.Proofs
open Verif Verif.Model Verif.Spec

variable {α : Type} {env : Env}

/-- An event that satisfies `P` when it is a command in clear. -/
def ClearCmd (P : Bytes → Prop) : Ev → Prop
  | .send .cmd (.raw _) d _ => P d
  | _ => True

theorem prep_clearCmd {P : Bytes → Prop} {e : Ev} (h : PrepEv e) : ClearCmd P e := by
  unfold ClearCmd; split <;> simp_all [PrepEv]

theorem end_clearCmd {P : Bytes → Prop} {e : Ev} (h : EndEv e) : ClearCmd P e := by
  unfold ClearCmd; split
  · exact absurd h.1 (by simp)
  · trivial

theorem quiet_clearCmd {P : Bytes → Prop} {e : Ev} (h : QuietEv e) : ClearCmd P e := end_clearCmd (quiet_end h)

/-- A secure client whose commands in clear all satisfy `P`. -/
structure Discreet (P : Bytes → Prop) (s : St) : Prop where
  kind : s.client.kind ≠ .smtp
  ptrRaw : s.client.ptrRaw = false
  hist : ∀ e ∈ s.hist, ClearCmd P e

/-- What may be sent. -/
def CmdOk (P : Bytes → Prop) (k : SendKind) (d : Bytes) : Prop := k = .cmd → P d

theorem mem_snoc {h : Hist} {e : Ev} {Q : Ev → Prop} (hh : ∀ x ∈ h, Q x) (he : Q e) : ∀ x ∈ h ++ [e], Q x := by
  intro x hx
  rcases List.mem_append.mp hx with hx | hx
  · exact hh x hx
  · rw [List.mem_singleton.mp hx]; exact he

theorem mem_app {h k : Hist} {Q : Ev → Prop} (hh : ∀ x ∈ h, Q x) (he : ∀ x ∈ k, Q x) : ∀ x ∈ h ++ k, Q x := by
  intro x hx
  rcases List.mem_append.mp hx with hx | hx
  · exact hh x hx
  · exact he x hx

theorem NewEvents.all {P : Ev → Prop} {s s' : St} (h : NewEvents P s s') (hs : ∀ e ∈ s.hist, P e) : ∀ e ∈ s'.hist, P e := by
  obtain ⟨evs, h1, h2⟩ := h
  rw [h1]
  exact mem_app hs h2

theorem closing_end (c : Client) : ∀ e ∈ closingEvs c, EndEv e := by
  intro e he
  unfold closingEvs at he
  rcases List.mem_append.mp he with he | he
  · split at he
    · simp at he
    · split at he
      · rw [List.mem_singleton.mp he]; trivial
      · simp at he
  · split at he
    · rw [List.mem_singleton.mp he]; trivial
    · simp at he

theorem closedClient_kind (c : Client) : (closedClient c).kind = c.kind := by unfold closedClient; split <;> rfl
theorem closedClient_ptrRaw (c : Client) : (closedClient c).ptrRaw = c.ptrRaw := by unfold closedClient; split <;> rfl
theorem closedClient_sock (c : Client) : (closedClient c).sock = 0 := by unfold closedClient; split <;> rfl
theorem closedClient_isConnected (c : Client) : (closedClient c).isConnected = false := by unfold closedClient; split <;> rfl
theorem closedClient_bio {c : Client} (h : c.kind ≠ .smtp) : (closedClient c).bio = none := by unfold closedClient; rw [if_neg h]

theorem Discreet.same {P : Bytes → Prop} {s : St} {c : Client} {m : List SessionOp} (h : Discreet P s) (hc : SameConn s.client c) :
    Discreet P { s with client := c, mem := m } := by
  unfold SameConn at hc
  rw [hc]
  exact ⟨h.kind, h.ptrRaw, h.hist⟩

theorem discreet_guard (P : Bytes → Prop) : GuardInv (CmdOk P) (Discreet P) where
  quitOk := nofun
  client := fun _ _ _ hc h => h.same hc
  quiet := fun _ _ he h => ⟨h.kind, h.ptrRaw, mem_snoc h.hist (quiet_clearCmd (deaf_quiet he))⟩
  recvRaw := fun _ _ h => ⟨h.kind, h.ptrRaw, mem_snoc h.hist trivial⟩
  recvTls := fun _ _ _ _ h => ⟨h.kind, h.ptrRaw, mem_snoc h.hist trivial⟩
  send := by
    intro s k c d r hs h
    refine ⟨h.kind, h.ptrRaw, mem_snoc h.hist ?_⟩
    cases hs with
    | clear hd _ =>
      unfold ClearCmd
      split
      · next e => cases e; exact hd rfl
      · trivial
    | tls hd _ _ =>
      unfold ClearCmd
      split
      · next e => cases e
      · trivial
    | upgrade hd _ _ => exact hd rfl
  closed := fun s h => ⟨by rw [closedClient_kind]; exact h.kind, by rw [closedClient_ptrRaw]; exact h.ptrRaw,
    mem_app h.hist fun e he => end_clearCmd (closing_end _ e he)⟩

/-- The same while the connection is being established. -/
structure Est (I : St → Prop) (k : Kind) (s : St) : Prop where
  inv : I s
  isConnected : s.client.isConnected = false
  kind : s.client.kind = k

theorem est_guard {D : SendKind → Bytes → Prop} {I : St → Prop} (h : GuardInv D I) (k : Kind) : GuardInv D (Est I k) where
  quitOk := h.quitOk
  client := fun s c m hc hi => ⟨h.client s c m hc hi.1, by unfold SameConn at hc; rw [hc]; exact hi.2, by unfold SameConn at hc; rw [hc]; exact hi.3⟩
  quiet := fun s e he hi => ⟨h.quiet s e he hi.1, hi.2, hi.3⟩
  recvRaw := fun s r hi => ⟨h.recvRaw s r hi.1, hi.2, hi.3⟩
  recvTls := fun s b r hb hi => ⟨h.recvTls s b r hb hi.1, hi.2, hi.3⟩
  send := fun s k c d r hs hi => ⟨h.send s k c d r hs hi.1, hi.2, hi.3⟩
  closed := fun s hi => ⟨h.closed s hi.1, closedClient_isConnected _, (closedClient_kind _).trans hi.3⟩

theorem Prepared.discreet {P : Bytes → Prop} {s s' : St} (h : Prepared s s') (hd : Discreet P s) : Discreet P s' :=
  ⟨by rw [h.kind]; exact hd.kind, by rw [h.ptrRaw]; exact hd.ptrRaw, (h.events.mono fun _ => prep_clearCmd).all hd.hist⟩

/-- The channel survives a command that was answered. -/
theorem sendFb_bio (d e t) (s : St) (he : e ≠ 0) (hp : s.client.ptrRaw = false) :
    wp env (sendFb d e t) (fun code s' => SameConn s.client s'.client ∨ code = e ∨ code = t) (fun _ _ => True) s := by
  have h := sendPtrFb_out (env := env) d e t s he
  unfold sendPtrFb at h
  rw [wp_bind, wp_gets, wp_ite] at h
  refine wp_mono (h.2 (by simp [hp])) ?_ (fun _ _ _ => trivial)
  rintro code s' (⟨n, t', h, _⟩ | ⟨hc, _⟩)
  · exact .inl h.1
  · exact .inr hc

theorem sendPtrFb_bio (d e t) (s : St) (he : e ≠ 0) :
    wp env (sendPtrFb d e t) (fun code s' => SameConn s.client s'.client ∨ code = e ∨ code = t) (fun _ _ => True) s := by
  refine wp_mono (sendPtrFb_out (env := env) d e t s he) ?_ (fun _ _ _ => trivial)
  rintro code s' (⟨n, t', h, _⟩ | ⟨hc, _⟩)
  · exact .inl h.1
  · exact .inr hc

theorem identify_bio (e t : Int) (he : e < 0) (ht : t < 0) (s : St) (hp : s.client.ptrRaw = false) :
    wp env (identify e t) (fun code s' => code = 250 → SameConn s.client s'.client) (fun _ _ => True) s := by
  unfold identify
  rw [wp_bind]
  refine wp_mono ((addLog_steps (R := Quiet) ehloCmd _).run s) ?_ (fun _ _ _ => trivial)
  intro _ s1 h1
  rw [wp_bind]
  have hp1 : s1.client.ptrRaw = false := by have := h1.1; unfold SameConn at this; rw [this]; exact hp
  refine wp_mono (sendFb_bio ehloCmd e t s1 (by omega) hp1) ?_ (fun _ _ h => h)
  intro code s2 h2
  rw [wp_ite]
  refine ⟨fun hn h => absurd h hn, fun hc => ?_⟩
  have h2 : SameConn s1.client s2.client := by rcases h2 with h | h | h <;> first | exact h | omega
  have : Steps env Quiet (do
      let first ← lastResponseText
      match ← ehloLoop t (← M.env (·.fuel)) first with
      | .inl e => pure e
      | .inr options => do
        setAuthOptions options
        pure 250 : M Int) := by
    steps [lastResponseText_steps, ehloLoop_steps, setAuthOptions_steps]
  exact wp_mono (this.run s2) (fun _ _ h _ => (h1.1.trans h2).trans h.1) (fun _ _ _ => trivial)

/-- AUTH goes through the TLS channel. -/
theorem sendPtrFb_private {P : Bytes → Prop} (d e t) (s : St) (he : e ≠ 0) (hd : Discreet P s) (hb : s.client.bio ≠ none) :
    wp env (sendPtrFb d e t) (fun code s' => Discreet P s' ∧ (SameConn s.client s'.client ∨ code = e ∨ code = t)) (fun _ s' => Discreet P s') s := by
  have hch : ∀ r, ClearCmd P (.send .cmd (chan s.client) (cstr d) r) := by
    intro r
    unfold chan
    rw [hd.ptrRaw]
    have : (s.client.kind == .smtp) = false := by simpa using hd.kind
    simp only [this, Bool.or_false, Bool.false_eq_true, if_false]
    cases hb' : s.client.bio with
    | none => exact absurd hb' hb
    | some b => trivial
  have over : ∀ s', Over d s s' → Discreet P s' := by
    rintro s' ⟨r, hc, hn⟩
    have hk : s'.client.kind = s.client.kind := by unfold SameCfg at hc; rw [hc]; rfl
    have hp : s'.client.ptrRaw = s.client.ptrRaw := by unfold SameCfg at hc; rw [hc]; rfl
    exact ⟨by rw [hk]; exact hd.kind, by rw [hp]; exact hd.ptrRaw, (hn.mono fun _ => end_clearCmd).all (mem_snoc hd.hist (hch r))⟩
  refine wp_mono (sendPtrFb_out (env := env) d e t s he) ?_ (fun _ s' h => over s' h)
  rintro code s' (⟨n, t', h, _⟩ | ⟨hc, _, ho⟩)
  · refine ⟨?_, .inl h.1⟩
    obtain ⟨hc, evs, h1, h2, _⟩ := h
    have h3 : NewEvents (ClearCmd P) (St.snoc s (.send .cmd (chan s.client) (cstr d) (.sent n))) s' := ⟨evs, h1, fun e he => quiet_clearCmd (h2 e he)⟩
    have hk : s'.client.kind = s.client.kind := by unfold SameConn at hc; rw [hc]; rfl
    have hp : s'.client.ptrRaw = s.client.ptrRaw := by unfold SameConn at hc; rw [hc]; rfl
    exact ⟨by rw [hk]; exact hd.kind, by rw [hp]; exact hd.ptrRaw, h3.all (mem_snoc hd.hist (hch _))⟩
  · exact ⟨over s' ho, .inr hc⟩

theorem addLog_private {P : Bytes → Prop} (i p) (s : St) (hd : Discreet P s) (hb : s.client.bio ≠ none) {Q : Unit → St → Prop}
    (hq : ∀ s', Discreet P s' → s'.client.bio ≠ none → Q () s') :
    wp env (addLog i p) Q (fun _ s' => Discreet P s') s := by
  haveI := (discreet_guard P).guarded
  refine wp_mono (wp_and (Pres.use (addLog_steps (R := Pres (Discreet P)) i p) hd) ((addLog_steps (R := Quiet) i p).run s)) ?_ (fun _ _ h => h.1)
  rintro _ s' ⟨h, h'⟩
  refine hq s' h ?_
  have := h'.1; unfold SameConn at this; rw [this]; exact hb

theorem authenticateIfNeeded_private {P : Bytes → Prop} (s : St) (hd : Discreet P s) (hb : s.client.bio ≠ none) :
    wp env authenticateIfNeeded (fun _ => Discreet P) (fun _ => Discreet P) s := by
  have one : ∀ (d : Bytes) (s : St), Discreet P s → s.client.bio ≠ none →
      wp env (sendPtrFb d (-81) (-82)) (fun _ => Discreet P) (fun _ => Discreet P) s := fun d s hd hb =>
    wp_mono (sendPtrFb_private d _ _ s (by decide) hd hb) (fun _ _ h => h.1) (fun _ _ h => h)
  have keepBio : ∀ {s s' : St}, SameConn s.client s'.client → s.client.bio ≠ none → s'.client.bio ≠ none := by
    intro s s' h hb; unfold SameConn at h; rw [h]; exact hb
  have client : wp env authenticateClient (fun _ => Discreet P) (fun _ => Discreet P) s := by
    unfold authenticateClient
    rw [wp_bind, wp_gets]
    cases s.client.credential with
    | none => exact hd
    | some c =>
      dsimp only
      rw [wp_bind, wp_gets]
      cases s.client.authOptions with
      | none => exact hd
      | some o =>
        dsimp only
        simp only [wp_ite]
        refine ⟨fun _ => ?_, fun _ => ⟨fun _ => ?_, fun _ => ⟨fun _ => ?_, fun _ => hd⟩⟩⟩
        · unfold authPlainM
          rw [wp_bind]
          exact addLog_private _ _ s hd hb fun s1 hd hb => one _ s1 hd hb
        · unfold authLoginM
          rw [wp_bind]
          refine addLog_private _ _ s hd hb fun s1 hd hb => ?_
          rw [wp_bind]
          refine wp_mono (sendPtrFb_private _ _ _ s1 (by decide) hd hb) ?_ (fun _ _ h => h)
          rintro code s2 ⟨hd2, h2⟩
          rw [wp_ite]
          refine ⟨fun _ => hd2, fun hc => ?_⟩
          have h2 : SameConn s1.client s2.client := by rcases h2 with h | h | h <;> first | exact h | omega
          rw [wp_bind]
          refine wp_mono (sendPtrFb_private _ _ _ s2 (by decide) hd2 (keepBio h2 hb)) ?_ (fun _ _ h => h)
          rintro code s3 ⟨hd3, h3⟩
          rw [wp_ite]
          refine ⟨fun _ => hd3, fun hc => ?_⟩
          have h3 : SameConn s2.client s3.client := by rcases h3 with h | h | h <;> first | exact h | omega
          exact one _ s3 hd3 (keepBio (h2.trans h3) hb)
        · unfold authXOAuth2M
          rw [wp_bind]
          exact addLog_private _ _ s hd hb fun s1 hd hb => one _ s1 hd hb
  unfold authenticateIfNeeded
  rw [wp_bind, wp_gets, wp_ite]
  refine ⟨fun _ => ?_, fun _ => hd⟩
  rw [wp_bind]
  refine wp_mono client ?_ (fun _ _ h => h)
  intro code s1 h1
  rw [wp_ite]
  exact ⟨fun _ => h1, fun _ => h1⟩

end Verif.Proofs
