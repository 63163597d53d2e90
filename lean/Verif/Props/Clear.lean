import Verif.Proofs.Clear
import Verif.Props.Welcome
import Verif.Props.Downgrade
import Verif.Props.StartTls
import Verif.Props.Connect
import Verif.Props.Setup
/-!
# C78: in clear only if the server did not offer STARTTLS
-/
namespace Verif.Props
open Verif Verif.Model Verif.Spec Verif.Proofs

variable {env : Env}

/-- What may always be said in clear. -/
def SmallTalk : Ev → Prop
  | .send k (.raw fd) d _ => fd = 0 ∨ k = .quit ∨ d = b!"ehlo localhost\r\n" ∨ d = b!"STARTTLS\r\n"
  | _ => True

theorem noSend_small {e : Ev} (h : ¬ IsSend e) : SmallTalk e := by
  unfold SmallTalk; split
  · exact absurd trivial h
  · trivial

theorem zero_small {e : Ev} (h : ClearToZero e) : SmallTalk e := by
  unfold SmallTalk; split
  · exact .inl h
  · trivial

theorem end_small {e : Ev} (h : EndEv e) : SmallTalk e := by
  unfold SmallTalk; split
  · exact .inr (.inl h.1)
  · trivial

/-- Nothing but small talk so far. -/
def Small (h0 : Hist) (s : St) : Prop := ∃ evs, s.hist = h0 ++ evs ∧ ∀ e ∈ evs, SmallTalk e

theorem Small.add {h0 : Hist} {s s' : St} (h : Small h0 s) (h' : NewEvents SmallTalk s s') : Small h0 s' := by
  obtain ⟨a, h1, h2⟩ := h
  obtain ⟨b, h3, h4⟩ := h'
  exact ⟨a ++ b, by rw [h3, h1, List.append_assoc], mem_app h2 h4⟩

/-- … and not switched to the base send commands. -/
def SmallTls (h0 : Hist) (s : St) : Prop := Small h0 s ∧ s.client.ptrRaw = false

def HelloOrQuit (k : SendKind) (d : Bytes) : Prop := k = .quit ∧ d = quitCmd ∨ d = ehloCmd

theorem smallTls_guard (h0 : Hist) : GuardInv HelloOrQuit (SmallTls h0) where
  quitOk := .inl ⟨rfl, rfl⟩
  client := fun s c m hc h => ⟨h.1, by unfold SameConn at hc; rw [hc]; exact h.2⟩
  quiet := fun s e he h => ⟨h.1.add (.one (noSend_small (quiet_noSend (deaf_quiet he)))), h.2⟩
  recvRaw := fun s r h => ⟨h.1.add (.one trivial), h.2⟩
  recvTls := fun s b r hb h => ⟨h.1.add (.one trivial), h.2⟩
  send := by
    intro s k c d r hs h
    refine ⟨h.1.add (.one ?_), h.2⟩
    cases hs with
    | clear hd _ =>
      rcases hd with hd | hd
      · exact .inr (.inl hd.1)
      · rw [hd]; exact .inr (.inr (.inl rfl))
    | tls _ _ _ => trivial
    | upgrade _ _ _ => exact .inr (.inr (.inr (by decide)))
  closed := fun s h => ⟨h.1.add ⟨_, rfl, fun e he => end_small (closing_end _ e he)⟩, (closedClient_ptrRaw _).trans h.2⟩

theorem After.small {h0 h1 : Hist} {s : St} (h : After h1 s) {evs : Hist} (e : h1 = h0 ++ evs) (he : ∀ e ∈ evs, SmallTalk e) : Small h0 s := by
  obtain ⟨b, hb, hz⟩ := h.hist
  exact ⟨evs ++ b, by rw [hb, e, List.append_assoc], mem_app he fun e he => zero_small (hz e he)⟩

/-- The connection to which the mail goes in clear. -/
def Declined (h0 : Hist) (name : Bytes) (port : Nat) (s : St) : Prop :=
  s.client.kind = .opportunistic ∧ s.client.bio = none ∧ ∃ evs, s.hist = h0 ++ evs ∧ (∀ e ∈ evs, SmallTalk e) ∧
    NotOffered name port s.client.sock evs

theorem not_offered {t : Bytes} (h : isStartTLSSupported (some t) = .ok false) : ¬ Occurs b!"250-STARTTLS" t := by
  intro ho
  have hf := findSub_occurs ho
  unfold isStartTLSSupported at h
  dsimp only at h
  split at h
  · next h0 =>
    obtain ⟨a, b, rfl⟩ := ho
    simp at h0
  · split at h
    · simp at h
    · next r hr =>
      split at h
      · next hn =>
        have ht := trim_ok hr
        have : r = [] := by simpa using hn
        subst this
        obtain ⟨a, b, rfl⟩ := ho
        obtain ⟨⟨x, y, e, hx, hy⟩, _, _⟩ := ht
        have hm : (50 : UInt8) ∈ x ++ [] ++ y := by rw [← e]; simp
        have : AllWs (x ++ [] ++ y) := by
          intro c hc
          simp only [List.append_nil, List.mem_append] at hc
          rcases hc with hc | hc
          · exact hx c hc
          · exact hy c hc
        exact absurd (this 50 hm) (by decide)
      · simp [hf] at h

theorem establish_declined (s : St) (hk : s.client.kind = .opportunistic) (hc : s.client.isConnected = false) (hb : s.client.bio = none)
    (hp : s.client.ptrRaw = false) :
    wp env establish (fun code s' => Small s.hist s' ∧ (code = 0 → ZeroRead s s' ∨ After s'.hist s' ∨
      ∃ name, s.client.serverName = some name ∧ Declined s.hist name (s.client.port % 65536) s')) (fun _ => Small s.hist) s := by
  haveI := (smallTls_guard s.hist).guarded
  haveI := (est_guard (smallTls_guard s.hist) .opportunistic).guarded
  have b0 : Small s.hist s := ⟨[], by simp, by simp⟩
  unfold establish
  rw [wp_bind]
  have init : wp env initializeSession (fun code s1 => Prepared s s1 ∧ s1.client.bio = none ∧ (code = 0 → ∃ (name : Bytes) (fd : Nat) (evs : Hist),
      s.client.serverName = some name ∧ s1.hist = s.hist ++ evs ∧ s1.client.sock = fd ∧ OpenedTo name (s.client.port % 65536) fd evs))
      (fun _ s1 => Prepared s s1) s := by
    have h1 := initializeSession_prep (env := env) |>.run s
    have h2 := initializeSession_bio (env := env) |>.run s
    unfold wp at h1 h2 ⊢
    cases he : initializeSession env s with
    | mk r s1 =>
      rw [he] at h1 h2
      cases r with
      | stop e => exact h1 hc
      | ok code =>
        refine ⟨h1 hc, h2.trans hb, fun h0 => ?_⟩
        subst h0
        obtain ⟨name, fd, evs, x1, x2, x3, x4, _⟩ := C52_session_needs_connection env s s1 he
        exact ⟨name, fd, evs, x1, x2, x3, x4⟩
  refine wp_mono init ?_ (fun _ _ h1 => b0.add (h1.events.mono fun _ h => noSend_small (prep_noSend h)))
  rintro code s1 ⟨h1, hb1, hopen⟩
  have b1 := b0.add (h1.events.mono fun _ h => noSend_small (prep_noSend h))
  have hk1 := h1.kind.trans hk
  have hp1 := h1.ptrRaw.trans hp
  rw [wp_ite]
  refine ⟨fun hn => ⟨b1, fun h0 => absurd h0 hn⟩, fun hz => ?_⟩
  obtain ⟨name, fd, opening, hname, hh1, hsock, hopening⟩ := hopen (Decidable.not_not.mp hz)
  have x1 : Ext s s1 := ⟨opening, hh1⟩
  rw [wp_bind, wp_gets, hk1]
  dsimp only
  unfold establishGreeted
  rw [wp_bind]
  refine wp_mono (wp_and (Pres.use (gd_checkServerGreetings (D := HelloOrQuit) (R := Pres (Est (SmallTls s.hist) .opportunistic))) ⟨⟨b1, hp1⟩, h1.isConnected, hk1⟩)
    (post_and (checkServerGreetings_zero s1) (checkServerGreetings_took s1)))
    ?_ (fun _ _ h => h.1.1.1)
  rintro code s2 ⟨h2, ⟨z2, x2⟩, c2, t2⟩
  rw [wp_ite]
  refine ⟨fun _ => ⟨h2.1.1, fun h0 => .inl ((z2 h0).after x1)⟩, fun h => ?_⟩
  obtain ⟨gr, hg, rg⟩ := t2 (Decidable.not_not.mp h)
  unfold hailChan at rg
  rw [if_neg (by rw [hk1]; decide)] at rg
  unfold sendServerIdentification
  rw [wp_bind]
  refine wp_mono (wp_and (Pres.use (gd_identify (D := HelloOrQuit) (R := Pres (Est (SmallTls s.hist) .opportunistic)) (.inr rfl) (-20) (-21)) h2)
    (post_and (identify_zero (by decide) (by decide) s2)
      (identify_last (-20) (-21) (by decide) (by decide) (by decide) s2 (by rw [h2.3]; decide) (c2.bio.trans hb1))))
    ?_ (fun _ _ h => h.1.1.1)
  rintro code s3 ⟨h3, ⟨z3, x3⟩, t3⟩
  rw [wp_ite]
  refine ⟨fun _ => ⟨h3.1.1, fun h0 => .inl ((z3 h0).after (x1.trans x2))⟩, fun h => ?_⟩
  obtain ⟨c3, n, reply, hh3, rr, hl⟩ := t3 (Decidable.not_not.mp h)
  rw [c2.sock] at hh3 rr
  have x3 := (x1.trans x2).trans x3
  unfold establishOpportunistic
  rw [wp_bind, wp_gets]
  cases hst : isStartTLSSupported s3.client.lastResponse with
  | error u => exact h3.1.1
  | ok b =>
    cases b with
    | false =>
      rw [hl] at hst
      have hno := not_offered hst
      dsimp only
      rw [wp_bind]
      refine wp_mono (wp_and (Pres.use (addLog_steps (R := Pres (Est (SmallTls s.hist) .opportunistic)) _ _) h3) (addLog_keeps _ _ s3)) ?_ (fun _ _ h => h.1.1.1)
      rintro _ s4 ⟨h4, l, e4⟩
      unfold setKeepUsingBase
      rw [wp_bind, wp_modify]
      refine ⟨h4.1.1, fun _ => .inr (.inr ⟨name, hname, ?_⟩)⟩
      obtain ⟨evs, he, hs⟩ := h4.1.1
      refine ⟨h4.3, ?_, evs, he, hs, ?_⟩
      · show s4.client.bio = none
        rw [e4]
        exact (c3.bio.trans c2.bio).trans hb1
      · show NotOffered _ _ s4.client.sock evs
        have hsk : s4.client.sock = s1.client.sock := by rw [e4]; exact c3.sock.trans c2.sock
        rw [hsk]
        refine ⟨fd, opening, gr, reply, [], n, hsock.symm, ?_, hopening, rg, rr, hno, by simp⟩
        have : s4.hist = s3.hist := by rw [e4]
        rw [this, hh3, hg, hh1] at he
        rw [List.append_nil, ← List.append_cancel_left (he.symm.trans (by simp : _ = s.hist ++ (opening ++ gr ++ _)))]
    | true =>
      dsimp only
      rw [wp_bind]
      refine wp_mono (wp_and (Pres.use (addLog_steps (R := Pres (Est (SmallTls s.hist) .opportunistic)) _ _) h3) (addLog_keeps _ _ s3)) ?_ (fun _ _ h => h.1.1.1)
      rintro _ s4 ⟨h4, l4, e4⟩
      rw [wp_bind]
      unfold upgradeToSecureConnection
      rw [wp_bind]
      refine wp_mono (wp_and (Pres.use (addLog_steps (R := Pres (Est (SmallTls s.hist) .opportunistic)) _ _) h4) (addLog_keeps _ _ s4)) ?_ (fun _ _ h => h.1.1.1)
      rintro _ s5 ⟨h5, l5, e5⟩
      obtain ⟨a, ha, hn⟩ := h5.1.1
      have x5 : Ext s s5 := x3.trans ⟨[], by rw [e5, e4]; simp⟩
      have muted : ∀ {r s'}, Muted (St.snoc s5 (.send .cmd (.raw s5.client.sock) (cstr startTlsCmd) r)) s' → Small s.hist s' := by
        intro r s' h
        obtain ⟨b, hb, hbs⟩ := h.events
        refine ⟨a ++ .send .cmd (.raw s5.client.sock) (cstr startTlsCmd) r :: b, by rw [hb]; simp only [St.snoc, ha, List.append_assoc]; rfl,
          mem_app hn fun e he => ?_⟩
        rcases List.mem_cons.mp he with rfl | he
        · exact .inr (.inr (.inr (by decide)))
        · exact noSend_small (hbs e he)
      refine wp_mono (wp_and (sendRawFb_muted startTlsCmd (-30) (-31) s5 (by decide) h5.2) (sendRawFb_zero (by decide) (by decide) s5))
        ?_ (fun _ _ ⟨⟨r, h⟩, _⟩ => muted h)
      rintro code s6 ⟨⟨r, h6, _⟩, z6, x6⟩
      rw [wp_ite]
      refine ⟨fun _ => ⟨muted h6, fun h0 => .inl ((z6 h0).after x5)⟩, fun _ => ?_⟩
      rw [wp_bind]
      refine wp_mono (wp_and (startTLSNegotiation_prep.run s6) (startTLSNegotiation_ok s6)) ?_
        (fun _ _ h => muted (h6.trans (Prepared.muted (h.1 h6.isConnected))))
      rintro code s7 ⟨h7, k7⟩
      have h7 := h6.trans (Prepared.muted (h7 h6.isConnected))
      rw [wp_ite]
      refine ⟨fun hn0 => ⟨muted h7, fun h0 => absurd h0 hn0⟩, fun h0 => ?_⟩
      obtain ⟨bio, hb, _⟩ := k7 (Decidable.not_not.mp h0)
      haveI := (after_guard s7.hist).guarded
      have a7 : After s7.hist s7 := ⟨by rw [h7.kind]; show s5.client.kind ≠ _; rw [h5.3]; decide, by rw [h7.ptrRaw]; exact h5.1.2,
        fun h => by rw [hb] at h; simp at h, [], by simp, by simp⟩
      obtain ⟨a', ha', hn'⟩ := muted h7
      refine wp_mono (Pres.use (?_ : Steps env (Pres (After s7.hist)) _) a7)
        (fun _ s' h => ⟨h.small ha' hn', fun _ => .inr (.inl ⟨h.kind, h.ptrRaw, h.bio, [], by simp, by simp⟩)⟩) (fun _ _ h => h.small ha' hn')
      unfold getServerSecureIdentification
      have g2 := gd_identify (D := QuitIsQuit) (env := env) (R := Pres (After s7.hist)) nofun
      have g3 := gd_authenticateIfNeeded (D := QuitIsQuit) (env := env) (R := Pres (After s7.hist)) (fun _ => nofun)
      steps [g2, addLog_steps]

/-! ### The mail in clear -/

/-- All that was sent in clear was sent when it was allowed to; the socket, if there is one, is one without the offer. -/
structure Open (h0 : Hist) (name : Bytes) (port : Nat) (s : St) : Prop where
  kind : s.client.kind = .opportunistic
  bio : s.client.bio = none
  hist : ∃ evs, s.hist = h0 ++ evs ∧ ClearOnlyIfNotOffered name port evs ∧ (s.client.sock ≠ 0 → NotOffered name port s.client.sock evs)

theorem notOffered_more {name : Bytes} {port : Nat} {fd : Int} {a b : Hist} (h : NotOffered name port fd a) (hb : .close fd ∉ b) :
    NotOffered name port fd (a ++ b) := by
  obtain ⟨v, o, g, reply, rest, n, h1, rfl, h3, h4, h5, h6, h7⟩ := h
  exact ⟨v, o, g, reply, rest ++ b, n, h1, by simp, h3, h4, h5, h6, by simp [h7, hb]⟩

theorem allowed_snoc {name : Bytes} {port : Nat} {evs : Hist} {e : Ev} (h : ClearOnlyIfNotOffered name port evs)
    (he : ∀ k fd d r, e = .send k (.raw fd) d r → fd ≠ 0 → k ≠ .quit → d = b!"ehlo localhost\r\n" ∨ d = b!"STARTTLS\r\n" ∨ NotOffered name port fd evs) :
    ClearOnlyIfNotOffered name port (evs ++ [e]) := by
  intro a k fd d r b heq h0 hq
  rcases List.eq_nil_or_concat b with rfl | ⟨b', x, rfl⟩
  · obtain ⟨h1, h2⟩ := List.append_inj' heq rfl
    subst h1
    exact he k fd d r (by simpa using h2) h0 hq
  · have : evs ++ [e] = (a ++ .send k (.raw fd) d r :: b') ++ [x] := by rw [heq]; simp
    obtain ⟨h1, _⟩ := List.append_inj' this rfl
    exact h a k fd d r b' h1 h0 hq

theorem allowed_add {name : Bytes} {port : Nat} {evs more : Hist} (h : ClearOnlyIfNotOffered name port evs)
    (he : ∀ e ∈ more, SmallTalk e) : ClearOnlyIfNotOffered name port (evs ++ more) := by
  induction more generalizing evs with
  | nil => simpa using h
  | cons e more ih =>
    have := ih (evs := evs ++ [e]) (allowed_snoc h fun k fd d r hx h0 hq => ?_) (fun x hx => he x (by simp [hx]))
    · simpa using this
    · have := he e (by simp)
      subst hx
      rcases this with h | h | h | h
      · exact absurd h h0
      · exact absurd h hq
      · exact .inl h
      · exact .inr (.inl h)

theorem Open.event {h0 : Hist} {name : Bytes} {port : Nat} {s : St} {e : Ev} (h : Open h0 name port s) (he : SmallTalk e) (hc : ∀ fd, e ≠ .close fd) :
    Open h0 name port (St.snoc s e) := by
  obtain ⟨evs, h1, h2, h3⟩ := h.hist
  refine ⟨h.kind, h.bio, evs ++ [e], by simp [St.snoc, h1], allowed_add h2 (by simpa using he), fun hs => notOffered_more (h3 hs) ?_⟩
  simp only [List.mem_singleton]
  exact fun h => hc _ h.symm

theorem open_guard (h0 : Hist) (name : Bytes) (port : Nat) : GuardInv QuitIsQuit (Open h0 name port) where
  quitOk := fun _ => rfl
  client := fun s c m hc h => by
    unfold SameConn at hc
    exact ⟨by rw [hc]; exact h.kind, by rw [hc]; exact h.bio, by rw [hc]; exact h.hist⟩
  quiet := fun s e he h => h.event (noSend_small (quiet_noSend (deaf_quiet he))) (by rintro fd rfl; exact absurd he id)
  recvRaw := fun s r h => h.event trivial nofun
  recvTls := fun s b r hb h => h.event trivial nofun
  send := by
    intro s k c d r hs h
    cases hs with
    | clear _ _ =>
      obtain ⟨evs, h1, h2, h3⟩ := h.hist
      refine ⟨h.kind, h.bio, evs ++ [_], by simp [St.snoc, h1]; rfl, allowed_snoc h2 ?_, fun hs => notOffered_more (h3 hs) (by simp)⟩
      intro k' fd' d' r' e hz _
      cases e
      exact .inr (.inr (h3 hz))
    | tls _ _ hb => rw [h.bio] at hb; simp at hb
    | upgrade _ hq _ => exact absurd (hq rfl) (by decide)
  closed := fun s h => by
    obtain ⟨evs, h1, h2, h3⟩ := h.hist
    refine ⟨by rw [closedClient_kind]; exact h.kind, closedClient_bio (by rw [h.kind]; decide), evs ++ closingEvs s.client, by rw [h1, List.append_assoc],
      allowed_add h2 fun e he => end_small (closing_end _ e he), fun hz => absurd (closedClient_sock _) hz⟩

theorem small_allowed {name : Bytes} {port : Nat} {evs : Hist} (h : ∀ e ∈ evs, SmallTalk e) : ClearOnlyIfNotOffered name port evs := by
  have := allowed_add (name := name) (port := port) (evs := []) (fun a k fd d r b h => by simp at h) h
  simpa using this

/-- **C78, partial.** An opportunistic client that is not connected, has no TLS connection left over and is not set to the base send commands sends a mail,
whatever the server and the network do. Whatever it sends in clear on a connection – apart from EHLO, STARTTLS and QUIT – it sends after it opened this
connection to its server, was greeted there with 220 and said EHLO there, and the answer, a single reply with the code 250, does not offer STARTTLS.
Missing, and refuted below: a left-over TLS connection, the base send commands, an offer in the last line (`250 STARTTLS`), and replies that read as 0. -/
theorem C78_clear_only_if_not_offered_partial (env : Env) (m : Message) (s : St) (name : Bytes) (hname : s.client.serverName = some name)
    (hk : s.client.kind = .opportunistic) (hc : s.client.isConnected = false) (hb : s.client.bio = none) (hp : s.client.ptrRaw = false) :
    ∃ evs, (sendMail m env s).2.hist = s.hist ++ evs ∧ (ReplyIn evs 0 ∨ ClearOnlyIfNotOffered name (s.client.port % 65536) evs) := by
  have key : wp env (sendMail m) (fun _ s' => ZeroRead s s' ∨ ∃ evs, s'.hist = s.hist ++ evs ∧ ClearOnlyIfNotOffered name (s.client.port % 65536) evs)
      (fun _ s' => ZeroRead s s' ∨ ∃ evs, s'.hist = s.hist ++ evs ∧ ClearOnlyIfNotOffered name (s.client.port % 65536) evs) s := by
    have small : ∀ {s'}, Small s.hist s' → ∃ evs, s'.hist = s.hist ++ evs ∧ ClearOnlyIfNotOffered name (s.client.port % 65536) evs := by
      rintro s' ⟨evs, h1, h2⟩
      exact ⟨evs, h1, small_allowed h2⟩
    unfold sendMail
    rw [wp_bind, wp_gets, wp_ite]
    refine ⟨fun h => absurd (by simpa using h) (by rw [hc]; decide), fun _ => ?_⟩
    rw [wp_bind]
    refine wp_mono (establish_declined s hk hc hb hp) ?_ (fun _ _ h => .inr (small h))
    rintro code s1 ⟨h1, h2⟩
    rw [wp_ite]
    refine ⟨fun _ => .inr (small h1), fun h0 => ?_⟩
    rcases h2 (Decidable.not_not.mp h0) with h2 | h2 | ⟨name', hn', h2⟩
    · exact wp_mono ((sendMailConnected_steps (R := Ext) m).run s1) (fun _ _ h => .inl (h2.before h)) (fun _ _ h => .inl (h2.before h))
    · have g2 := after_guard s1.hist
      haveI := g2.guarded
      haveI := g2.mail (fun _ h => ⟨h.kind, h.ptrRaw, h.bio, h.hist⟩)
      obtain ⟨evs, he, hs⟩ := h1
      exact wp_mono (Pres.use (gd_sendMailConnected (D := QuitIsQuit) (R := Pres (After _)) m ⟨fun _ => nofun, fun _ _ => nofun, fun _ _ => nofun, nofun, nofun⟩) h2)
        (fun _ _ h => .inr (small (h.small he hs))) (fun _ _ h => .inr (small (h.small he hs)))
    · obtain rfl : name = name' := by rw [hname] at hn'; exact Option.some.inj hn'
      have g2 := open_guard s.hist name (s.client.port % 65536)
      haveI := g2.guarded
      haveI := g2.mail (fun _ h => ⟨h.kind, h.bio, h.hist⟩)
      obtain ⟨k2, b2, evs, he, hs, hno⟩ := h2
      have o1 : Open s.hist name (s.client.port % 65536) s1 := ⟨k2, b2, evs, he, small_allowed hs, fun _ => hno⟩
      have fin : ∀ {s'}, Open s.hist name (s.client.port % 65536) s' → ∃ evs, s'.hist = s.hist ++ evs ∧ ClearOnlyIfNotOffered name (s.client.port % 65536) evs := by
        intro s' h
        obtain ⟨evs, h1, h2, _⟩ := h.hist
        exact ⟨evs, h1, h2⟩
      exact wp_mono (Pres.use (gd_sendMailConnected (D := QuitIsQuit) (R := Pres (Open _ _ _)) m ⟨fun _ => nofun, fun _ _ => nofun, fun _ _ => nofun, nofun, nofun⟩) o1)
        (fun _ _ h => .inr (fin h)) (fun _ _ h => .inr (fin h))
  rcases state_of key with ⟨evs, h1, h2⟩ | ⟨evs, h1, h2⟩
  · exact ⟨evs, h1, .inl h2⟩
  · exact ⟨evs, h1, .inr h2⟩

/-! ### What is missing -/

/-- What was sent (but QUIT), on which channel, without the content. -/
def clearSaid (h : Hist) : List (Chan × Bytes) := h.filterMap fun e => match e with
  | .send .cmd c d _ => some (c, d)
  | _ => none

/-- The same server twice: it offers STARTTLS in clear and, as it must, not over TLS; it refuses the login and later greets the second connection. -/
def refusedThenMail : Env := numbered (scripted
  ([.data b!"220 hi\r\n"] ++ clear [b!"250-STARTTLS\r\n250 ok\r\n", b!"220 go\r\n"] ++ [.data b!"250-AUTH PLAIN\r\n250 ok\r\n", .data b!"535 no\r\n"] ++
   [.data b!"220 hi\r\n", .data b!"250-AUTH PLAIN\r\n250 ok\r\n"] ++ clear [b!"250 ok\r\n", b!"250 ok\r\n", b!"354 go\r\n", b!"250 ok\r\n"]))

/-- **C78, refuted** after a refused login: the client keeps the TLS connection of the first session. In the second session (descriptor 6) it says EHLO over the old
TLS connection, where the server does not offer STARTTLS. It takes this for the answer of the new connection and sends the mail there in clear, without
EHLO, without a login, and reports success. -/
theorem C78_after_refused_login :
    (let r := runCalls [joesPassword, .sendMail mail, .sendMail mail] refusedThenMail (fresh .opportunistic)
     (r.1, clearSaid r.2.hist)) =
    (.ok [.done, .returned 535, .returned 0],
     [(.raw 5, b!"ehlo localhost\r\n"), (.raw 5, b!"STARTTLS\r\n"), (.tls 25 5, b!"ehlo localhost\r\n"),
      (.tls 25 5, b!"AUTH PLAIN AGpvZQBzZWNyZXQ=\r\n"),
      (.tls 25 5, b!"ehlo localhost\r\n"), (.raw 6, b!"MAIL FROM: <me@here.org>\r\n"), (.raw 6, b!"RCPT TO: <you@there.org>\r\n"),
      (.raw 6, b!"DATA\r\n"), (.raw 6, b!"\r\n.\r\n")]) := by decide +kernel

/-- **C78, refuted** by the offer in the last line: `250 STARTTLS` is not recognised and the mail goes out in clear. -/
theorem C78_offer_in_last_line :
    (let r := sendMail mail (scripted ([.data b!"220 hi\r\n"] ++ clear [b!"250-mail.org\r\n250 STARTTLS\r\n", b!"250 ok\r\n", b!"250 ok\r\n",
      b!"354 go\r\n", b!"250 ok\r\n"])) (fresh .opportunistic)
     (r.1, clearSaid r.2.hist)) =
    (.ok 0, [(.raw 5, b!"ehlo localhost\r\n"), (.raw 5, b!"MAIL FROM: <me@here.org>\r\n"), (.raw 5, b!"RCPT TO: <you@there.org>\r\n"),
      (.raw 5, b!"DATA\r\n"), (.raw 5, b!"\r\n.\r\n")]) := by decide +kernel

/-- **C78, refuted** after a session without the offer: the client stays with the base send commands, and when the server offers STARTTLS the next time, it
negotiates TLS and then sends the mail beside it, in clear. -/
theorem C78_after_plain_session :
    (let env := scripted ([.data b!"220 hi\r\n"] ++ clear [b!"250-mail.org\r\n250 ok\r\n", b!"250 ok\r\n", b!"250 ok\r\n", b!"354 go\r\n", b!"250 ok\r\n"] ++
       [.data b!"220 hi\r\n"] ++ clear [b!"250-STARTTLS\r\n250 ok\r\n", b!"220 go\r\n"] ++ [.data b!"250-HELP\r\n250 ok\r\n"] ++
       clear [b!"250 ok\r\n", b!"250 ok\r\n", b!"354 go\r\n", b!"250 ok\r\n"])
     let s := (sendMail mail env (fresh .opportunistic)).2
     let r := sendMail mail env s
     (r.1, clearSaid (r.2.hist.drop s.hist.length) |>.map fun x => (x.1 matches .raw _, x.2))) =
    (.ok 0, [(true, b!"ehlo localhost\r\n"), (true, b!"STARTTLS\r\n"), (false, b!"ehlo localhost\r\n"), (true, b!"MAIL FROM: <me@here.org>\r\n"),
      (true, b!"RCPT TO: <you@there.org>\r\n"), (true, b!"DATA\r\n"), (true, b!"\r\n.\r\n")]) := by decide +kernel

/-- **C78, refuted** by a reply that reads as 0: STARTTLS is offered and answered by `000`, and the mail follows in clear. -/
theorem C78_zero_reply :
    (let r := sendMail mail (scripted ([.data b!"220 hi\r\n"] ++ clear [b!"250-STARTTLS\r\n250 ok\r\n", b!"000\r\n", b!"250 ok\r\n", b!"250 ok\r\n",
      b!"354 go\r\n", b!"250 ok\r\n"])) (fresh .opportunistic)
     (clearSaid r.2.hist).take 3) =
    [(.raw 5, b!"ehlo localhost\r\n"), (.raw 5, b!"STARTTLS\r\n"), (.raw 5, b!"MAIL FROM: <me@here.org>\r\n")] := by decide +kernel

/-- Non-vacuity: a new client meets the hypotheses. Without the offer the whole mail goes out in clear, with the offer nothing but EHLO and STARTTLS, and
when the server then refuses STARTTLS, nothing more. -/
example :
    (let c := (fresh .opportunistic).client; (c.serverName.isSome, c.kind, c.isConnected, c.bio, c.ptrRaw)) = (true, .opportunistic, false, none, false) ∧
    (let r := sendMail mail (scripted ([.data b!"220 hi\r\n"] ++ clear [b!"250-mail.org\r\n250 HELP\r\n", b!"250 ok\r\n", b!"250 ok\r\n",
      b!"354 go\r\n", b!"250 ok\r\n"])) (fresh .opportunistic)
     (r.1, (clearSaid r.2.hist).length)) = (.ok 0, 5) ∧
    (let r := sendMail mail (obliging true) (fresh .opportunistic)
     (r.1, (clearSaid r.2.hist).filter fun x => x.1 matches .raw _)) = (.ok 0, [(.raw 5, b!"ehlo localhost\r\n"), (.raw 5, b!"STARTTLS\r\n")]) ∧
    (let r := sendMail mail (scripted ([.data b!"220 hi\r\n"] ++ clear [b!"250-STARTTLS\r\n250 ok\r\n", b!"454 no\r\n"])) (fresh .opportunistic)
     (r.1, clearSaid r.2.hist)) = (.ok 454, [(.raw 5, b!"ehlo localhost\r\n"), (.raw 5, b!"STARTTLS\r\n")]) := by decide +kernel

end Verif.Props
