import Verif.Proofs.Served
import Verif.Props.Connect
import Verif.Props.Secure
import Verif.Props.Sockets
/-!
# C65: everything is sent to the configured server
-/
namespace Verif.Props
open Verif Verif.Model Verif.Spec Verif.Proofs

variable {env : Env} {C : Hist → Bytes → Nat → Prop} {h0 : Hist}

theorem guard_kind {D : SendKind → Bytes → Prop} {I : St → Prop} (h : GuardInv D I) (k : Kind) : GuardInv D (fun s => I s ∧ s.client.kind = k) where
  quitOk := h.quitOk
  client := fun s c m hc hi => ⟨h.client s c m hc hi.1, by unfold SameConn at hc; rw [hc]; exact hi.2⟩
  quiet := fun s e he hi => ⟨h.quiet s e he hi.1, hi.2⟩
  recvRaw := fun s r hi => ⟨h.recvRaw s r hi.1, hi.2⟩
  recvTls := fun s b r hb hi => ⟨h.recvTls s b r hb hi.1, hi.2⟩
  send := fun s k c d r hs hi => ⟨h.send s k c d r hs hi.1, hi.2⟩
  closed := fun s hi => ⟨h.closed s hi.1, by show (closedClient s.client).kind = k; rw [closedClient_kind]; exact hi.2⟩

/-- The invariant together with the class of the client. -/
def LeadingOf (C : Hist → Bytes → Nat → Prop) (h0 : Hist) (k : Kind) (s : St) : Prop := Leading C h0 s ∧ s.client.kind = k

theorem leadingOf_guard (k : Kind) : GuardInv (fun _ _ => True) (LeadingOf C h0 k) := guard_kind leading_guard k

theorem leadingOf_mail (k : Kind) : GuardedMail (fun _ _ => True) (Pres (LeadingOf C h0 k)) :=
  (leadingOf_guard k).mail fun _ h => ⟨⟨h.1.sent, h.1.sock, h.1.bio, h.1.plain⟩, h.2⟩

theorem startTLS_leading {k : Kind} (hk : k ≠ .smtp) : Steps env (Pres (LeadingOf C h0 k)) startTLSNegotiation := by
  haveI := (leadingOf_guard (C := C) (h0 := h0) k).guarded
  have call : ∀ op, Steps env (Pres (LeadingOf C h0 k)) (sysTls op) := fun op => Steps.ask fun _ _ h => ⟨h.1.event nofun nofun, h.2⟩
  have ctx : ∀ b, Steps env (Pres (LeadingOf C h0 k)) (M.modify ({ · with ctx := b })) :=
    fun b => Steps.modify fun _ h => ⟨⟨h.1.sent, h.1.sock, h.1.bio, h.1.plain⟩, h.2⟩
  have clean := gd_cleanup (D := fun _ _ => True) (env := env) (R := Pres (LeadingOf C h0 k))
  unfold startTLSNegotiation
  refine Steps.bind (addLog_steps _ _) fun _ => Steps.bind (call _) fun _ => Steps.ite (by steps [setErrNo_steps, ctx]) (Steps.bind (ctx _) fun _ => ?_)
  constructor
  intro s
  rw [wp_bind, wp_histLength]
  unfold sysTls
  rw [wp_bind, wp_ask, wp_ite]
  refine ⟨fun _ => ?_, fun _ => ?_⟩
  · rw [wp_bind, wp_modify]
    intro h
    have h1 := h.1.event (e := .tls .bioNew (env.tls s.hist .bioNew)) nofun nofun
    exact ⟨⟨h1.sent, h1.sock, nofun, fun _ => rfl⟩, h.2⟩
  · rw [wp_bind, wp_gets, wp_bind, wp_modify]
    refine Steps.after (R := Pres (LeadingOf C h0 k)) ?_ (fun h => ?_)
    · have call : ∀ op, Steps env (Pres (LeadingOf C h0 k)) (M.ask (fun e h => e.tls h op) (Ev.tls op)) := call
      steps [addLog_steps, setErrNo_steps, call]
    · have h1 := h.1.event (e := .tls .bioNew (env.tls s.hist .bioNew)) nofun nofun
      exact ⟨⟨h1.sent, h1.sock, fun b hb => by cases hb; exact h1.sock, fun hs => absurd (h.2.symm.trans hs) hk⟩, h.2⟩

theorem upgrade_leading : Steps env (Pres (LeadingOf C h0 .opportunistic)) upgradeToSecureConnection := by
  haveI := (leadingOf_guard (C := C) (h0 := h0) .opportunistic).guarded
  unfold upgradeToSecureConnection
  refine Steps.bind (addLog_steps _ _) fun _ => ⟨fun s => ?_⟩
  unfold wp
  by_cases hk : s.client.kind = .opportunistic
  · exact gd_upgrade (D := fun _ _ => True) (R := Pres (LeadingOf C h0 .opportunistic)) trivial trivial (-30) (-31) s hk
  · split <;> exact fun h => absurd h.2 hk

/-- Everything in `establish` after the connection was opened. -/
theorem opened_leading (k : Kind) :
    Steps env (Pres (LeadingOf C h0 k)) (match k with
      | .smtp => establishGreeted authenticateIfNeeded
      | .opportunistic => establishGreeted establishOpportunistic
      | .forced => establishForced) := by
  haveI := (leadingOf_guard (C := C) (h0 := h0) k).guarded
  have g1 := gd_checkServerGreetings (D := fun _ _ => True) (env := env) (R := Pres (LeadingOf C h0 k))
  have g2 := gd_identify (D := fun _ _ => True) (env := env) (R := Pres (LeadingOf C h0 k)) trivial
  have g3 := gd_authenticateIfNeeded (D := fun _ _ => True) (env := env) (R := Pres (LeadingOf C h0 k)) (fun _ => trivial)
  have g4 : Steps env (Pres (LeadingOf C h0 k)) (setKeepUsingBase true) :=
    Steps.modify fun _ h => ⟨⟨h.1.sent, h.1.sock, h.1.bio, h.1.plain⟩, h.2⟩
  cases k with
  | smtp =>
    dsimp only
    unfold establishGreeted sendServerIdentification
    steps [g2, addLog_steps]
  | opportunistic =>
    have g5 := startTLS_leading (env := env) (C := C) (h0 := h0) (k := .opportunistic) (by decide)
    have g6 := upgrade_leading (env := env) (C := C) (h0 := h0)
    dsimp only
    unfold establishGreeted sendServerIdentification establishOpportunistic getServerSecureIdentification
    steps [g2, addLog_steps]
  | forced =>
    have g5 := startTLS_leading (env := env) (C := C) (h0 := h0) (k := .forced) (by decide)
    dsimp only
    unfold establishForced getServerSecureIdentification
    steps [g2, addLog_steps]

theorem sendMail_resting (m : Message) (s : St) (h : Resting C h0 s) (hC : ∀ n, s.client.serverName = some n → C s.hist n s.client.port) :
    wp env (sendMail m) (fun _ => Resting C h0) (fun _ => Resting C h0) s := by
  have conn : ∀ s, Leading C h0 s → wp env (sendMailConnected m) (fun _ => Resting C h0) (fun _ => Resting C h0) s := fun s hd => by
    haveI := leadingOf_mail (C := C) (h0 := h0) s.client.kind
    exact wp_mono (Pres.use (gd_sendMailConnected (D := fun _ _ => True) (R := Pres (LeadingOf C h0 s.client.kind)) m (anyMail m)) ⟨hd, rfl⟩)
      (fun _ _ h => h.1.rest) (fun _ _ h => h.1.rest)
  have opens : ∀ s', s.client.isConnected = false → Opens s s' → Resting C h0 s' := by
    intro s' hc ho
    obtain ⟨evs, he, hp⟩ := ho.events
    have hcl : ∀ fd, .close fd ∉ evs := fun fd hm => hp _ hm
    refine ⟨?_, fun hc' => ?_, fun b hb => ?_, fun hk => ?_⟩
    · rw [he]
      exact h.sent.append fun k c d r hm => hp _ hm
    · rw [ho.isConnected, hc] at hc'
      exact absurd hc' (by decide)
    · rw [he]
      exact (h.bio b (ho.bio ▸ hb)).append (hcl _)
    · rw [ho.bio]
      exact h.plain (ho.kind ▸ hk)
  unfold sendMail
  rw [wp_bind, wp_gets, wp_ite]
  refine ⟨fun hc => conn s ⟨h.sent, h.sock hc, h.bio, h.plain⟩, fun hc => ?_⟩
  have hc : s.client.isConnected = false := by simpa using hc
  rw [wp_bind]
  have est : wp env establish (fun code s' => Resting C h0 s' ∧ (code = 0 → Leading C h0 s')) (fun _ => Resting C h0) s := by
    unfold establish
    rw [wp_bind]
    have hi := (initializeSession_opens (env := env)).run s
    have hz := C52_session_needs_connection env s
    unfold wp at hi ⊢
    cases hr : initializeSession env s with
    | mk r s1 =>
      rw [hr] at hi
      cases r with
      | stop e => exact opens _ hc hi
      | ok code =>
        dsimp only at hi ⊢
        have r1 := opens _ hc hi
        rw [← wp, wp_ite]
        refine ⟨fun hn => ⟨r1, fun hz => absurd hz hn⟩, fun hz0 => ?_⟩
        have hz0 := Decidable.not_not.mp hz0
        subst hz0
        obtain ⟨n, v, evs, hn, he, hs, ho, -⟩ := hz s1 hr
        have l1 : Leading C h0 s1 := ⟨r1.sent, .inr ⟨s.hist, evs, [], v, n, s.client.port, by simp [he], hC n hn, hs.symm, ho, by simp⟩, r1.bio, r1.plain⟩
        rw [wp_bind, wp_gets]
        exact wp_mono (Pres.use (opened_leading (env := env) (C := C) (h0 := h0) s1.client.kind) ⟨l1, rfl⟩) (fun _ _ h => ⟨h.1.rest, fun _ => h.1⟩)
          (fun _ _ h => h.1.rest)
  refine wp_mono est ?_ (fun _ _ h => h)
  rintro code s1 ⟨h1, h1'⟩
  rw [wp_ite]
  exact ⟨fun _ => h1, fun h0 => conn s1 (h1' (Decidable.not_not.mp h0))⟩

/-- Between calls, with the configured server. -/
structure Told (n0 : Bytes) (p0 : Nat) (s : St) : Prop where
  rest : Resting (Configured n0 p0) [] s
  conf : ∃ n, s.client.serverName = some n ∧ Configured n0 p0 s.hist n s.client.port

theorem resting_event {s : St} {e : Ev} (h : Resting C h0 s) (he : ∀ fd, .close fd ≠ e) (hs : ∀ k c d r, .send k c d r ≠ e) : Resting C h0 (St.snoc s e) :=
  ⟨h.sent.append fun k c d r hm => hs k c d r (List.mem_singleton.mp hm),
    fun hc => (h.sock hc).append fun hm => he _ (List.mem_singleton.mp hm),
    fun b hb => (h.bio b hb).append fun hm => he _ (List.mem_singleton.mp hm), h.plain⟩

theorem doCall_told {n0 : Bytes} {p0 : Nat} (c : Call) (s : St) (h : Told n0 p0 s) :
    wp env (doCall c) (fun _ => Told n0 p0) (fun _ s' => SentLed (Configured n0 p0) [] s'.hist) s := by
  obtain ⟨h, n, hn, hc⟩ := h
  have r1 : Resting (Configured n0 p0) [] (St.snoc s (.call c)) := resting_event h nofun nofun
  unfold doCall
  rw [wp_bind, wp_emit]
  have other : (∀ q, Ev.call c ≠ .call (.setServerName q)) → (∀ q, Ev.call c ≠ .call (.setServerPort q)) →
      Configured n0 p0 (s.hist ++ [.call c]) n s.client.port := fun h1 h2 => hc.other h1 h2
  have simple : ∀ f : Client → Client, (f s.client).serverName = s.client.serverName → (f s.client).port = s.client.port →
      (f s.client).sock = s.client.sock → (f s.client).bio = s.client.bio → (f s.client).kind = s.client.kind →
      (f s.client).isConnected = s.client.isConnected →
      (∀ q, Ev.call c ≠ .call (.setServerName q)) → (∀ q, Ev.call c ≠ .call (.setServerPort q)) →
      Told n0 p0 { s with client := f s.client, hist := s.hist ++ [.call c] } := by
    intro f e1 e2 e3 e4 e5 e6 o1 o2
    refine ⟨⟨r1.sent, fun hc => ?_, fun b hb => r1.bio b (e4 ▸ hb), fun hk => ?_⟩, n, e1.trans hn, by show Configured _ _ _ _ (f s.client).port; rw [e2]; exact other o1 o2⟩
    · show Led _ _ (f s.client).sock
      rw [e3]
      exact r1.sock (e6 ▸ hc)
    · show (f s.client).bio = none
      rw [e4]
      exact r1.plain (e5 ▸ hk)
  cases c with
  | setServerName q =>
    dsimp only
    unfold setServerName
    rcases checkName_cases q with ⟨hb, he⟩ | ⟨t, ht, hw, -, he⟩ | ⟨-, he⟩
    · rw [he]
      exact ⟨r1, n, hn, hc.refused hb⟩
    · rw [he]
      exact ⟨⟨r1.sent, r1.sock, r1.bio, r1.plain⟩, t, rfl, hc.name ht hw⟩
    · rw [he]
      exact r1.sent
  | setServerPort q => exact ⟨⟨r1.sent, r1.sock, r1.bio, r1.plain⟩, n, hn, hc.port⟩
  | setBatchMode b => exact simple (fun c => { c with batch := b }) rfl rfl rfl rfl rfl rfl nofun nofun
  | setCommandTimeout b => exact simple (fun c => { c with timeout := b }) rfl rfl rfl rfl rfl rfl nofun nofun
  | setCredentials b => exact simple (fun c => { c with credential := some b }) rfl rfl rfl rfl rfl rfl nofun nofun
  | setKeepUsingBaseSendCommands b => exact simple (fun c => { c with keep := b, ptrRaw := b }) rfl rfl rfl rfl rfl rfl nofun nofun
  | setAcceptSelfSignedCert b => exact simple (fun c => { c with acceptSelfSigned := b }) rfl rfl rfl rfl rfl rfl nofun nofun
  | sendMail m =>
    dsimp only
    rw [wp_bind]
    have hc' := other nofun nofun
    refine wp_mono (wp_and ((sendMail_steps (R := Configures) m).run _) (sendMail_resting m (St.snoc s (.call (.sendMail m))) r1 fun n' hn' => ?_)) ?_
      (fun _ _ h => h.2.sent)
    · have : n = n' := by
        have hn' : s.client.serverName = some n' := hn'
        rw [hn] at hn'
        exact Option.some.inj hn'
      exact this ▸ hc'
    · rintro code s1 ⟨⟨e1, e2, evs, he, hp⟩, r2⟩
      refine ⟨r2, n, e1.trans hn, ?_⟩
      rw [he, e2]
      exact configured_append hc' hp

theorem runCalls_told {n0 : Bytes} {p0 : Nat} (cs : List Call) (s : St) (h : Told n0 p0 s) :
    wp env (runCalls cs) (fun _ => Told n0 p0) (fun _ s' => SentLed (Configured n0 p0) [] s'.hist) s := by
  induction cs generalizing s with
  | nil => exact h
  | cons c cs ih =>
    unfold runCalls
    rw [wp_bind]
    refine wp_mono (doCall_told c s h) (fun _ s1 h1 => ?_) (fun _ _ h => h)
    rw [wp_bind]
    exact wp_mono (ih s1 h1) (fun _ _ h => h) (fun _ _ h => h)

theorem life_led {n0 : Bytes} {p0 : Nat} (cs : List Call) (s : St) (h : Told n0 p0 s) : SentLed (Configured n0 p0) [] (life cs env s).2.hist := by
  refine state_of (I := fun s' => SentLed (Configured n0 p0) [] s'.hist) ?_
  unfold life destroy
  rw [wp_bind]
  refine wp_mono (runCalls_told cs s h) (fun _ s1 h1 => ?_) (fun _ _ h => h)
  rw [wp_bind, wp_bind, wp_emit]
  have r1 : Resting (Configured n0 p0) [] (St.snoc s1 .destroy) := resting_event h1.rest nofun nofun
  cases hc : s1.client.isConnected with
  | true =>
    haveI := (leading_guard (C := Configured n0 p0) (h0 := [])).guarded
    exact wp_mono (Pres.use (gd_cleanup (D := fun _ _ => True) (R := Pres (Leading (Configured n0 p0) []))) ⟨r1.sent, r1.sock hc, r1.bio, r1.plain⟩)
      (fun _ _ h => h.sent) (fun _ _ h => h.sent)
  | false =>
    have : ∀ s', Prep (St.snoc s1 .destroy) s' → SentLed (Configured n0 p0) [] s'.hist := by
      intro s' hp
      obtain ⟨evs, he, hp⟩ := (hp hc).events
      rw [he]
      exact r1.sent.append fun k c d r hm => hp _ hm
    exact wp_mono (cleanup_prep.run _) (fun _ _ h => this _ h) (fun _ _ h => this _ h)

/-- **C65** (partial). In the whole life of a client, whatever the calls, the server and the operating system do: every byte is
written to a connection that was opened — socket made, name resolved, TCP connection established — to the server name and port that were
configured when it was opened, and that the client did not close since; or it is written to descriptor 0.
Missing: descriptor 0 (`C65_to_zero`) and changes of the configuration while the connection is open (`C65_old_server`). -/
theorem C65_sent_to_configured_partial (env : Env) (k : Kind) (name : Bytes) (port : Nat) (cs : List Call) (pre post : Hist)
    (sk : SendKind) (c : Chan) (d : Bytes) (r : SendRes)
    (h : (life cs env { client := Client.init k name port, hist := [] }).2.hist = pre ++ .send sk c d r :: post) :
    c.fd = 0 ∨ Served (Configured name port) pre c.fd := by
  have t : Told name port { client := Client.init k name port, hist := [] } :=
    ⟨⟨sentLed_same, by simp [Client.init], by simp [Client.init], by simp [Client.init]⟩, name, rfl, .start⟩
  obtain ⟨evs, he, hl⟩ := life_led (env := env) cs _ t
  exact hl pre sk c d r post (by rw [← h, he]; rfl)

/-- **C65** (partial). A `sendMail` of a client that is not connected and has no TLS objects from before writes only to the connection it opens
itself, to the server and port configured at that moment (or to descriptor 0). -/
theorem C65_new_connection (env : Env) (m : Message) (s : St) (hc : s.client.isConnected = false) (hb : s.client.bio = none)
    (evs pre post : Hist) (sk : SendKind) (c : Chan) (d : Bytes) (r : SendRes)
    (he : (sendMail m env s).2.hist = s.hist ++ evs) (h : evs = pre ++ .send sk c d r :: post) :
    c.fd = 0 ∨ ∃ (n : Bytes) (v : Nat) (opening rest : Hist), s.client.serverName = some n ∧ (v : Int) = c.fd ∧ pre = opening ++ rest ∧
      OpenedTo n (s.client.port % 65536) v opening ∧ .close c.fd ∉ rest := by
  have key := state_of (sendMail_resting (env := env) (C := fun a n p => a = s.hist ∧ s.client.serverName = some n ∧ p = s.client.port) (h0 := s.hist) m s
    ⟨sentLed_same, by simp [hc], by simp [hb], fun _ => hb⟩ fun n hn => ⟨rfl, hn, rfl⟩)
  obtain ⟨evs', he', hl⟩ := key.sent
  have : evs' = evs := List.append_cancel_left (he'.symm.trans he)
  subst this
  rcases hl pre sk c d r post h with h0 | ⟨a, o, b, v, n, p, e, ⟨rfl, hn, rfl⟩, hv, ho, hb⟩
  · exact .inl h0
  · refine .inr ⟨n, v, o, b, hn, hv, ?_, ho, hb⟩
    rw [List.append_assoc] at e
    exact List.append_cancel_left e

/-- A mail, then another server, then another mail, all in batch mode. -/
def moved : List Call :=
  [.setBatchMode true, .sendMail mail, .setServerName (some b!"other.org"), .setServerPort 26, .sendMail mail]

/-- **The configuration at the time of sending is not the one that counts.** In batch mode the second mail is transmitted to the old server
although another server and port were set before the call; the new name is never resolved and the new port never connected to, both calls report success, and the getters
would answer with the new server. -/
theorem C65_old_server :
    (let r := life moved (numbered (scripted batchTalk)) (fresh .smtp)
     (r.1, r.2.client.serverName, r.2.client.port, r.2.hist.contains (.resolve b!"other.org" (some [192, 0, 2, 1])), r.2.hist.contains (.connect 5 ⟨[192, 0, 2, 1], 26⟩ .ok),
      (r.2.hist.filter fun e => e == .send .cmd (.raw 5) b!"DATA\r\n" (.sent 6)).length)) =
    (.ok [.done, .returned 0, .done, .done, .returned 0], some b!"other.org", 26, false, false, 2) := by decide +kernel

/-- **Descriptor 0.** After a failed write the client closes the connection and sends the next command to descriptor 0, which it never opened. -/
theorem C65_to_zero :
    (let r := sendMail bigMail (scripted wholeTalk fun n => if n = 2 then some (.fail 32) else none) (fresh .smtp)
     r.2.hist.contains (.close 5) && r.2.hist.contains (.send .cmd (.raw 0) b!"RCPT TO: <two@there.org>\r\n" (.sent 26)) &&
     !r.2.hist.contains (.socket (.val 0))) = true := by decide +kernel

/-- Non-vacuity of `C65_sent_to_configured_partial`: without batch mode the second mail goes to the new server and the new port. -/
example :
    (let r := life [.sendMail mail, .setServerName (some b!" "), .setServerName (some b!"other.org"), .setServerPort 26, .sendMail mail]
      (numbered (scripted (wholeTalk ++ wholeTalk))) (fresh .smtp)
     (r.1, (r.2.hist.filter fun e => match e with | .resolve _ _ => true | .connect _ _ _ => true | .send .cmd _ d _ => d == b!"DATA\r\n" | _ => false))) =
    (.ok [.returned 0, .threw, .done, .done, .returned 0],
     [.resolve b!"mail.org" (some [192, 0, 2, 1]), .connect 5 ⟨[192, 0, 2, 1], 25⟩ .ok, .send .cmd (.raw 5) b!"DATA\r\n" (.sent 6),
      .resolve b!"other.org" (some [192, 0, 2, 1]), .connect 5 ⟨[192, 0, 2, 1], 26⟩ .ok, .send .cmd (.raw 5) b!"DATA\r\n" (.sent 6)]) := by decide +kernel

/-- … and the configuration is the one that the specification says. -/
example : Configured b!"mail.org" 25 [.call (.sendMail mail), .call (.setServerName (some b!" ")), .call (.setServerName (some b!"other.org")),
    .call (.setServerPort 26)] b!"other.org" 26 := by
  have h1 : Configured b!"mail.org" 25 ([] ++ [.call (.sendMail mail)]) b!"mail.org" 25 := .other .start nofun nofun
  have h2 := h1.refused (q := some b!" ") (by
    intro m t e ht
    cases e
    rw [CText.eq ht]
    unfold AllWs; decide)
  have h3 := h2.name (q := some b!"other.org") (t := b!"other.org") ⟨_, rfl, cstr_ctext _⟩ (by unfold AllWs; decide)
  exact h3.port

end Verif.Props
