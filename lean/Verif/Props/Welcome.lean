import Verif.Proofs.Welcome
import Verif.Props.Login
import Verif.Props.Cooperation
/-!
# C77: nothing is mailed before the server said 220 and 250
-/
namespace Verif.Props
open Verif Verif.Model Verif.Spec Verif.Proofs

variable {env : Env}

/-- How opening a connection may come to report success. -/
def OpenedWell (s s' : St) : Prop := ZeroRead s s' ∨ ∃ opening, s'.hist = s.hist ++ opening ∧ Welcomed s.client opening

theorem SameConn.isConnected {c c' : Client} (h : SameConn c c') : c'.isConnected = c.isConnected := by unfold SameConn at h; rw [h]

/-- The identification over TLS and what follows. -/
theorem secured_welcomed (s : St) {b : Bio} (hb : s.client.bio = some b) (hk : s.client.kind ≠ .smtp) :
    post env (do
      let code ← getServerSecureIdentification
      if code ≠ 250 then pure code else authenticateIfNeeded) (fun code s' => code = 0 → ZeroRead s s' ∨
        ∃ hello rest, s'.hist = s.hist ++ (hello ++ rest) ∧ EhloAccepted (.tls b.id b.fd) hello ∧ SpeaksNext rest) s := by
  unfold getServerSecureIdentification post
  rw [wp_bind, wp_bind]
  refine wp_mono (addLog_keeps _ _ s) ?_ (fun _ _ _ => trivial)
  rintro _ s1 ⟨l, e1⟩
  have h1 : s1.hist = s.hist := by rw [e1]
  have x1 : Ext s s1 := ⟨[], by rw [h1]; simp⟩
  have ch : feedbackChan s1.client = .tls b.id b.fd := by
    rw [e1]; unfold feedbackChan; dsimp only; rw [if_neg hk, hb]
  refine post_mono (post_and (identify_zero (by decide) (by decide) s1) (identify_took (-59) (-60) (by decide) (by decide) (by decide) s1)) ?_
  rintro code s2 ⟨⟨z2, x2⟩, t2⟩
  rw [wp_ite]
  refine ⟨fun _ h0 => .inl ((z2 h0).after x1), fun h => ?_⟩
  obtain ⟨c2, hello, hh, ha⟩ := t2 (Decidable.not_not.mp h)
  refine post_mono (authenticateIfNeeded_spoke s2) ?_
  rintro code s3 ⟨rest, hr, hs⟩ _
  exact .inr ⟨hello, rest, by rw [hr, hh, h1]; simp, ch ▸ ha, hs⟩

theorem establish_welcomed (s : St) (hn : s.client.isConnected = false) :
    post env establish (fun code s' => code = 0 → OpenedWell s s') s := by
  have greeted : ∀ s1 rest, Ext s s1 → s1.client.kind ≠ .forced → (∀ (s3 : St) (gr he : Hist), SameConn s1.client s3.client → s3.hist = s1.hist ++ gr ++ he →
        Ext s s3 → OneReply (.raw s1.client.sock) 220 gr → EhloAccepted (feedbackChan s1.client) he →
        post env rest (fun code s' => code = 0 → OpenedWell s s') s3) →
      post env (establishGreeted rest) (fun code s' => code = 0 → OpenedWell s s') s1 := by
    intro s1 rest x1 hk hr
    unfold establishGreeted post
    rw [wp_bind]
    refine post_mono (post_and (checkServerGreetings_zero s1) (checkServerGreetings_took s1)) ?_
    rintro code s2 ⟨⟨z2, x2⟩, c2, t2⟩
    rw [wp_ite]
    refine ⟨fun _ h0 => .inl ((z2 h0).after x1), fun h => ?_⟩
    obtain ⟨gr, hg, rg⟩ := t2 (Decidable.not_not.mp h)
    unfold hailChan at rg
    rw [if_neg hk] at rg
    unfold sendServerIdentification
    rw [wp_bind]
    refine post_mono (post_and (identify_zero (by decide) (by decide) s2) (identify_took (-20) (-21) (by decide) (by decide) (by decide) s2)) ?_
    rintro code s3 ⟨⟨z3, x3⟩, t3⟩
    rw [wp_ite]
    refine ⟨fun _ h0 => .inl ((z3 h0).after (x1.trans x2)), fun h => ?_⟩
    obtain ⟨c3, he, hh, ha⟩ := t3 (Decidable.not_not.mp h)
    rw [c2.feedbackChan] at ha
    exact hr s3 gr he (c2.trans c3) (by rw [hh, hg]) ((x1.trans x2).trans x3) rg ha
  unfold establish post
  rw [wp_bind]
  refine post_mono (post_and (post_steps (initializeSession_prep (env := env)) s) (post_steps (initializeSession_bio (env := env)) s)) ?_
  rintro code s1 ⟨p1, b1⟩
  have p1 := p1 hn
  obtain ⟨pre, hpre, hprep⟩ := p1.events
  have hmute := prep_mute hprep
  rw [wp_ite]
  refine ⟨fun h h0 => absurd h0 h, fun _ => ?_⟩
  rw [wp_bind, wp_gets]
  have x1 : Ext s s1 := ⟨pre, hpre⟩
  have hkind := p1.kind
  cases hk : s1.client.kind with
  | smtp =>
    refine greeted s1 _ x1 (by rw [hk]; decide) fun s3 gr he c3 h3 x3 rg ra => ?_
    refine post_mono (authenticateIfNeeded_spoke s3) ?_
    rintro code s4 ⟨rest, hr, hs⟩ _
    refine .inr ⟨pre ++ gr ++ he ++ rest, by rw [hr, h3, hpre]; simp, pre, gr, he, rest, _, _, rfl, hmute, rg, ra, hs, ?_⟩
    rw [← hkind, hk]
    refine ⟨_, rfl, ?_⟩
    unfold feedbackChan
    rw [if_pos hk]
  | forced =>
    dsimp only
    unfold establishForced
    rw [wp_bind]
    refine post_mono (post_and (post_steps (startTLSNegotiation_prep (env := env)) s1)
      (wp_mono (startTLSNegotiation_ok s1) (fun _ _ h => h) (fun _ _ h => h))) ?_
    rintro code s2 ⟨p2, n2⟩
    have p2 := p2 p1.isConnected
    obtain ⟨neg, hneg, hnegp⟩ := p2.events
    rw [wp_ite]
    refine ⟨fun h h0 => absurd h0 h, fun h => ?_⟩
    obtain ⟨b, hb, _⟩ := n2 (Decidable.not_not.mp h)
    have hk2 : s2.client.kind = .forced := p2.kind.trans hk
    have x2 : Ext s1 s2 := ⟨neg, hneg⟩
    rw [wp_bind]
    refine post_mono (post_and (checkServerGreetings_zero s2) (checkServerGreetings_took s2)) ?_
    rintro code s3 ⟨⟨z3, x3⟩, c3, t3⟩
    rw [wp_ite]
    refine ⟨fun _ h0 => .inl ((z3 h0).after (x1.trans x2)), fun h => ?_⟩
    obtain ⟨gr, hg, rg⟩ := t3 (Decidable.not_not.mp h)
    have hch : hailChan s2.client = .tls b.id b.fd := by
      unfold hailChan feedbackChan; rw [if_pos hk2, if_neg (by rw [hk2]; decide), hb]
    rw [hch] at rg
    refine post_mono (secured_welcomed s3 (c3.bio.trans hb) (by rw [c3.kind, hk2]; decide)) ?_
    rintro code s4 h4 h0
    rcases h4 h0 with h | ⟨he, rest, hr, ra, hs⟩
    · exact .inl (h.after ((x1.trans x2).trans x3))
    refine .inr ⟨(pre ++ neg) ++ gr ++ he ++ rest, by rw [hr, hg, hneg, hpre]; simp, pre ++ neg, gr, he, rest, _, _, rfl,
      Mute.append hmute (prep_mute hnegp), rg, ra, hs, ?_⟩
    rw [← hkind, hk]
    exact ⟨_, _, rfl, rfl⟩
  | opportunistic =>
    refine greeted s1 _ x1 (by rw [hk]; decide) fun s3 gr he c3 h3 x3 rg ra => ?_
    have stale : s.client.bio = none → feedbackChan s1.client = .raw s1.client.sock := by
      intro hb
      have : s1.client.bio = none := b1.trans hb
      unfold feedbackChan
      rw [this]
      split <;> rfl
    have finish : ∀ {s' : St} {rest : Hist}, s'.hist = s3.hist ++ rest → (rest = [] ∨ Upgraded s1.client.sock rest) → SpeaksNext rest → OpenedWell s s' := by
      intro s' rest h1 h2 h3'
      refine .inr ⟨pre ++ gr ++ he ++ rest, by rw [h1, h3, hpre]; simp, pre, gr, he, rest, _, _, rfl, hmute, rg, ra, h3', ?_⟩
      rw [← hkind, hk]
      exact ⟨_, rfl, stale, h2⟩
    unfold establishOpportunistic post
    rw [wp_bind, wp_gets]
    cases isStartTLSSupported s3.client.lastResponse with
    | error u => trivial
    | ok b =>
      cases b with
      | false =>
        dsimp only
        rw [wp_bind]
        refine wp_mono (addLog_keeps _ _ s3) ?_ (fun _ _ _ => trivial)
        rintro _ s4 ⟨l, e4⟩
        unfold setKeepUsingBase
        rw [wp_bind, wp_modify, wp_pure]
        intro _
        exact finish (rest := []) (by show s4.hist = _; rw [e4]; simp) (.inl rfl) (.inl rfl)
      | true =>
        dsimp only
        rw [wp_bind]
        refine wp_mono (addLog_keeps _ _ s3) ?_ (fun _ _ _ => trivial)
        rintro _ s4 ⟨l, e4⟩
        unfold upgradeToSecureConnection
        rw [wp_bind, wp_bind]
        refine wp_mono (addLog_keeps _ _ s4) ?_ (fun _ _ _ => trivial)
        rintro _ s5 ⟨l5, e5⟩
        have h5 : s5.hist = s3.hist := by rw [e5, e4]
        have c5 : SameConn s3.client s5.client := by rw [e5, e4]; rfl
        have x5 : Ext s s5 := x3.trans ⟨[], by rw [h5]; simp⟩
        refine post_mono (post_and (sendRawFb_zero (by decide) (by decide) s5) (sendRawFb_took _ (-30) (-31) 220 (by decide) (by decide) (by decide) s5)) ?_
        rintro code s6 ⟨⟨z6, x6⟩, t6⟩
        rw [wp_ite]
        refine ⟨fun _ h0 => .inl ((z6 h0).after x5), fun h => ?_⟩
        obtain ⟨c6, n, reply, h6, r6⟩ := t6 (Decidable.not_not.mp h)
        have hsock : s5.client.sock = s1.client.sock := by rw [c5.sock, c3.sock]
        rw [hsock] at h6 r6
        rw [wp_bind]
        refine post_mono (post_and (post_steps (startTLSNegotiation_prep (env := env)) s6)
          (wp_mono (startTLSNegotiation_ok s6) (fun _ _ h => h) (fun _ _ h => h))) ?_
        rintro code s7 ⟨p7, n7⟩
        have p7 := p7 (by rw [SameConn.isConnected c6, SameConn.isConnected c5, SameConn.isConnected c3, p1.isConnected])
        obtain ⟨neg, hneg, hnegp⟩ := p7.events
        rw [wp_ite]
        refine ⟨fun h h0 => absurd h0 h, fun h => ?_⟩
        obtain ⟨b, hb, _⟩ := n7 (Decidable.not_not.mp h)
        refine post_mono (secured_welcomed s7 hb (by rw [p7.kind, c6.kind, c5.kind, c3.kind, hk]; decide)) ?_
        rintro code s8 h8 h0
        rcases h8 h0 with h | ⟨hello, rest, hr, ra8, hs⟩
        · exact .inl (h.after ((x5.trans x6).trans ⟨neg, hneg⟩))
        refine finish (rest := .send .cmd (.raw s1.client.sock) b!"STARTTLS\r\n" (.sent n) :: (reply ++ neg ++ hello ++ rest)) ?_ (.inr ?_) (.inr ?_)
        · rw [hr, hneg, h6, h5]
          have : cstr startTlsCmd = b!"STARTTLS\r\n" := by decide
          rw [this]
          simp
        · exact ⟨n, reply, neg, hello, rest, b.id, b.fd, rfl, r6, prep_mute hnegp, ra8, hs⟩
        · exact ⟨_, _, rfl, trivial⟩

/-- **C77, partial.** When a mail is sent with a new connection, whatever the server and the network do: before the first MAIL FROM – the first thing
after the opening – the client read one greeting with the code 220 and one answer to EHLO every piece of which has the code 250, on the right
channels, and after STARTTLS 220 and again 250 over TLS. Missing: replies that read as 0, which pass for success (`C77_zero_greeting`). -/
theorem C77_welcomed_partial (env : Env) (m : Message) (hm : NulFree m) (s : St) (hn : s.client.isConnected = false) :
    ∃ opening evs, (sendMail m env s).2.hist = s.hist ++ opening ++ evs ∧ (∀ e ∈ opening, isMail e = false) ∧ contents opening = [] ∧
      (evs = [] ∨ ReplyIn opening 0 ∨
        (Welcomed s.client opening ∧ ∃ ch, ∃ d ∈ senderForms m.from, ∃ r rest, evs = .send .cmd ch d r :: rest)) := by
  unfold sendMail
  rw [bind_run, gets_run]
  dsimp only
  rw [if_neg (by simp [hn]), bind_run]
  have h1 := (establish_steps (env := env) (R := NewEvents (Allowed (OnlyContent fun _ => False)))).state s
  have h2 := ((establish_noMail (env := env)).state s).noMail
  have h3 := establish_welcomed (env := env) s hn
  unfold post wp at h3
  cases hes : establish env s with
  | mk r s1 =>
    rw [hes] at h1 h2 h3
    obtain ⟨opening, ho, hno⟩ := h1
    obtain ⟨opening', ho', hno'⟩ := h2
    dsimp only at ho ho'
    obtain rfl : opening = opening' := List.append_cancel_left (ho.symm.trans ho')
    have hcont := contents_none (fun _ h => h) hno
    cases r with
    | stop e => exact ⟨opening, [], by simp [ho], hno', hcont, .inl rfl⟩
    | ok code =>
      dsimp only at h3 ⊢
      by_cases h0 : code = 0
      · rw [if_neg (by simpa using h0)]
        obtain ⟨evs, he, hhead⟩ := sendMailConnected_head env m hm s1
        refine ⟨opening, evs, by rw [he, ho], hno', hcont, ?_⟩
        rcases hhead with hhead | ⟨d, hd, r, rest, hev⟩
        · exact .inl hhead
        rcases h3 h0 with ⟨x, hx, hz⟩ | ⟨x, hx, hw⟩
        · obtain rfl : x = opening := List.append_cancel_left (hx.symm.trans ho)
          exact .inr (.inl hz)
        · obtain rfl : x = opening := List.append_cancel_left (hx.symm.trans ho)
          exact .inr (.inr ⟨hw, _, d, hd, r, rest, hev⟩)
      · rw [if_pos h0]
        exact ⟨opening, [], by rw [pure_run]; simp [ho], hno', hcont, .inl rfl⟩

/-- **C77, refuted** in full: after the greeting `000` the client sends the mail at once, without EHLO, and reports success. -/
theorem C77_zero_greeting :
    (let r := sendMail mail (scripted ([.data b!"000 hi\r\n"] ++ clear [b!"250 ok\r\n", b!"250 ok\r\n", b!"354 go\r\n", b!"250 ok\r\n"])) (fresh .smtp)
     (r.1, commands r.2.hist)) =
      (.ok 0, [b!"MAIL FROM: <me@here.org>\r\n", b!"RCPT TO: <you@there.org>\r\n", b!"DATA\r\n", b!"\r\n.\r\n"]) := by
  decide +kernel

/-- Non-vacuity: with a greeting and an answer to EHLO in two pieces the mail is sent; a second piece with another code, a greeting with another
code, and a refused EHLO end the attempt without a MAIL FROM. -/
example :
    (fresh .smtp).client.isConnected = false ∧
    (let r := sendMail mail (scripted ([.data b!"220 hi\r\n"] ++ clear [b!"250-mail.org\r\n", b!"250-HELP\r\n250 OK\r\n", b!"250 ok\r\n", b!"250 ok\r\n", b!"354 go\r\n", b!"250 ok\r\n"])) (fresh .smtp)
     (r.1, commands r.2.hist)) =
      (.ok 0, [b!"ehlo localhost\r\n", b!"MAIL FROM: <me@here.org>\r\n", b!"RCPT TO: <you@there.org>\r\n", b!"DATA\r\n", b!"\r\n.\r\n"]) ∧
    (let r := sendMail mail (scripted ([.data b!"220 hi\r\n"] ++ clear [b!"250-mail.org\r\n", b!"500 no\r\n"])) (fresh .smtp)
     (r.1, commands r.2.hist)) = (.ok 500, [b!"ehlo localhost\r\n"]) ∧
    (let r := sendMail mail (scripted ([.data b!"421 no\r\n"])) (fresh .smtp)
     (r.1, commands r.2.hist)) = (.ok 421, []) ∧
    (let r := sendMail mail (scripted ([.data b!"220 hi\r\n"] ++ clear [b!"502 no\r\n"])) (fresh .smtp)
     (r.1, commands r.2.hist)) = (.ok 502, [b!"ehlo localhost\r\n"]) := by decide +kernel

/-- … and for the clients that encrypt. -/
example : [Kind.opportunistic, .forced].map (fun k => let r := sendMail mail (obliging true) (fresh k); (r.1, (commands r.2.hist).take 4)) =
    [(.ok 0, [b!"ehlo localhost\r\n", b!"STARTTLS\r\n", b!"ehlo localhost\r\n", b!"MAIL FROM: <me@here.org>\r\n"]),
     (.ok 0, [b!"ehlo localhost\r\n", b!"MAIL FROM: <me@here.org>\r\n", b!"RCPT TO: <you@there.org>\r\n", b!"DATA\r\n"])] := by decide +kernel

end Verif.Props
