import Verif.Props.Segments
import Verif.Props.StringUtils
/-!
# C10: the opportunistic client uses TLS when it is offered
-/
namespace Verif.Props
open Verif Verif.Model Verif.Spec Verif.Proofs

variable {env : Env}

/-- `find` finds what occurs. -/
theorem findSub_occurs {p s : Bytes} (h : Occurs p s) : (findSub p s).isSome = true := by
  obtain ⟨a, b, rfl⟩ := h
  induction a with
  | nil =>
    cases p with
    | nil => cases b <;> simp [findSub]
    | cons c p =>
      simp only [List.nil_append, List.cons_append]
      rw [findSub, if_pos (by rw [List.isPrefixOf_iff_prefix]; exact ⟨b, rfl⟩)]
      rfl
  | cons c a ih =>
    simp only [List.cons_append]
    rw [findSub]
    split
    · rfl
    · rw [Option.isSome_map]
      exact ih

/-- A reply in ASCII with a line `250-STARTTLS` is recognised. -/
theorem supported_of_line {ls : List Bytes} (hls : EhloReply ls) (hascii : ∀ l ∈ ls, ∀ c ∈ l, c < 128) (hst : b!"250-STARTTLS" ∈ ls) :
    isStartTLSSupported (some (wire ls)) = .ok true := by
  have h128 : ∀ c ∈ wire ls, c < 128 := by
    intro c hc
    obtain ⟨x, hx, hcx⟩ := List.mem_flatten.mp hc
    obtain ⟨l, hl, rfl⟩ := List.mem_map.mp hx
    rcases List.mem_append.mp hcx with h | h
    · exact hascii l hl c h
    · simp only [List.mem_cons, List.not_mem_nil, or_false] at h
      rcases h with rfl | rfl <;> decide
  obtain ⟨pre, post, e⟩ := List.append_of_mem hst
  have hocc : Occurs b!"250-STARTTLS" (wire ls) := ⟨wire pre, 13 :: 10 :: wire post, by rw [e, wire_append, wire_cons]; simp⟩
  have hne : ls ≠ [] := by rw [e]; simp
  obtain ⟨r, hr⟩ := (wire_head hls (fun l h => h) hne).1
  have hlen : (wire ls).length ≠ 0 := by rw [← hr]; simp
  obtain ⟨t, ht, _⟩ := C04_trim_ascii (wire ls) h128
  have htn : t ≠ [] := by
    rintro rfl
    have := (C04_trim_empty_iff (wire ls)).mp ht 50 (by rw [← hr]; simp)
    exact absurd this (by decide)
  unfold isStartTLSSupported
  dsimp only
  rw [if_neg hlen, ht]
  dsimp only
  rw [if_neg (by simpa using htn), findSub_occurs hocc]

/-- What opening the session keeps. -/
structure Opened (s s' : St) : Prop where
  kind : s'.client.kind = s.client.kind
  bio : s'.client.bio = s.client.bio
  log : HasLog s → HasLog s'
  hist : Ext s s'

instance : Reading Opened where
  refl := fun _ => ⟨rfl, rfl, id, .same rfl⟩
  trans := fun h h' => ⟨h'.kind.trans h.kind, h'.bio.trans h.bio, h'.log ∘ h.log, h.hist.trans h'.hist⟩
  log := fun s l i p l' hl ha => ⟨rfl, rfl, (inferInstance : Talking fun s s' => HasLog s → HasLog s').log s l i p l' hl ha, .same rfl⟩
  errno := fun _ _ => ⟨rfl, rfl, id, .same rfl⟩
  resp := fun _ _ => ⟨rfl, rfl, id, .same rfl⟩
  auth := fun _ _ => ⟨rfl, rfl, id, .same rfl⟩
  fcntlGet := fun _ _ _ => ⟨rfl, rfl, id, .one⟩
  fcntlSet := fun _ _ _ _ => ⟨rfl, rfl, id, .one⟩
  select := fun _ _ _ => ⟨rfl, rfl, id, .one⟩
  sockopt := fun _ _ _ => ⟨rfl, rfl, id, .one⟩
  resolve := fun _ _ _ => ⟨rfl, rfl, id, .one⟩
  connect := fun _ _ _ _ => ⟨rfl, rfl, id, .one⟩
  sleep := fun _ => ⟨rfl, rfl, id, .one⟩
  recv := fun _ _ _ => ⟨rfl, rfl, id, .one⟩

theorem initializePOSIX_opened10 : Steps env Opened initializePOSIX := by
  unfold initializePOSIX sysSocket
  steps [Steps.modify, Steps.ask, logErrno_steps, sysResolve_steps, setNonBlocking_steps, addLog_steps, connectPOSIX_steps]
  · exact ⟨rfl, rfl, id, .one⟩
  · exact ⟨rfl, rfl, id, .same rfl⟩
  · exact ⟨rfl, rfl, id, .same rfl⟩

/-- A raw command is first of all sent on the socket. -/
theorem sendRawFb_first10 {R : St → St → Prop} [hR : Cleaning R] (d : Bytes) (e t : Int) (s : St) :
    ∃ r, wp env (sendRawFb d e t) (fun _ => R (St.snoc s (.send .cmd (.raw s.client.sock) (cstr d) r)))
      (fun _ => R (St.snoc s (.send .cmd (.raw s.client.sock) (cstr d) r))) s := by
  refine ⟨normSend (nonblocking s.client.sock s.hist) (cstr d).length (env.send s.hist (.raw s.client.sock) (cstr d)), ?_⟩
  unfold sendRawFb sendRaw sendRawWith sysSend
  simp only [wp_bind, wp_gets, wp_ask, wp_ite, wp_stop, wp_pure]
  refine ⟨fun _ => hR.refl _, fun _ => ?_⟩
  refine wp_mono (Steps.after (R := R) (s0 := St.snoc s (.send .cmd (.raw s.client.sock) (cstr d)
    (normSend (nonblocking s.client.sock s.hist) (cstr d).length (env.send s.hist (.raw s.client.sock) (cstr d))))) ?_ (hR.refl _)) ?_ ?_
  · steps [setErrNo_steps, cleanup_steps]
  · intro a s' h'
    refine ⟨fun _ => h', fun _ => ?_⟩
    refine wp_mono (getRawReply_steps.after h') (fun a s'' h'' => ⟨fun _ => h'', fun _ => ?_⟩) (fun _ _ h' => h')
    exact cleanup_steps.after h''
  · exact fun _ _ h => h

/-- After the history `h0` the client sends EHLO and, as its next command, STARTTLS (`Allowed`: nothing but EHLO and possibly QUIT is
sent before). -/
def SendsStartTls (h0 : Hist) (sock : Int) (h : Hist) : Prop :=
  ∃ mid r post, h = h0 ++ mid ++ .send .cmd (.raw sock) b!"STARTTLS\r\n" r :: post ∧
    ∀ e ∈ mid, Allowed (fun k d => k = .cmd ∧ d = b!"ehlo localhost\r\n") e

/-- **C10, partial.** An opportunistic client that is not connected sends a message. The session is opened (`hinit`), the server greets with
220 (`hgreet`), and then answers EHLO with a complete reply in ASCII that arrives in one batch, with any cuts inside the batch. If
the reply has a line `250-STARTTLS`, the next command is STARTTLS. Missing: `250 STARTTLS` in the last line, replies in
several batches (both refuted below), replies with other bytes than ASCII (where `isspace` is undefined, see C49). -/
theorem C10_starttls_partial (env : Env) (s s1 s2 : St) (m : Message) (ls : List Bytes) (rs : List RecvRes) (n : Nat)
    (hk : s.client.kind = .opportunistic) (hnc : s.client.isConnected = false) (hb : s.client.bio = none)
    (hinit : initializeSession env s = (.ok 0, s1)) (hgreet : checkServerGreetings env s1 = (.ok 220, s2))
    (hsend : env.send s2.hist (.raw s2.client.sock) b!"ehlo localhost\r\n" = .sent n)
    (hls : EhloReply ls) (hascii : ∀ l ∈ ls, ∀ c ∈ l, c < 128) (hst : b!"250-STARTTLS" ∈ ls)
    (harr : ClearBatch s2.client.timeout (wire ls) rs) (hfuel : rs.length ≤ env.fuel)
    (hf : Feeds env (.raw s2.client.sock) rs s2.hist) :
    SendsStartTls s2.hist s2.client.sock (sendMail m env s).2.hist := by
  have ho1 : Opened { s with client := { s.client with log := some .fresh }, mem := s.mem ++ [.freshLog] } s1 := by
    have := (initializePOSIX_opened10 (env := env)).state { s with client := { s.client with log := some .fresh }, mem := s.mem ++ [.freshLog] }
    have e : initializeSession env s = initializePOSIX env { s with client := { s.client with log := some .fresh }, mem := s.mem ++ [.freshLog] } := rfl
    rw [← e, hinit] at this
    exact this
  have ho2 : Opened s1 s2 := by
    have := (checkServerGreetings_steps (env := env) (R := Opened)).state s1
    rw [hgreet] at this
    exact this
  have hlog : HasLog s2 := ho2.log (ho1.log ⟨_, rfl, logOk_fresh⟩)
  have hk1 : s1.client.kind = .opportunistic := ho1.kind.trans hk
  have hk2 : s2.client.kind = .opportunistic := ho2.kind.trans hk1
  have hb2 : s2.client.bio = none := ho2.bio.trans (ho1.bio.trans hb)
  -- the identification
  obtain ⟨c3, s3, e3, rfl, hc3, _, hr3⟩ := runs_iff.mp (identify_clear (err := -20) (tc := -21) (gs := []) (g := ls) (.inr ⟨hb2, rfl⟩) hlog
    hsend hls (by simp) (by
      intro x hx
      simp only [List.mem_singleton] at hx
      rw [hx]
      intro h0
      rw [h0] at hst
      simp at hst) ⟨rs, [], by simp, harr, rfl⟩ hfuel (.inl rfl) hf)
  have hnew : NewEvents (Allowed (fun k d => k = .cmd ∧ d = b!"ehlo localhost\r\n")) s2 s3 := by
    have := (identify_steps (env := env) (R := NewEvents (Allowed (fun k d => k = .cmd ∧ d = b!"ehlo localhost\r\n")))
      (fun s c r => .one ⟨rfl, rfl⟩) (-20) (-21)).state s2
    rw [e3] at this
    exact this
  -- the upgrade
  have hup : wp env establishOpportunistic (fun _ s' => SendsStartTls s2.hist s2.client.sock s'.hist)
      (fun _ s' => SendsStartTls s2.hist s2.client.sock s'.hist) s3 := by
    unfold establishOpportunistic
    rw [wp_bind, wp_gets, hr3 rfl, supported_of_line hls hascii hst]
    dsimp only
    rw [wp_bind]
    refine wp_addLog hc3.log fun l op hl => ?_
    unfold upgradeToSecureConnection
    rw [wp_bind, wp_bind]
    refine wp_addLog ⟨l, rfl, hl⟩ fun l' op' hl' => ?_
    obtain ⟨r, hw⟩ := sendRawFb_first10 (env := env) (R := Ext) startTlsCmd (-30) (-31)
      { s3 with client := { s3.client with log := some l' }, mem := s3.mem ++ [op] ++ [op'] }
    obtain ⟨mid, hmid, hall⟩ := hnew
    have fin : ∀ s' : St, Ext (St.snoc { s3 with client := { s3.client with log := some l' }, mem := s3.mem ++ [op] ++ [op'] }
        (.send .cmd (.raw s3.client.sock) (cstr startTlsCmd) r)) s' → SendsStartTls s2.hist s2.client.sock s'.hist := by
      rintro s' ⟨post, hp⟩
      refine ⟨mid, r, post, ?_, hall⟩
      rw [hp]
      show s3.hist ++ [Ev.send .cmd (.raw s3.client.sock) (cstr startTlsCmd) r] ++ post = _
      rw [hmid, hc3.sock]
      simp only [List.append_assoc, List.singleton_append]
      rfl
    refine wp_mono hw ?_ (fun _ s' h => fin s' h)
    intro code s4 h4
    have rest : Steps env Ext (if code ≠ 220 then pure code else do
        let code ← startTLSNegotiation
        if code ≠ 0 then pure code
        else do
          let code ← getServerSecureIdentification
          if code ≠ 250 then pure code
          else authenticateIfNeeded) := by
      unfold getServerSecureIdentification
      steps [startTLSNegotiation_steps, addLog_steps, identify_steps', authenticateIfNeeded_steps]
    exact wp_mono (rest.after h4) (fun _ s' h => fin s' h) (fun _ s' h => fin s' h)
  -- the whole call
  have key : wp env (sendMail m) (fun _ s' => SendsStartTls s2.hist s2.client.sock s'.hist)
      (fun _ s' => SendsStartTls s2.hist s2.client.sock s'.hist) s := by
    unfold sendMail
    rw [wp_bind, wp_gets, hnc, wp_ite]
    refine ⟨fun h => by simp at h, fun _ => ?_⟩
    have hest : wp env establish (fun _ s' => SendsStartTls s2.hist s2.client.sock s'.hist)
        (fun _ s' => SendsStartTls s2.hist s2.client.sock s'.hist) s := by
      unfold establish
      rw [wp_bind]
      unfold wp
      rw [hinit]
      dsimp only
      show wp env _ _ _ s1
      rw [wp_ite]
      refine ⟨fun h => absurd rfl h, fun _ => ?_⟩
      rw [wp_bind, wp_gets, hk1]
      dsimp only
      unfold establishGreeted
      rw [wp_bind]
      unfold wp
      rw [hgreet]
      dsimp only
      show wp env _ _ _ s2
      rw [wp_ite]
      refine ⟨fun h => absurd rfl h, fun _ => ?_⟩
      rw [wp_bind]
      unfold wp sendServerIdentification
      rw [e3]
      dsimp only
      show wp env _ _ _ s3
      rw [wp_ite]
      exact ⟨fun h => absurd rfl h, fun _ => hup⟩
    rw [wp_bind]
    refine wp_mono hest ?_ (fun _ _ h => h)
    rintro code s' ⟨mid, r, post, hh, hall⟩
    have rest : Steps env Ext (if code ≠ 0 then pure code else sendMailConnected m) := by
      steps [sendMailConnected_steps]
    have grow : ∀ s'' : St, Ext s' s'' → SendsStartTls s2.hist s2.client.sock s''.hist := by
      rintro s'' ⟨e, he⟩
      exact ⟨mid, r, post ++ e, by rw [he, hh]; simp, hall⟩
    exact wp_mono (rest.run s') (fun _ s'' h => grow s'' h) (fun _ s'' h => grow s'' h)
  unfold wp at key
  split at key <;> (rename_i e; rw [e]; exact key)

/-! ### Non-vacuity -/

/-- A world with a greeting and the reply of `ehloLines`, cut inside lines. -/
def offering : List RecvRes :=
  [.data b!"220 hi\r\n", .err, .data b!"250-mail.org\r\n250-AU", .data b!"TH LOGIN PLAIN\r\n250-STARTTLS\r\n250 SIZE\r\n", .err]

/-- … after opening the session … -/
def offered1 : St := (initializeSession (scripted offering) (fresh .opportunistic)).2

/-- … and after the greeting. -/
def offered2 : St := (checkServerGreetings (scripted offering) offered1).2

example : SendsStartTls offered2.hist offered2.client.sock (sendMail mail (scripted offering) (fresh .opportunistic)).2.hist := by
  refine C10_starttls_partial (scripted offering) (fresh .opportunistic) offered1 offered2 mail ehloLines (offering.drop 1) 16 rfl rfl rfl
    (Prod.ext (by decide +kernel) (by rw [offered1])) (Prod.ext (by decide +kernel) (by rw [offered2])) (by decide +kernel) ehloLines_ok (by decide) (by decide)
    ⟨[.err], [b!"250-mail.org\r\n250-AU", b!"TH LOGIN PLAIN\r\n250-STARTTLS\r\n250 SIZE\r\n"], ⟨by decide +kernel, by decide⟩, by decide,
      by decide, rfl, rfl⟩ (by decide) (scripted_feeds rfl _ _ _ (by decide) (by decide +kernel))

/-! ### What is refuted -/

/-- Result of a message, and whether STARTTLS was sent. -/
def starttlsOf (r : Res Int × St) : Res Int × Bool :=
  (r.1, r.2.hist.any fun | .send _ _ d _ => d == b!"STARTTLS\r\n" | _ => false)

/-- **C10, refuted**: when the server offers STARTTLS in the last line of its reply, the client does not use it and the message goes out in
clear. -/
theorem C10_last_line_ignored :
    starttlsOf (sendMail mail (scripted ([.data b!"220 hi\r\n"] ++ clear [b!"250-mail.org\r\n250 STARTTLS\r\n", b!"250 ok\r\n", b!"250 ok\r\n",
      b!"354 go\r\n", b!"250 ok\r\n"])) (fresh .opportunistic)) = (.ok 0, false) := by
  decide +kernel

/-- **C10, refuted**: when the reply arrives in two batches, STARTTLS is never sent, whether the offer is in the first or in the second; the
result is a timeout. -/
theorem C10_second_batch_ignored :
    starttlsOf (sendMail mail (scripted ([.data b!"220 hi\r\n"] ++ clear [b!"250-STARTTLS\r\n", b!"250-SIZE\r\n250 ok\r\n"])) (fresh .opportunistic)) =
      (.ok (-21), false) ∧
    starttlsOf (sendMail mail (scripted ([.data b!"220 hi\r\n"] ++ clear [b!"250-SIZE\r\n", b!"250-STARTTLS\r\n250 ok\r\n"])) (fresh .opportunistic)) =
      (.ok (-21), false) := by
  refine ⟨?_, ?_⟩ <;> decide +kernel

end Verif.Props
