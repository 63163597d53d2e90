import Verif.Proofs.TwinMail
import Verif.Proofs.Calls
import Verif.Props.Setup
/-!
# A session depends neither on the sessions before nor on when it takes place (C68)

`C68_no_residue_partial` compares two clients at the same point of the same history. Here the histories differ too.
-/
namespace Verif.Props
open Verif Verif.Model Verif.Spec Verif.Proofs

/-! ### Calls -/

theorem setter_paired {W : Worlds} {l : Prop} {s s' : St} {g : Client → Client} (h : Paired W l s s')
    (hg : ∀ c, g c = { c with serverName := (g c).serverName, port := (g c).port, batch := (g c).batch, timeout := (g c).timeout, credential := (g c).credential, keep := (g c).keep, ptrRaw := (g c).ptrRaw, acceptSelfSigned := (g c).acceptSelfSigned })
    (hs : ∀ c c', SameSettings c c' → SameSettings (g c) (g c')) : Paired W l { s with client := g s.client } { s' with client := g s'.client } := by
  obtain ⟨F, h⟩ := h
  refine ⟨F, ?_⟩
  have same := hs _ _ h.same
  rw [hg s.client, hg s'.client] at same ⊢
  exact { h with same := same }

theorem doCall_paired {W : Worlds} {l : Prop} {s s' : St} (c : Call) (h : Paired W l s s') :
    wp2 W (doCall c) (doCall c) (fun x y t t' => x = y ∧ Paired W (l ∨ ∃ m, c = .sendMail m) t t') (Paired W False) s s' := by
  unfold doCall
  refine wp2_bind ?_
  rw [wp2_emit]
  have h : Paired W l { s with hist := s.hist ++ [.call c] } { s' with hist := s'.hist ++ [.call c] } := by
    obtain ⟨F, h⟩ := h
    exact ⟨F, h.event (.call c)⟩
  have keep : ∀ {t t'}, (¬ ∃ m, c = .sendMail m) → Paired W l t t' → Paired W (l ∨ ∃ m, c = .sendMail m) t t' := by
    rintro t t' hc ⟨F, h⟩
    exact ⟨F, { h with log := fun f => h.log (f.imp (fun f => f.resolve_right hc) id) }⟩
  have least : ∀ {t t'} {l : Prop}, Paired W l t t' → Paired W False t t' := by
    rintro t t' l ⟨F, h⟩
    exact ⟨F, { h with log := fun f => h.log (f.imp False.elim id) }⟩
  cases c with
  | setServerName p =>
    dsimp only
    unfold setServerName
    cases checkName p with
    | error e => cases e <;> first | exact ⟨rfl, keep (fun ⟨_, f⟩ => nomatch f) h⟩ | exact ⟨rfl, least h⟩
    | ok name => exact ⟨rfl, keep (fun ⟨_, f⟩ => nomatch f) (setter_paired (g := ({ · with serverName := some name })) h (fun _ => rfl) fun _ _ h => { h with serverName := rfl })⟩
  | setServerPort n => exact ⟨rfl, keep (fun ⟨_, f⟩ => nomatch f) (setter_paired (g := ({ · with port := n })) h (fun _ => rfl) fun _ _ h => { h with port := rfl })⟩
  | setBatchMode n => exact ⟨rfl, keep (fun ⟨_, f⟩ => nomatch f) (setter_paired (g := ({ · with batch := n })) h (fun _ => rfl) fun _ _ h => { h with batch := rfl })⟩
  | setCommandTimeout n => exact ⟨rfl, keep (fun ⟨_, f⟩ => nomatch f) (setter_paired (g := ({ · with timeout := n })) h (fun _ => rfl) fun _ _ h => { h with timeout := rfl })⟩
  | setCredentials n => exact ⟨rfl, keep (fun ⟨_, f⟩ => nomatch f) (setter_paired (g := ({ · with credential := some n })) h (fun _ => rfl) fun _ _ h => { h with credential := rfl })⟩
  | setKeepUsingBaseSendCommands n =>
    exact ⟨rfl, keep (fun ⟨_, f⟩ => nomatch f) (setter_paired (g := ({ · with keep := n, ptrRaw := n })) h (fun _ => rfl) fun _ _ h => { h with keep := rfl, ptrRaw := rfl })⟩
  | setAcceptSelfSignedCert n =>
    exact ⟨rfl, keep (fun ⟨_, f⟩ => nomatch f) (setter_paired (g := ({ · with acceptSelfSigned := n })) h (fun _ => rfl) fun _ _ h => { h with acceptSelfSigned := rfl })⟩
  | sendMail m =>
    refine wp2_bind (wp2_mono (sendMail_paired m h) (fun x y t t' q => ?_) fun _ _ h => least h)
    obtain ⟨rfl, F, h⟩ := q
    exact ⟨rfl, F, { h with log := fun _ => h.log (.inl trivial) }⟩

theorem runCalls_paired {W : Worlds} (cs : List Call) {l : Prop} {s s' : St} (h : Paired W l s s') :
    wp2 W (runCalls cs) (runCalls cs) (fun x y t t' => x = y ∧ Paired W (l ∨ ∃ m, .sendMail m ∈ cs) t t') (Paired W False) s s' := by
  induction cs generalizing l s s' with
  | nil =>
    obtain ⟨F, h⟩ := h
    exact ⟨rfl, F, { h with log := fun f => h.log (f.imp (fun f => f.resolve_right fun ⟨_, f⟩ => nomatch f) id) }⟩
  | cons c cs ih =>
    unfold runCalls
    refine wp2_bind (wp2_mono (doCall_paired c h) (fun x y t t' q => ?_) fun _ _ h => h)
    obtain ⟨rfl, h⟩ := q
    refine wp2_bind (wp2_mono (ih h) (fun x y t t' q => ?_) fun _ _ h => h)
    obtain ⟨rfl, F, h⟩ := q
    refine ⟨rfl, F, { h with log := fun f => h.log (f.imp ?_ id) }⟩
    rintro (f | ⟨m, f⟩)
    · exact .inl (.inl f)
    · rcases List.mem_cons.mp f with rfl | f
      · exact .inl (.inr ⟨m, rfl⟩)
      · exact .inr ⟨m, f⟩

/-! ### The theorems -/

/-- **C68** (partial). Take two objects of the same class with the same settings, neither in a session nor holding a TLS connection, in worlds that answer alike from
now on. Whatever they did before – whatever is in their logs, their last response, their error number, the options of their last server, their old socket number –
the same calls give the same results, and the same happens in the same order (`x`); afterwards the settings are the same again, either both are in a session or none,
and once a message was sent both logs are the same.
Missing: a TLS connection left over from an earlier session, see `C68_after_rejected_login`. -/
theorem C68_other_past_partial (e e' : Env) (s s' : St) (alike : AnswersAlike e e' s.hist s'.hist) (same : SameSettings s.client s'.client)
    (rest : AtRest s.client) (rest' : AtRest s'.client) (cs : List Call) :
    (runCalls cs e s).1 = (runCalls cs e' s').1 ∧
    (∃ x, (runCalls cs e s).2.hist = continued s.hist x ∧ (runCalls cs e' s').2.hist = continued s'.hist x) ∧
    SameSettings (runCalls cs e s).2.client (runCalls cs e' s').2.client ∧
    (runCalls cs e s).2.client.isConnected = (runCalls cs e' s').2.client.isConnected ∧
    ((∃ m, .sendMail m ∈ cs) → (∃ rs, (runCalls cs e s).1 = .ok rs) → (runCalls cs e s).2.client.log = (runCalls cs e' s').2.client.log) := by
  let W : Worlds := ⟨e, e', s.hist, s'.hist, alike⟩
  have h : Paired W False s s' := by
    have no : ∀ {P : Prop}, False ∨ s.client.isConnected = true → P := fun f => (f.elim id fun f => by rw [rest.1] at f; cases f).elim
    refine ⟨fun fd => fd = 0, ⟨⟨[], ?_, ?_⟩, ⟨none, rest.2, rest'.2, fun _ f => nomatch f⟩, same, rest.1.trans rest'.1.symm, False.elim, False.elim, no, no,
      fun fd h => by rw [h]; exact alike.input, rfl⟩⟩
    · simp [continued, W]
    · simp [continued, W]
  rcases wp2_cases (runCalls_paired cs h) with ⟨rs, rs', t, t', e1, e2, rfl, F, h⟩ | ⟨x, t, t', e1, e2, F, h⟩
  · rw [show runCalls cs e s = _ from e1, show runCalls cs e' s' = _ from e2]
    exact ⟨rfl, h.hist, h.same, h.connected, fun hm _ => h.log (.inl (.inr hm))⟩
  · rw [show runCalls cs e s = _ from e1, show runCalls cs e' s' = _ from e2]
    exact ⟨rfl, h.hist, h.same, h.connected, fun _ ⟨_, f⟩ => nomatch f⟩

/-! ### A new object -/

theorem evLater_zero (y : Ev) : evLater 0 y = y := by
  have hc : ∀ c, chanLater 0 c = c := by intro c; cases c <;> simp [chanLater]
  have ho : ∀ o, tlsLater 0 o = o := by intro o; cases o <;> simp [tlsLater]
  cases y <;> simp [evLater, hc, ho]

theorem continued_nil (x : Hist) : continued [] x = x := by
  have : evLater 0 = id := funext evLater_zero
  simp [continued, this]

/-- The world as a new process sees it answers as the world of the old one. -/
theorem afresh_alike (e : Env) (h : Hist) (hi : nonblocking 0 h = false) : AnswersAlike e (afresh e h) h [] := by
  have hc : ∀ c, chanLater 0 c = c := by intro c; cases c <;> simp [chanLater]
  have ho : ∀ o, tlsLater 0 o = o := by intro o; cases o <;> simp [tlsLater]
  constructor <;> simp [afresh, continued_nil, hc, ho, hi]
  rfl

/-- **C68** (partial), told of one object: once it is at rest it behaves as if it had just been made and been given its settings. -/
theorem C68_new_process_partial (e : Env) (s : St) (rest : AtRest s.client) (input : nonblocking 0 s.hist = false) (cs : List Call) :
    let new := runCalls cs (afresh e s.hist) { client := anew s.client, hist := [] }
    (runCalls cs e s).1 = new.1 ∧ (runCalls cs e s).2.hist = continued s.hist new.2.hist := by
  obtain ⟨h1, ⟨x, h2, h3⟩, -⟩ := C68_other_past_partial e (afresh e s.hist) s { client := anew s.client, hist := [] } (afresh_alike e s.hist input)
    ⟨rfl, rfl, rfl, rfl, rfl, rfl, rfl, rfl, rfl⟩ rest ⟨rfl, rfl⟩ cs
  refine ⟨h1, ?_⟩
  rw [h2, h3, continued_nil]

/-! ### The plain client has no TLS connection -/

/-- Nothing but the negotiation makes a TLS connection. -/
def StaysPlain (s s' : St) : Prop := s'.client.kind = s.client.kind ∧ (s.client.bio = none → s'.client.bio = none)

instance : Talking StaysPlain where
  refl := fun _ => ⟨rfl, id⟩
  trans := fun h h' => ⟨h'.1.trans h.1, h'.2 ∘ h.2⟩
  log := fun _ _ _ _ _ _ _ => ⟨rfl, id⟩
  errno := fun _ _ => ⟨rfl, id⟩
  resp := fun _ _ => ⟨rfl, id⟩
  auth := fun _ _ => ⟨rfl, id⟩
  fcntlGet := fun _ _ _ => ⟨rfl, id⟩
  fcntlSet := fun _ _ _ _ => ⟨rfl, id⟩
  select := fun _ _ _ => ⟨rfl, id⟩
  sockopt := fun _ _ _ => ⟨rfl, id⟩
  resolve := fun _ _ _ => ⟨rfl, id⟩
  connect := fun _ _ _ _ => ⟨rfl, id⟩
  readFile := fun _ _ _ => ⟨rfl, id⟩
  sleep := fun _ => ⟨rfl, id⟩
  recv := fun _ _ _ => ⟨rfl, id⟩
  disconnected := fun _ => ⟨rfl, id⟩
  ctx := fun _ _ => ⟨rfl, id⟩
  noBio := fun _ => ⟨rfl, fun _ => rfl⟩
  noSock := fun _ => ⟨rfl, id⟩
  close := fun _ _ => ⟨rfl, id⟩
  bioFree := fun _ _ => ⟨rfl, id⟩
  quit := fun _ _ _ => ⟨rfl, id⟩
  send := fun _ _ _ _ _ => ⟨rfl, id⟩
  connected := fun _ => ⟨rfl, id⟩

/-- A plain client without TLS connection. -/
def PlainRest (s : St) : Prop := s.client.kind = .smtp ∧ s.client.bio = none

theorem StaysPlain.use {α : Type} {env : Env} {m : M α} (h : Steps env StaysPlain m) {s : St} (hs : PlainRest s) : wp env m (fun _ => PlainRest) (fun _ => PlainRest) s :=
  wp_mono (h.run s) (fun _ _ h => ⟨h.1.trans hs.1, h.2 hs.2⟩) fun _ _ h => ⟨h.1.trans hs.1, h.2 hs.2⟩

theorem establish_plain {env : Env} {s : St} (hs : PlainRest s) : wp env establish (fun _ => PlainRest) (fun _ => PlainRest) s := by
  unfold establish
  rw [wp_bind]
  have init : Steps env StaysPlain initializeSession := by
    unfold initializeSession initializePOSIX sysSocket
    steps [Steps.modifyMem, Steps.modify, Steps.ask, logErrno_steps, sysResolve_steps, setNonBlocking_steps, addLog_steps, connectPOSIX_steps]
    all_goals exact ⟨rfl, id⟩
  refine wp_mono (StaysPlain.use init hs) (fun code s1 h1 => ?_) fun _ _ h => h
  rw [wp_ite]
  refine ⟨fun _ => h1, fun _ => ?_⟩
  rw [wp_bind, wp_gets, h1.1]
  refine StaysPlain.use ?_ h1
  unfold establishGreeted sendServerIdentification authenticateIfNeeded authenticateClient authPlainM authLoginM authXOAuth2M
  have hi : ∀ e t, Steps env StaysPlain (identify e t) := fun e t => identify_steps (fun _ _ _ => ⟨rfl, id⟩) e t
  steps [checkServerGreetings_steps, hi, addLog_steps, sendPtrFb_steps']

theorem sendMail_plain {env : Env} (m : Message) {s : St} (hs : PlainRest s) : wp env (sendMail m) (fun _ => PlainRest) (fun _ => PlainRest) s := by
  unfold sendMail
  rw [wp_bind, wp_gets, wp_ite]
  refine ⟨fun _ => StaysPlain.use (sendMailConnected_steps m) hs, fun _ => ?_⟩
  rw [wp_bind]
  refine wp_mono (establish_plain hs) (fun code s1 h1 => ?_) fun _ _ h => h
  rw [wp_ite]
  exact ⟨fun _ => h1, fun _ => StaysPlain.use (sendMailConnected_steps m) h1⟩

theorem runCalls_plain {env : Env} (cs : List Call) {s : St} (hs : PlainRest s) : wp env (runCalls cs) (fun _ => PlainRest) (fun _ => PlainRest) s := by
  induction cs generalizing s with
  | nil => exact hs
  | cons c cs ih =>
    unfold runCalls
    rw [wp_bind]
    have one : wp env (doCall c) (fun _ => PlainRest) (fun _ => PlainRest) s := by
      unfold doCall
      rw [wp_bind, wp_emit]
      cases c with
      | sendMail m => dsimp only; rw [wp_bind]; exact wp_mono (sendMail_plain (s := { s with hist := s.hist ++ [.call (.sendMail m)] }) m hs) (fun _ _ h => h) fun _ _ h => h
      | setServerName p => dsimp only; unfold setServerName; cases checkName p with
        | error e => cases e <;> exact hs
        | ok => exact hs
      | _ => exact hs
    refine wp_mono one (fun _ s1 h1 => ?_) fun _ _ h => h
    rw [wp_bind]
    exact wp_mono (ih h1) (fun _ _ h => h) fun _ _ h => h

/-- **C68** for `SMTPClient`: after any calls, as soon as no session is open, the object behaves as if it had just been made and been given its settings. -/
theorem C68_plain_new_process (e : Env) (name : Bytes) (port : Nat) (before cs : List Call) (s : St)
    (hs : s = (runCalls before e { client := Client.init .smtp name port, hist := [] }).2) (rest : s.client.isConnected = false) (input : nonblocking 0 s.hist = false) :
    let new := runCalls cs (afresh e s.hist) { client := anew s.client, hist := [] }
    (runCalls cs e s).1 = new.1 ∧ (runCalls cs e s).2.hist = continued s.hist new.2.hist := by
  refine C68_new_process_partial e s ⟨rest, ?_⟩ input cs
  have := runCalls_plain (env := e) before (s := { client := Client.init .smtp name port, hist := [] }) ⟨rfl, rfl⟩
  subst hs
  unfold wp at this
  split at this <;> (rename_i h; rw [h]; exact this.2)

/-- A server that offers STARTTLS and takes the login twice, the first mail entirely and the second up to the recipient. -/
def twoSessions : Env :=
  let secure : List RecvRes := [.data b!"220 hi\r\n"] ++ clear [b!"250-STARTTLS\r\n250 ok\r\n", b!"220 go\r\n"] ++
    [.data b!"250-AUTH PLAIN\r\n250 ok\r\n", .data b!"235 ok\r\n", .data b!"250 ok\r\n"]
  scripted (secure ++ [.data b!"250 ok\r\n", .data b!"354 go\r\n", .data b!"250 ok\r\n"] ++ secure ++ [.data b!"550 no\r\n"])

/-- A client after its first session there. -/
def afterFirst : St := (runCalls [joesPassword, .sendMail mail] twoSessions (fresh .opportunistic)).2

/-- The hypotheses hold after a session with TLS, which has left behind a log, a response and options. -/
example : AtRest afterFirst.client ∧ nonblocking 0 afterFirst.hist = false ∧
    (afterFirst.client.log.isSome && afterFirst.client.lastResponse.isSome && afterFirst.client.authOptions.isSome) = true ∧ afterFirst.hist.length = 51 :=
  ⟨⟨by decide +kernel, by decide +kernel⟩, by decide +kernel, by decide +kernel, by decide +kernel⟩

/-- Then the second session of the old object and the first one of the new object do the same things, over TLS connections that only differ in their number. -/
example :
    (let old := runCalls [.sendMail mail] twoSessions afterFirst
     let new := runCalls [.sendMail mail] (afresh twoSessions afterFirst.hist) { client := anew afterFirst.client, hist := [] }
     let said := fun (h : Hist) => h.filterMap fun | .send _ (.tls id _) d _ => some (id, d) | _ => none
     (old.1, said (old.2.hist.drop 51), new.1, said new.2.hist)) =
    (.ok [.returned 550],
     [(75, b!"ehlo localhost\r\n"), (75, b!"AUTH PLAIN AGpvZQBzZWNyZXQ=\r\n"), (75, b!"MAIL FROM: <me@here.org>\r\n"), (75, b!"RCPT TO: <you@there.org>\r\n")],
     .ok [.returned 550],
     [(24, b!"ehlo localhost\r\n"), (24, b!"AUTH PLAIN AGpvZQBzZWNyZXQ=\r\n"), (24, b!"MAIL FROM: <me@here.org>\r\n"), (24, b!"RCPT TO: <you@there.org>\r\n")]) := by
  decide +kernel

end Verif.Props
