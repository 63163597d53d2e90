import Verif.Proofs.Modes
import Verif.Props.Served
/-!
# C79: writing in blocking mode, reading in clear in non-blocking mode
-/
namespace Verif.Props
open Verif Verif.Model Verif.Spec Verif.Proofs

variable {env : Env} {v : Int}

/-- While a connection is opened. -/
def Opening79 (v : Int) (s : St) : Prop := Changing False v s ∧ JustOpened v s.hist

theorem notes_opening79 : Notes (Opening79 v) := notes_changing.and (notes_hist (JustOpened v))

theorem calm_justOpened : Calm v (JustOpened v) := ⟨fun _ _ h => justOpened_snoc h nofun, fun _ _ _ h => justOpened_snoc h nofun⟩

theorem wp_asks {α β : Type} {Q : α → St → Prop} {E : Stop → St → Prop} {s : St} {f : Env → Hist → β} {ev : β → Ev} {g : β → M α}
    (h : ∀ r, wp env (g r) Q E (St.snoc s (ev r))) : wp env (M.ask f ev >>= g) Q E s := by
  rw [wp_bind, wp_ask]
  exact h _

theorem connectPOSIX_mode (ip : Bytes) (s : St) (hs : Opening79 v s) :
    wp env (connectPOSIX ip) (fun code s' => Opening79 v s' ∧ (code = 0 → BlockingMode v s'.hist)) (fun _ => Opening79 v) s := by
  have ev : ∀ s e, Opening79 v s → ModeOk s.hist e → (∀ fd, ¬ Touches fd e) → NeutralEv e → (∀ k c d r, e ≠ .send k c d r) → Opening79 v (St.snoc s e) :=
    fun s e h h1 h2 h3 h4 => ⟨h.1.event h1 (fun fd _ => h2 fd) h3, justOpened_snoc h.2 h4⟩
  have back : ∀ s, Opening79 v s → wp env setBlocking (fun code s' => Opening79 v s' ∧ (code = 0 → BlockingMode v s'.hist)) (fun _ => Opening79 v) s :=
    fun s hs => wp_mono (setBlocking_mode calm_justOpened s hs.1 hs.2) (fun _ _ h => ⟨h.1, h.2.2⟩) (fun _ _ h => h)
  have fail : ∀ (n c : Int) s, c ≠ 0 → Opening79 v s → wp env (do logErrno n; pure c) (fun code s' => Opening79 v s' ∧ (code = 0 → BlockingMode v s'.hist)) (fun _ => Opening79 v) s := by
    intro n c s hc hs
    rw [wp_bind]
    exact wp_mono (notes_opening79.logErrno n s hs) (fun _ _ h => ⟨h, fun h0 => absurd h0 hc⟩) (fun _ _ h => h)
  unfold connectPOSIX sysConnect
  rw [wp_bind, wp_gets, wp_bind, wp_gets, wp_bind, wp_ask]
  have h1 : ∀ r, Opening79 v (St.snoc s (.connect s.client.sock ⟨ip, s.client.port % 65536⟩ r)) := fun r => ev _ _ hs trivial (fun _ => id) trivial nofun
  generalize env.connect s.hist s.client.sock ⟨ip, s.client.port % 65536⟩ = r
  specialize h1 r
  cases r with
  | ok => exact back _ h1
  | err e =>
    dsimp only
    rw [wp_ite]
    refine ⟨fun _ => ?_, fun _ => fail e (-2) _ (by decide) h1⟩
    rw [wp_ite]
    refine ⟨fun _ => h1, fun _ => ?_⟩
    unfold sysSelect
    rw [wp_bind, wp_gets]
    refine wp_asks fun r => ?_
    have h2 := ev _ (.select s.client.sock r) h1 trivial (fun _ => id) trivial nofun
    cases r with
    | err e' =>
      dsimp only
      rw [wp_ite]
      exact ⟨fun _ => fail e' (-2) _ (by decide) h2, fun _ => ⟨h2, nofun⟩⟩
    | timeout => exact ⟨h2, nofun⟩
    | ready =>
      dsimp only
      unfold sysSockopt
      refine wp_asks fun r => ?_
      have h3 := ev _ (.sockopt s.client.sock r) h2 trivial (fun _ => id) trivial nofun
      cases r with
      | err e' => exact fail e' (-9) _ (by decide) h3
      | val n =>
        dsimp only
        rw [wp_ite]
        exact ⟨fun _ => fail n (-10) _ (by decide) h3, fun _ => back _ h3⟩

/-- Opening a connection. -/
theorem initializeSession_mode (hf : FreshSockets env) (s : St) (hc : s.client.isConnected = false) (hs : Unmoded s) :
    wp env initializeSession (fun code s' => Unmoded s' ∧ (code = 0 → Moded s' ∧ JustOpened s'.client.sock s'.hist)) (fun _ s' => ModesOk s'.hist) s := by
  have key : wp env initializeSession
      (fun code s' => (s'.client.isConnected = false → Unmoded s') ∧ (code = 0 → Moded s' ∧ JustOpened s'.client.sock s'.hist)) (fun _ s' => ModesOk s'.hist) s := by
    have done : ∀ {v} {s' : St}, Opening79 v s' → (s'.client.isConnected = false → Unmoded s') := by
      intro v s' h hc
      refine ⟨h.1.ok, fun h' => absurd (hc.symm.trans h') (by decide), fun b hb => ?_, h.1.plain⟩
      rcases h.1.bio b hb with h | h
      · exact h.1.elim
      · exact h.2
    unfold initializeSession initializePOSIX sysSocket
    rw [wp_bind, wp_modifyMem, wp_bind, wp_ask]
    have hs' : ∀ r, env.socket s.hist = r → ModesOk (s.hist ++ [Ev.socket r]) := fun r _ => hs.ok.snoc trivial
    cases hr : env.socket s.hist with
    | err n =>
      dsimp only
      rw [wp_bind, wp_modify, wp_bind]
      have nt : Notes (fun s' : St => Unmoded s') := ⟨fun s c m hc h => by
        unfold SameConn at hc
        rw [hc]
        exact ⟨h.ok, h.sock, h.bio, h.plain⟩⟩
      refine wp_mono (nt.logErrno n _ ?_) (fun _ s' h => ⟨fun _ => h, nofun⟩) (fun _ _ h => h.ok)
      exact ⟨hs' _ hr, fun h => absurd (hc.symm.trans h) (by decide), fun b hb => (hs.bio b hb).snoc id, hs.plain⟩
    | val w =>
      dsimp only
      rw [wp_bind, wp_modify, wp_bind, wp_gets]
      have hnew := hf s.hist w hr
      have h1 : Opening79 (w : Int) { client := { s.client with log := some .fresh, sock := (w : Int) }, hist := s.hist ++ [Ev.socket (.val w)], mem := s.mem ++ [.freshLog] } := by
        refine ⟨⟨hs' _ hr, rfl, .inr (by rw [openSockets_val]; exact List.mem_cons_self ..), fun b hb => .inr ?_, hs.plain⟩, ⟨s.hist, w, [], rfl, rfl, by simp⟩⟩
        have hb := hs.bio b hb
        have hne : b.fd = 0 ∨ b.fd ≠ w := by
          rcases hb with h | h
          · exact .inl h
          · exact .inr fun e => hnew (e ▸ h.2)
        refine ⟨hne, ?_⟩
        rcases hne with h0 | hne
        · exact .inl h0
        · exact hb.snoc fun h => hne h.symm
      split
      · exact h1.1.ok
      · rename_i name _
        unfold sysResolve
        refine wp_asks fun r => ?_
        have h2 : Opening79 (w : Int) (St.snoc _ (.resolve name r)) := ⟨h1.1.event trivial (fun _ _ => id) trivial, justOpened_snoc h1.2 nofun⟩
        cases r with
        | none => exact ⟨done h2, nofun⟩
        | some a =>
          dsimp only
          rw [wp_ite]
          refine ⟨fun _ => h2.1.ok, fun _ => ?_⟩
          rw [wp_bind]
          refine wp_mono (setNonBlocking_mode calm_justOpened _ h2.1 h2.2) (fun code s3 h3 => ?_) (fun _ _ h => h.1.ok)
          rw [wp_ite]
          refine ⟨fun _ => ⟨done h3.1, nofun⟩, fun _ => ?_⟩
          rw [wp_bind, wp_gets, wp_bind]
          refine wp_mono (notes_opening79.addLog _ _ s3 h3.1) (fun _ s4 h4 => ?_) (fun _ _ h => h.1.ok)
          refine wp_mono (connectPOSIX_mode _ s4 h4) (fun code s5 h5 => ?_) (fun _ _ h => h.1.ok)
          refine ⟨done h5.1, fun h0 => ?_⟩
          have := h5.1.1.done (.inl (h5.2 h0))
          exact ⟨this, h5.1.1.sock ▸ h5.1.2⟩
  refine wp_mono (wp_and key ((initializeSession_opens (env := env)).run s)) (fun code s' h => ?_) (fun _ _ h => h.1)
  exact ⟨h.1.1 (h.2.isConnected.trans hc), h.1.2⟩

/-- The invariant together with the class of the client. -/
def ModedOf (k : Kind) (s : St) : Prop := Moded s ∧ s.client.kind = k

/-- Where the program stopped. -/
abbrev ModesOkIn (s : St) : Prop := ModesOk s.hist

instance safe_modedOf (k : Kind) : SafeInv (ModedOf k) ModesOkIn where
  weak := fun _ h => h.1.ok
  client := fun s c m hc h => ⟨safe_moded.client s c m hc h.1, by unfold SameConn at hc; rw [hc]; exact h.2⟩
  sleep := fun s h => ⟨safe_moded.sleep s h.1, h.2⟩
  readFile := fun s n r h => ⟨safe_moded.readFile s n r h.1, h.2⟩
  rawReply := fun env => ⟨fun s h => wp_mono (wp_and ((safe_moded.rawReply env).run s h.1)
      ((getRawReply_steps (R := fun s s' : St => s'.client.kind = s.client.kind) (hR := kind_anything.toReading)).run s))
    (fun _ _ h' => ⟨h'.1, h'.2.trans h.2⟩) (fun _ _ h' => h'.1)⟩
  recvTls := fun s b r hb h => ⟨safe_moded.recvTls s b r hb h.1, h.2⟩
  sendRaw := fun s k d r h => ⟨safe_moded.sendRaw s k d r h.1, h.2⟩
  sendTls := fun s b k d r hb h => ⟨safe_moded.sendTls s b k d r hb h.1, h.2⟩
  closed := fun s h => ⟨safe_moded.closed s h.1, by show (closedClient s.client).kind = k; rw [closedClient_kind]; exact h.2⟩
  connected := fun s h => ⟨safe_moded.connected s h.1, h.2⟩

/-- The greeting. -/
theorem greetings_mode {k : Kind} (s : St) (hs : ModedOf k s) (hj : JustOpened s.client.sock s.hist) :
    wp env checkServerGreetings (fun _ => ModedOf k) (fun _ => ModesOkIn) s := by
  unfold checkServerGreetings
  rw [wp_bind, wp_gets, wp_ite]
  refine ⟨fun _ => ?_, fun _ => ?_⟩
  · refine Safe.run (?_ : Safe env (ModedOf k) ModesOkIn _) s hs
    safes [sf_waitLoop, sf_greetingResult]
  · rw [wp_bind, wp_gets, wp_bind, wp_gets, wp_bind]
    have loop : ∀ n (s' : St), ModedOf k s' → JustOpened s.client.sock s'.hist →
        wp env (waitLoop (sysRecv (.raw s.client.sock)) n) (fun _ => ModedOf k) (fun _ => ModesOkIn) s' := by
      intro n
      have read : ∀ (s' : St) r, ModedOf k s' → JustOpened s.client.sock s'.hist → ModedOf k (St.snoc s' (.recv (.raw s.client.sock) r)) :=
        fun s' r hm hj => ⟨hm.1.event (.inr (.inr hj)) (fun _ => id), hm.2⟩
      induction n with
      | zero =>
        intro s' hm hj
        unfold waitLoop sysRecv
        rw [wp_bind, wp_bind, wp_ask, wp_ite]
        exact ⟨fun _ => (read s' _ hm hj).1.ok, fun _ => read s' _ hm hj⟩
      | succ n ih =>
        intro s' hm hj
        unfold waitLoop sysRecv
        rw [wp_bind, wp_bind, wp_ask, wp_ite]
        refine ⟨fun _ => (read s' _ hm hj).1.ok, fun _ => ?_⟩
        rw [wp_pure]
        have h2 := fun r => read s' r hm hj
        generalize normRecv (nonblocking (Chan.raw s.client.sock).fd s'.hist) (env.recv s'.hist (Chan.raw s.client.sock)) = r
        specialize h2 r
        have tail : wp env (do sysSleep; waitLoop (sysRecv (.raw s.client.sock)) n) (fun _ => ModedOf k) (fun _ => ModesOkIn)
            (St.snoc s' (.recv (.raw s.client.sock) r)) := by
          unfold sysSleep
          rw [wp_bind, wp_emit]
          refine ih (St.snoc (St.snoc s' (.recv (.raw s.client.sock) r)) .sleep) ⟨h2.1.event trivial fun _ => id, h2.2⟩ ?_
          exact justOpened_snoc (justOpened_snoc hj nofun) nofun
        cases r with
        | data d => exact h2
        | eof => exact tail
        | err => exact tail
        | never => exact tail
    refine wp_mono (loop _ s hs hj) (fun r s' h => ?_) (fun _ _ h => h)
    exact (sf_greetingResult r).run s' h

theorem startTLS_mode {k : Kind} (hk : k ≠ .smtp) : Safe env (ModedOf k) ModesOkIn startTLSNegotiation := by
  have call : ∀ op, Safe env (ModedOf k) ModesOkIn (M.ask (fun e h => e.tls h op) (Ev.tls op)) :=
    fun op => Safe.ask fun s r h => ⟨h.1.event (e := .tls op r) trivial (fun _ => id), h.2⟩
  have ctx : ∀ b, Safe env (ModedOf k) ModesOkIn (M.modify ({ · with ctx := b })) :=
    fun b => Safe.modify fun _ h => ⟨⟨h.1.ok, h.1.sock, h.1.bio, h.1.plain⟩, h.2⟩
  unfold startTLSNegotiation sysTls
  refine Safe.bind (sf_addLog _ _) fun _ => Safe.bind (call _) fun _ => Safe.ite (by safes [sf_setErrNo, ctx]) (Safe.bind (ctx _) fun _ => ?_)
  constructor
  intro s hs
  rw [wp_bind, wp_histLength]
  refine wp_asks fun r => ?_
  have h3 : Moded (St.snoc s (.tls .bioNew r)) := hs.1.event trivial (fun _ => id)
  rw [wp_ite]
  refine ⟨fun _ => ?_, fun _ => ?_⟩
  · rw [wp_bind, wp_modify]
    exact ⟨⟨h3.ok, h3.sock, nofun, fun _ => rfl⟩, hs.2⟩
  · rw [wp_bind, wp_gets, wp_bind, wp_modify]
    refine Safe.run (?_ : Safe env (ModedOf k) ModesOkIn _) _
      ⟨⟨h3.ok, h3.sock, fun b hb => by cases hb; exact h3.sock, fun h => absurd (hs.2.symm.trans h) hk⟩, hs.2⟩
    safes [sf_addLog, sf_setErrNo, sf_cleanup, call]

theorem establish_mode (hf : FreshSockets env) (s : St) (hc : s.client.isConnected = false) (hs : Unmoded s) :
    wp env establish (fun code s' => Unmoded s' ∧ (code = 0 → Moded s')) (fun _ => ModesOkIn) s := by
  unfold establish
  rw [wp_bind]
  refine wp_mono (initializeSession_mode hf s hc hs) (fun code s1 h1 => ?_) (fun _ _ h => h)
  rw [wp_ite]
  refine ⟨fun hn => ⟨h1.1, fun h0 => absurd h0 hn⟩, fun h0 => ?_⟩
  obtain ⟨h2, hj⟩ := h1.2 (Decidable.not_not.mp h0)
  rw [wp_bind, wp_gets]
  have keep : ∀ k b, Safe env (ModedOf k) ModesOkIn (setKeepUsingBase b) :=
    fun k b => Safe.modify fun _ h => ⟨⟨h.1.ok, h.1.sock, h.1.bio, h.1.plain⟩, h.2⟩
  have after : ∀ k (m : M Int), Safe env (ModedOf k) ModesOkIn m → s1.client.kind = k →
      wp env (establishGreeted m) (fun code s' => Unmoded s' ∧ (code = 0 → Moded s')) (fun _ => ModesOkIn) s1 := by
    intro k m hm hk
    unfold establishGreeted
    rw [wp_bind]
    refine wp_mono (greetings_mode (k := k) s1 ⟨h2, hk⟩ hj) (fun code s3 h3 => ?_) (fun _ _ h => h)
    refine wp_mono (Safe.run (?_ : Safe env (ModedOf k) ModesOkIn _) s3 h3) (fun _ _ h => ⟨h.1.rest, fun _ => h.1⟩) (fun _ _ h => h)
    unfold sendServerIdentification
    safes [sf_identify]
  cases hk : s1.client.kind with
  | smtp => exact after .smtp _ sf_authenticateIfNeeded hk
  | opportunistic =>
    refine after .opportunistic _ ?_ hk
    have t := startTLS_mode (env := env) (k := .opportunistic) (by decide)
    unfold establishOpportunistic upgradeToSecureConnection getServerSecureIdentification
    safes [sf_addLog, sf_sendRawFb, sf_identify, sf_authenticateIfNeeded, keep]
  | forced =>
    dsimp only
    have t := startTLS_mode (env := env) (k := .forced) (by decide)
    have g : Safe env (ModedOf .forced) ModesOkIn checkServerGreetings := by
      constructor
      intro s hs
      unfold checkServerGreetings
      rw [wp_bind, wp_gets, wp_ite]
      refine ⟨fun _ => ?_, fun h => absurd hs.2 (by simpa using h)⟩
      refine Safe.run (?_ : Safe env (ModedOf .forced) ModesOkIn _) s hs
      safes [sf_waitLoop, sf_greetingResult]
    refine wp_mono (Safe.run (?_ : Safe env (ModedOf .forced) ModesOkIn _) s1 ⟨h2, hk⟩) (fun _ _ h => ⟨h.1.rest, fun _ => h.1⟩) (fun _ _ h => h)
    unfold establishForced getServerSecureIdentification
    safes [sf_addLog, sf_identify, sf_authenticateIfNeeded]

theorem sendMail_mode (hf : FreshSockets env) (m : Message) (s : St) (hs : Unmoded s) : wp env (sendMail m) (fun _ => Unmoded) (fun _ => ModesOkIn) s := by
  have conn : ∀ s, Moded s → wp env (sendMailConnected m) (fun _ => Unmoded) (fun _ => ModesOkIn) s := fun s h =>
    wp_mono ((sf_sendMailConnected (I := Moded) m).run s h) (fun _ _ h => h.rest) (fun _ _ h => h)
  unfold sendMail
  rw [wp_bind, wp_gets, wp_ite]
  refine ⟨fun hc => conn s ⟨hs.ok, hs.sock hc, hs.bio, hs.plain⟩, fun hc => ?_⟩
  rw [wp_bind]
  refine wp_mono (establish_mode hf s (by simpa using hc) hs) (fun code s1 h1 => ?_) (fun _ _ h => h)
  rw [wp_ite]
  exact ⟨fun _ => h1.1, fun h0 => conn s1 (h1.2 (Decidable.not_not.mp h0))⟩

theorem doCall_mode (hf : FreshSockets env) (c : Call) (s : St) (hs : Unmoded s) : wp env (doCall c) (fun _ => Unmoded) (fun _ => ModesOkIn) s := by
  unfold doCall
  rw [wp_bind, wp_emit]
  have h1 : Unmoded (St.snoc s (.call c)) := ⟨hs.ok.snoc trivial, fun h => (hs.sock h).snoc id, fun b hb => (hs.bio b hb).snoc id, hs.plain⟩
  have same : ∀ c', c'.sock = s.client.sock → c'.bio = s.client.bio → c'.kind = s.client.kind → c'.isConnected = s.client.isConnected →
      Unmoded { St.snoc s (.call c) with client := c' } := fun c' e1 e2 e3 e4 =>
    ⟨h1.ok, fun h => by show InMode c'.sock _; rw [e1]; exact h1.sock (e4 ▸ h), fun b hb => h1.bio b (e2 ▸ hb),
      fun hk => by show c'.bio = none; rw [e2]; exact h1.plain (e3 ▸ hk)⟩
  cases c with
  | setServerName q =>
    dsimp only
    unfold setServerName
    rcases checkName_cases q with ⟨hb, he⟩ | ⟨t, ht, hw, -, he⟩ | ⟨-, he⟩
    · rw [he]; exact h1
    · rw [he]; exact same { s.client with serverName := some t } rfl rfl rfl rfl
    · rw [he]; exact h1.ok
  | setServerPort q => exact same { s.client with port := q } rfl rfl rfl rfl
  | setBatchMode b => exact same { s.client with batch := b } rfl rfl rfl rfl
  | setCommandTimeout b => exact same { s.client with timeout := b } rfl rfl rfl rfl
  | setCredentials b => exact same { s.client with credential := some b } rfl rfl rfl rfl
  | setKeepUsingBaseSendCommands b => exact same { s.client with keep := b, ptrRaw := b } rfl rfl rfl rfl
  | setAcceptSelfSignedCert b => exact same { s.client with acceptSelfSigned := b } rfl rfl rfl rfl
  | sendMail m =>
    dsimp only
    rw [wp_bind]
    exact wp_mono (sendMail_mode hf m _ h1) (fun _ _ h => h) (fun _ _ h => h)

theorem runCalls_mode (hf : FreshSockets env) (cs : List Call) (s : St) (hs : Unmoded s) : wp env (runCalls cs) (fun _ => Unmoded) (fun _ => ModesOkIn) s := by
  induction cs generalizing s with
  | nil => exact hs
  | cons c cs ih =>
    unfold runCalls
    rw [wp_bind]
    refine wp_mono (doCall_mode hf c s hs) (fun _ s1 h1 => ?_) (fun _ _ h => h)
    rw [wp_bind]
    exact wp_mono (ih s1 h1) (fun _ _ h => h) (fun _ _ h => h)

theorem destroy_mode (s : St) (hs : Unmoded s) : wp env destroy (fun _ => ModesOkIn) (fun _ => ModesOkIn) s := by
  unfold destroy
  rw [wp_bind, wp_emit]
  have h1 : Unmoded (St.snoc s .destroy) := ⟨hs.ok.snoc trivial, fun h => (hs.sock h).snoc id, fun b hb => (hs.bio b hb).snoc id, hs.plain⟩
  cases hc : s.client.isConnected with
  | true => exact wp_mono ((sf_cleanup (I := Moded)).run (St.snoc s .destroy) ⟨h1.ok, h1.sock hc, h1.bio, h1.plain⟩) (fun _ _ h => h.ok) (fun _ _ h => h)
  | false =>
    unfold cleanup
    rw [wp_bind, wp_env]
    cases env.depth with
    | zero => exact h1.ok
    | succ n =>
      unfold cleanupN
      rw [wp_bind, wp_gets, wp_bind, wp_gets, wp_ite]
      refine ⟨fun h => by simp [hc] at h, fun _ => ?_⟩
      unfold wp
      rw [closeSession_run]
      exact modesOk_close h1.ok

/-- **C79** (partial). In the whole life of a client — whatever the calls, the server, the network and the operating system do, as long as the operating system does not hand out
a descriptor that is in use — whatever is sent is sent while the socket is in blocking mode, in clear as through TLS; replies through TLS are read
in blocking mode; replies in clear other than the greeting are read in non-blocking mode.
Missing: descriptor 0 (`C79_zero`), and sockets whose mode the operating system refused to change (`C79_refused`). -/
theorem C79_modes_partial (env : Env) (hf : FreshSockets env) (k : Kind) (name : Bytes) (port : Nat) (cs : List Call) (pre post : Hist) (e : Ev)
    (h : (life cs env { client := Client.init k name port, hist := [] }).2.hist = pre ++ e :: post) : ModeOk pre e := by
  have key : ModesOkIn (life cs env { client := Client.init k name port, hist := [] }).2 := by
    refine state_of (I := ModesOkIn) ?_
    unfold life
    rw [wp_bind]
    refine wp_mono (runCalls_mode hf cs _ ⟨fun pre e post h => by simp at h, by simp [Client.init], by simp [Client.init], by simp [Client.init]⟩)
      (fun _ s1 h1 => ?_) (fun _ _ h => h)
    rw [wp_bind]
    exact wp_mono (destroy_mode s1 h1) (fun _ _ h => h) (fun _ _ h => h)
  exact key pre e post h

/-- The mode in the specification is the one of the operating system in the model. -/
theorem nonBlockingMode_world {fd : Int} {h : Hist} (hm : NonBlockingMode fd h) : nonblocking fd h = true := by
  obtain ⟨x, y, rfl, hy⟩ := hm
  unfold nonblocking
  rw [List.foldl_append, List.foldl_cons]
  simp only [if_true]
  induction y with
  | nil => rfl
  | cons e y ih =>
    rw [List.foldl_cons]
    have he := hy e (by simp)
    refine Eq.trans ?_ (ih fun e' h => hy e' (by simp [h]))
    congr 1
    split
    · rename_i fd' nb
      split
      · rename_i hfd
        cases nb with
        | true => rfl
        | false => exact absurd hfd he
      · rfl
    · split
      · rename_i hfd
        exact absurd hfd he
      · rfl
    · rfl

theorem blockingMode_world {fd : Int} {h : Hist} (hm : BlockingMode fd h) : nonblocking fd h = false := by
  obtain ⟨x, e, y, rfl, h1, hy⟩ := hm
  unfold nonblocking
  rw [List.foldl_append, List.foldl_cons]
  have first : ∀ (b b' : Bool), b = b' → y.foldl (fun b e => match e with
    | .fcntlSet fd' nb .ok => if fd' = fd then nb else b
    | .socket (.val v) => if (v : Int) = fd then false else b
    | _ => b) b = y.foldl (fun b e => match e with
    | .fcntlSet fd' nb .ok => if fd' = fd then nb else b
    | .socket (.val v) => if (v : Int) = fd then false else b
    | _ => b) b' := fun b b' h => by rw [h]
  refine (first _ false ?_).trans ?_
  · clear first
    unfold MakesBlocking at h1
    split at h1
    · simp [h1]
    · simp [h1]
    · exact h1.elim
  clear first h1
  induction y with
  | nil => rfl
  | cons e y ih =>
    rw [List.foldl_cons]
    have he : e ≠ .fcntlSet fd true .ok := fun h => hy (by simp [h])
    refine Eq.trans ?_ (ih fun h => hy (by simp [h]))
    congr 1
    split
    · rename_i fd' nb
      split
      · rename_i hfd
        cases nb with
        | true => exact absurd (by rw [hfd]) he
        | false => rfl
      · rfl
    · split <;> rfl
    · rfl

/-- What was written in non-blocking mode. -/
def writtenNonBlocking (h : Hist) : List (Chan × Bytes) :=
  (List.range h.length).filterMap fun (i : Nat) => match (h[i]? : Option Ev) with
    | some (.send _ c d _) => if nonblocking c.fd (h.take i) then some (c, d) else none
    | _ => none

/-- An operating system that refuses to switch back to blocking mode after something was read. -/
def refusingModes (env : Env) : Env := { env with fcntlSet := fun h _ b => if !b && 0 < reads h then .err 9 else .ok }

/-- **A refused switch is ignored.** `getRawCommandReply` does not look at the result of switching back to blocking mode: the rest of the
session, MAIL FROM and the content included, is written in non-blocking mode, and `sendMail` reports success. -/
theorem C79_refused :
    (let r := life [.sendMail mail] (numbered (refusingModes (scripted wholeTalk))) (fresh .smtp)
     (r.1, (writtenNonBlocking r.2.hist).length, (writtenNonBlocking r.2.hist).head?.map (·.2), (writtenNonBlocking r.2.hist).getLast?.map (·.2))) =
    (.ok [.returned 0], 10, some b!"MAIL FROM: <me@here.org>\r\n", some b!"QUIT\r\n") := by decide +kernel

theorem C79_refused_fresh : FreshSockets (numbered (refusingModes (scripted wholeTalk))) := numbered_fresh _

/-- A world in which the first socket is number 0 and cannot be connected. -/
def zeroFirst (env : Env) : Env :=
  { env with
    socket := fun h => if 0 ∈ openSockets h then .val ((openSockets h).foldl (fun m fd => max m fd.toNat) 4 + 1) else .val 0
    connect := fun _ fd _ => if fd = 0 then .err 111 else .ok }

theorem zeroFirst_fresh (env : Env) : FreshSockets (zeroFirst env) := by
  intro h v hv
  by_cases h0 : (0 : Int) ∈ openSockets h
  · exact numbered_fresh env h v (by simpa [zeroFirst, numbered, h0] using hv)
  · simp [zeroFirst, h0] at hv
    subst hv
    exact h0

/-- **Descriptor 0.** The first connection attempt, on descriptor 0, fails and leaves the descriptor open and in non-blocking mode. After a
failed write in the next session the client writes the rest of its recipients to descriptor 0. -/
theorem C79_zero :
    (let r := life [.sendMail mail, .sendMail bigMail] (zeroFirst (scripted wholeTalk fun n => if n = 2 then some (.fail 32) else none)) (fresh .smtp)
     (r.1, writtenNonBlocking r.2.hist)) =
    (.ok [.returned (-2), .returned (-87)], [(.raw 0, b!"RCPT TO: <two@there.org>\r\n")]) := by decide +kernel

/-- Non-vacuity of `C79_modes_partial`: in an ordinary session there are eleven writes and all are in blocking mode, and the replies after the greeting are read in non-blocking mode. -/
example :
    (let h := (life [.sendMail mail] (numbered (scripted wholeTalk)) (fresh .smtp)).2.hist
     (writes h, writtenNonBlocking h,
      (List.range h.length).filterMap fun (i : Nat) => match (h[i]? : Option Ev) with
        | some (.recv (.raw fd) (.data _)) => some (nonblocking fd (h.take i))
        | _ => none)) = (11, [], [false, true, true, true, true, true]) := by decide +kernel

end Verif.Props
