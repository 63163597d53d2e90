import Verif.Proofs.Owing
import Verif.Props.Modes
/-!
# C80: no command on a connection that still owes a reply
-/
namespace Verif.Props
open Verif Verif.Model Verif.Spec Verif.Proofs

variable {env : Env}

/-- Opening a connection. -/
theorem initializeSession_turn (s : St) (hc : s.client.isConnected = false) (hs : Rested s) :
    wp env initializeSession (fun code s' => Rested s' ∧ (code = 0 → Owing none s')) (fun _ => InTurnIn) s := by
  have key : wp env initializeSession (fun code s' => (s'.client.isConnected = false → Rested s') ∧ (code = 0 → Owing none s')) (fun _ => InTurnIn) s := by
    unfold initializeSession initializePOSIX sysSocket
    rw [wp_bind, wp_modifyMem]
    refine wp_asks fun r => ?_
    have h1 := hs.event (e := .socket r) nofun
    cases r with
    | err n =>
      dsimp only
      rw [wp_bind, wp_modify, wp_bind]
      have nt : Notes (fun s' : St => Rested s') := ⟨fun s c m hc h => by
        unfold SameConn at hc
        rw [hc]
        exact ⟨h.ok, h.ids, h.sock, h.bio, h.plain⟩⟩
      refine wp_mono (nt.logErrno n _ ?_) (fun _ s' h => ⟨fun _ => h, nofun⟩) (fun _ _ h => h.ok)
      exact ⟨h1.ok, h1.ids, fun h => absurd (hc.symm.trans h) (by decide), h1.bio, h1.plain⟩
    | val w =>
      dsimp only
      rw [wp_bind, wp_modify]
      have h2 : Owing none { client := { s.client with log := some .fresh, sock := (w : Int) }, hist := s.hist ++ [Ev.socket (.val w)], mem := s.mem ++ [.freshLog] } :=
        ⟨h1.ok, h1.ids, fun _ => .inr not_owes_opened, fun b hb => ⟨(h1.bio b hb).1, fun _ => (h1.bio b hb).2⟩, h1.plain⟩
      refine wp_mono (Pres.use (I := Owing none) ?_ h2) (fun _ _ h => ⟨fun _ => h.rest, fun _ => h⟩) (fun _ _ h => h.ok)
      steps [setNonBlocking_steps, connectPOSIX_steps, addLog_steps, sysResolve_steps]
  refine wp_mono (wp_and key ((initializeSession_opens (env := env)).run s)) (fun code s' h => ?_) (fun _ _ h => h.1)
  exact ⟨h.1.1 (h.2.isConnected.trans hc), h.1.2⟩

abbrev OwingOf (k : Kind) : St → Prop := OfKind k (Owing none)

theorem greetings_turn {k : Kind} : Safe env (OwingOf k) InTurnIn checkServerGreetings :=
  Safe.ofKind ⟨fun _ hs => wp_mono (Pres.use checkServerGreetings_steps hs) (fun _ _ h => h) (fun _ _ h => h.ok)⟩
    (checkServerGreetings_steps (hR := kind_anything.toReading))

theorem startTLS_turn {k : Kind} (hk : k ≠ .smtp) : Safe env (OwingOf k) InTurnIn startTLSNegotiation := by
  have call : ∀ op, Safe env (OwingOf k) InTurnIn (M.ask (fun e h => e.tls h op) (Ev.tls op)) :=
    fun op => Safe.ask fun s r h => ⟨h.1.note (e := .tls op r) nofun, h.2⟩
  have ctx : ∀ b, Safe env (OwingOf k) InTurnIn (M.modify ({ · with ctx := b })) :=
    fun b => Safe.modify fun _ h => ⟨⟨h.1.ok, h.1.ids, h.1.sock, h.1.bio, h.1.plain⟩, h.2⟩
  unfold startTLSNegotiation sysTls
  refine Safe.bind (sf_addLog _ _) fun _ => Safe.bind (call _) fun _ => Safe.ite (by safes [sf_setErrNo, ctx]) (Safe.bind (ctx _) fun _ => ?_)
  constructor
  intro s hs
  rw [wp_bind, wp_histLength]
  refine wp_asks fun r => ?_
  have h3 : Owing none (St.snoc s (.tls .bioNew r)) := hs.1.note nofun
  rw [wp_ite]
  refine ⟨fun _ => ?_, fun _ => ?_⟩
  · rw [wp_bind, wp_modify]
    exact ⟨⟨h3.ok, h3.ids, h3.sock, nofun, fun _ => rfl⟩, hs.2⟩
  · rw [wp_bind, wp_gets, wp_bind, wp_modify]
    refine Safe.run (?_ : Safe env (OwingOf k) InTurnIn _) _
      ⟨⟨h3.ok, h3.ids, h3.sock, fun b hb => ?_, fun h => absurd (hs.2.symm.trans h) hk⟩, hs.2⟩
    · safes [sf_addLog, sf_setErrNo, sf_cleanup, call]
    · cases hb
      refine ⟨by simp [St.snoc], fun _ => not_owes_never fun d r hm => ?_⟩
      have hm : _ ∈ s.hist ++ [Ev.tls .bioNew _] := hm
      rw [List.mem_append] at hm
      rcases hm with hm | hm
      · exact absurd (hs.1.ids _ _ _ _ hm) (Nat.lt_irrefl _)
      · simp at hm

theorem establish_turn (s : St) (hc : s.client.isConnected = false) (hs : Rested s) :
    wp env establish (fun code s' => Rested s' ∧ (code = 0 → Owing none s')) (fun _ => InTurnIn) s := by
  unfold establish
  rw [wp_bind]
  refine wp_mono (initializeSession_turn s hc hs) (fun code s1 h1 => ?_) (fun _ _ h => h)
  rw [wp_ite]
  refine ⟨fun hn => ⟨h1.1, fun h0 => absurd h0 hn⟩, fun h0 => ?_⟩
  have h2 := h1.2 (Decidable.not_not.mp h0)
  rw [wp_bind, wp_gets]
  have keep : ∀ k b, Safe env (OwingOf k) InTurnIn (setKeepUsingBase b) :=
    fun k b => Safe.modify fun _ h => ⟨⟨h.1.ok, h.1.ids, h.1.sock, h.1.bio, h.1.plain⟩, h.2⟩
  have run : ∀ k (m : M Int), Safe env (OwingOf k) InTurnIn m → s1.client.kind = k →
      wp env m (fun code s' => Rested s' ∧ (code = 0 → Owing none s')) (fun _ => InTurnIn) s1 := fun k m hm hk =>
    wp_mono (hm.run s1 ⟨h2, hk⟩) (fun _ _ h => ⟨h.1.rest, fun _ => h.1⟩) (fun _ _ h => h)
  cases hk : s1.client.kind with
  | smtp =>
    refine run .smtp _ ?_ hk
    unfold establishGreeted sendServerIdentification
    safes [greetings_turn, sf_identify, sf_authenticateIfNeeded]
  | opportunistic =>
    refine run .opportunistic _ ?_ hk
    have t := startTLS_turn (env := env) (k := .opportunistic) (by decide)
    unfold establishGreeted sendServerIdentification establishOpportunistic upgradeToSecureConnection getServerSecureIdentification
    safes [greetings_turn, sf_addLog, sf_sendRawFb, sf_identify, sf_authenticateIfNeeded, keep]
  | forced =>
    refine run .forced _ ?_ hk
    have t := startTLS_turn (env := env) (k := .forced) (by decide)
    unfold establishForced getServerSecureIdentification
    safes [greetings_turn, sf_addLog, sf_identify, sf_authenticateIfNeeded]

theorem sendMail_turn (m : Message) (s : St) (hs : Rested s) : wp env (sendMail m) (fun _ => Rested) (fun _ => InTurnIn) s := by
  have conn : ∀ s, Owing none s → wp env (sendMailConnected m) (fun _ => Rested) (fun _ => InTurnIn) s := fun s h =>
    wp_mono ((sf_sendMailConnected (I := Owing none) m).run s h) (fun _ _ h => h.rest) (fun _ _ h => h)
  unfold sendMail
  rw [wp_bind, wp_gets, wp_ite]
  refine ⟨fun hc => conn s ⟨hs.ok, hs.ids, fun _ => hs.sock hc, fun b hb => ⟨(hs.bio b hb).1, fun _ => (hs.bio b hb).2⟩, hs.plain⟩, fun hc => ?_⟩
  rw [wp_bind]
  refine wp_mono (establish_turn s (by simpa using hc) hs) (fun code s1 h1 => ?_) (fun _ _ h => h)
  rw [wp_ite]
  exact ⟨fun _ => h1.1, fun h0 => conn s1 (h1.2 (Decidable.not_not.mp h0))⟩

theorem doCall_turn (c : Call) (s : St) (hs : Rested s) : wp env (doCall c) (fun _ => Rested) (fun _ => InTurnIn) s := by
  unfold doCall
  rw [wp_bind, wp_emit]
  have h1 : Rested (St.snoc s (.call c)) := hs.event nofun
  have same : ∀ c', c'.sock = s.client.sock → c'.bio = s.client.bio → c'.kind = s.client.kind → c'.isConnected = s.client.isConnected →
      Rested { St.snoc s (.call c) with client := c' } := fun c' e1 e2 e3 e4 =>
    ⟨h1.ok, h1.ids, fun h => by show c'.sock = 0 ∨ ¬ OwesReply (.raw c'.sock) _; rw [e1]; exact h1.sock (e4 ▸ h), fun b hb => h1.bio b (e2 ▸ hb),
      fun hk => by show c'.bio = none; rw [e2]; exact h1.plain (e3 ▸ hk)⟩
  cases c with
  | setServerName q =>
    dsimp only
    unfold setServerName
    rcases checkName_cases q with ⟨hb, he⟩ | ⟨t, ht, hw, -, he⟩ | ⟨-, he⟩
    · rw [he]; exact h1
    · rw [he]; exact same { s.client with serverName := some t } rfl rfl rfl rfl
    · rw [he]; exact h1.ok
  | setServerPort q => exact same { s.client with port := q } rfl rfl rfl rfl
  | setBatchMode b => exact same { s.client with batch := b } rfl rfl rfl rfl
  | setCommandTimeout b => exact same { s.client with timeout := b } rfl rfl rfl rfl
  | setCredentials b => exact same { s.client with credential := some b } rfl rfl rfl rfl
  | setKeepUsingBaseSendCommands b => exact same { s.client with keep := b, ptrRaw := b } rfl rfl rfl rfl
  | setAcceptSelfSignedCert b => exact same { s.client with acceptSelfSigned := b } rfl rfl rfl rfl
  | sendMail m =>
    dsimp only
    rw [wp_bind]
    exact wp_mono (sendMail_turn m _ h1) (fun _ _ h => h) (fun _ _ h => h)

theorem runCalls_turn (cs : List Call) (s : St) (hs : Rested s) : wp env (runCalls cs) (fun _ => Rested) (fun _ => InTurnIn) s := by
  induction cs generalizing s with
  | nil => exact hs
  | cons c cs ih =>
    unfold runCalls
    rw [wp_bind]
    refine wp_mono (doCall_turn c s hs) (fun _ s1 h1 => ?_) (fun _ _ h => h)
    rw [wp_bind]
    exact wp_mono (ih s1 h1) (fun _ _ h => h) (fun _ _ h => h)

/-- The destructor only says QUIT. -/
theorem destroy_turn (s : St) (hs : Rested s) : wp env destroy (fun _ => InTurnIn) (fun _ => InTurnIn) s := by
  have h1 : Owing (some (.raw s.client.sock)) (St.snoc s .destroy) := by
    have h1 := hs.event (e := .destroy) nofun
    exact ⟨h1.ok, h1.ids, fun h => absurd rfl h, fun b hb => ⟨(h1.bio b hb).1, fun _ => (h1.bio b hb).2⟩, h1.plain⟩
  unfold destroy
  rw [wp_bind, wp_emit]
  exact wp_mono (cleanup_pays _ h1) (fun _ _ h => h.ok) (fun _ _ h => h)

/-- **C80** (partial). In the whole life of a client — whatever the calls, the server, the network and the operating system do — whatever is
sent on a connection other than QUIT is sent when something was received there after every command sent there before.
Missing: descriptor 0 (`C80_zero`), and that nothing is sent after the end of the connection was read (`C80_after_end`). -/
theorem C80_in_turn_partial (env : Env) (k : Kind) (name : Bytes) (port : Nat) (cs : List Call) (pre post : Hist) (e : Ev)
    (h : (life cs env { client := Client.init k name port, hist := [] }).2.hist = pre ++ e :: post) : SpeaksInTurn pre e := by
  have key : InTurnIn (life cs env { client := Client.init k name port, hist := [] }).2 := by
    refine state_of (I := InTurnIn) ?_
    unfold life
    rw [wp_bind]
    refine wp_mono (runCalls_turn cs _ ⟨fun pre e post h => by simp at h, fun _ _ _ _ h => by simp at h, by simp [Client.init], by simp [Client.init], by simp [Client.init]⟩)
      (fun _ s1 h1 => ?_) (fun _ _ h => h)
    rw [wp_bind]
    exact wp_mono (destroy_turn s1 h1) (fun _ _ h => h) (fun _ _ h => h)
  exact key pre e post h

theorem snoc_induction {α : Type} {motive : List α → Prop} (nil : motive []) (snoc : ∀ l a, motive l → motive (l ++ [a])) (l : List α) : motive l := by
  have : ∀ l : List α, motive l.reverse := by
    intro l
    induction l with
    | nil => exact nil
    | cons a l ih => rw [List.reverse_cons]; exact snoc _ _ ih
  simpa using this l.reverse

/-- Whether a reply is missing, computed. -/
def owesNow (c : Chan) (h : Hist) : Bool :=
  h.foldl (fun b e => match e with
    | .send .cmd c' _ _ => decide (c' = c) || b
    | .recv c' (.data _) => if c' = c then false else b
    | .socket (.val v) => if c = .raw v then false else b
    | _ => b) false

theorem owesNow_iff (c : Chan) (h : Hist) : owesNow c h = true ↔ OwesReply c h := by
  induction h using snoc_induction with
  | nil =>
    refine ⟨nofun, ?_⟩
    rintro ⟨x, d, r, y, he, -⟩
    simp at he
  | snoc h e ih =>
    have step : owesNow c (h ++ [e]) = (match e with
      | .send .cmd c' _ _ => decide (c' = c) || owesNow c h
      | .recv c' (.data _) => if c' = c then false else owesNow c h
      | .socket (.val v) => if c = .raw v then false else owesNow c h
      | _ => owesNow c h) := by
      unfold owesNow
      rw [List.foldl_append]
      rfl
    rw [step]
    have more : OwesReply c h → (∀ d, e ≠ .recv c (.data d)) → (∀ v : Nat, c = .raw v → e ≠ .socket (.val v)) → OwesReply c (h ++ [e]) := by
      rintro ⟨x, d, r, y, rfl, h1, h2⟩ h3 h4
      refine ⟨x, d, r, y ++ [e], by simp, fun d' hm => ?_, fun v hv hm => ?_⟩
      · rcases List.mem_append.mp hm with hm | hm
        · exact h1 d' hm
        · exact h3 d' (List.mem_singleton.mp hm).symm
      · rcases List.mem_append.mp hm with hm | hm
        · exact h2 v hv hm
        · exact h4 v hv (List.mem_singleton.mp hm).symm
    split
    · rename_i c' d r
      rw [Bool.or_eq_true, decide_eq_true_iff, ih]
      constructor
      · rintro (rfl | h')
        · exact ⟨h, d, r, [], rfl, nofun, nofun⟩
        · exact more h' nofun nofun
      · intro h'
        by_cases hc : c' = c
        · exact .inl hc
        · exact .inr (owes_snoc h' fun d r e => hc (by injection e))
    · rename_i c' d
      split
      · rename_i hc
        subst hc
        exact ⟨nofun, fun h' => absurd h' (not_owes_received (d' := d) (by simp [IsSend]) (by simp))⟩
      · rename_i hc
        rw [ih]
        exact ⟨fun h' => more h' (fun d e => hc (by injection e)) nofun, fun h' => owes_snoc h' nofun⟩
    · rename_i v
      split
      · rename_i hc
        subst hc
        exact ⟨nofun, fun h' => absurd h' not_owes_opened⟩
      · rename_i hc
        rw [ih]
        exact ⟨fun h' => more h' nofun (fun w hw e => hc (by cases e; exact hw)), fun h' => owes_snoc h' nofun⟩
    · rename_i h1 h2 h3
      rw [ih]
      exact ⟨fun h' => more h' (fun d e => h2 _ _ e) (fun v _ e => h3 _ e), fun h' => owes_snoc h' fun d r e => h1 _ _ _ e⟩

/-- What was sent while a reply was missing there. -/
def outOfTurn (h : Hist) : List (Chan × Bytes) :=
  (List.range h.length).filterMap fun (i : Nat) => match (h[i]? : Option Ev) with
    | some (.send _ c d _) => if owesNow c (h.take i) then some (c, d) else none
    | _ => none

/-- What was sent after the end of the connection was read there. -/
def afterEnd (h : Hist) : List (Chan × Bytes) :=
  (List.range h.length).filterMap fun (i : Nat) => match (h[i]? : Option Ev) with
    | some (.send _ c d _) => if (h.take i).any (· == .recv c .eof) then some (c, d) else none
    | _ => none

/-- Three recipients. -/
def threeMail : Message :=
  Message.new { email := b!"me@here.org", displayName := [] }
    (some [{ email := b!"you@there.org", displayName := b!"You" }, { email := b!"two@there.org", displayName := [] }, { email := b!"six@there.org", displayName := [] }]) 3
    (some b!"Hello") (some b!"Body") none 0 none 0 none 0 mimePlain

/-- **Descriptor 0.** The first recipient is not answered and the session is closed; the second is written to descriptor 0, and, although
nothing is received there either, so is the third. -/
theorem C80_zero :
    (let r := life [.sendMail threeMail] (numbered (scripted (.data b!"220 hi\r\n" :: clear [b!"250 ok\r\n", b!"250 ok\r\n"]))) (fresh .smtp)
     (r.1, outOfTurn r.2.hist)) =
    (.ok [.returned (-88)], [(.raw 0, b!"RCPT TO: <six@there.org>\r\n")]) := by decide +kernel

/-- **After the end of the connection.** In clear the client reads until nothing more comes for a while; when the server sends a reply and closes the
connection, the client reads the end of the connection, waits until its timeout, and counts the reply: the next command is sent on the closed connection. -/
theorem C80_after_end :
    (let r := life [.sendMail mail] (numbered (scripted [.data b!"220 hi\r\n", .data b!"250 ok\r\n", .err, .data b!"250 ok\r\n", .eof])) (fresh .smtp)
     (r.1, afterEnd r.2.hist)) =
    (.ok [.returned (-88)], [(.raw 5, b!"RCPT TO: <you@there.org>\r\n")]) := by decide +kernel

/-- Non-vacuity of `C80_in_turn_partial`: when in batch mode the server falls silent in the second mail, after `DATA`, all that is sent while the reply is missing is QUIT. -/
example :
    (let r := life [.setBatchMode true, .sendMail mail, .sendMail mail] (numbered (scripted (wholeTalk ++ clear [b!"250 ok\r\n", b!"250 ok\r\n"]))) (fresh .smtp)
     (r.1, outOfTurn r.2.hist, writes r.2.hist)) =
    (.ok [.done, .returned 0, .returned (-90)], [(.raw 5, b!"QUIT\r\n")], 14) := by decide +kernel

end Verif.Props
