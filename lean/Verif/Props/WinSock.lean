import Verif.Proofs.WinTls
/-!
# Starting and stopping Winsock (C66) and the negotiation on Windows (C67)
-/
namespace Verif.Props
open Verif Verif.Model Verif.Spec Verif.Proofs

/-- A system on which everything works; the handle is 300, the only root certificate can be read, the server's certificate is valid. -/
def winFine : WinEnv where
  startup _ := 0
  resolve _ _ _ := 0
  socket _ := 300
  connect _ _ := true
  ioctl _ _ _ := true
  wsaCleanup _ := 0
  lastError _ := 10093
  tls _ op := match op with
    | .verifyResult _ => 0
    | _ => 1
  tlsErr _ := 0
  storeOpen _ := true
  roots _ := [true]
  errText _ := b!"error"
  wsaText _ := some b!"error"
  x509Text _ := b!"bad"

/-- The same without a listening server. -/
def winNoServer : WinEnv := { winFine with connect := fun _ _ => false }

/-- The same with a `WSACleanup` that fails. -/
def winStuck : WinEnv := { winFine with wsaCleanup := fun _ => -1 }

/-- The same with a self signed certificate. -/
def winSelfSigned : WinEnv := { winFine with tls := fun _ op => match op with | .verifyResult _ => 18 | _ => 1 }

/-- A state with a new client. -/
def winNew : WinSt := { client := .new .smtp b!"mail" 25, hist := [] }

/-! ### Opening -/

/-- Opening the session returns 0 only after Winsock was started, the configured name and port were resolved, a socket was made and connected, in this order; these are all its
events, and the socket is the one the client keeps. -/
theorem C66_session_needs_connection (env : WinEnv) (s s' : WinSt) (h : initializeSessionWin env s = (.ok 0, s')) :
    ∃ name evs, s.client.base.serverName = some name ∧ s'.hist = s.hist ++ evs ∧
      WinOpenedTo name s.client.base.port s'.client.base.sock evs ∧ s'.client.started = true := by
  have hr := initializeSessionWin_run (env := env) s
  unfold wpW at hr
  rw [h] at hr
  cases hr.1 with
  | opened hd n hh hn hs e f => exact ⟨n, _, hn, e, ⟨hd, hs, by rw [hs]; exact hh, by rw [hs]⟩, f⟩

example : (initializeSessionWin winFine winNew).1 = .ok 0 := by decide +kernel

/-- An opening that fails leaves Winsock as it was, when the client had not started it before and `WSACleanup` works. -/
theorem C66_failed_start_is_balanced (env : WinEnv) (s s' : WinSt) (code : Int) (h : initializeSessionWin env s = (.ok code, s')) (hne : code ≠ 0)
    (hs : s.client.started = false) (hk : CleanupsWork s'.hist) : winsockUse s'.hist = winsockUse s.hist ∧ s'.client.started = false := by
  have hr := initializeSessionWin_run (env := env) s
  unfold wpW at hr
  rw [h] at hr
  cases hr.1 with
  | noStartup r hne' e f => exact ⟨by rw [e, winsockUse_append]; simp [winsockUse, winsockStep, hne'], f.trans hs⟩
  | noAddress r r' n p hr e f =>
    have : r' = 0 := hk r' (by simp [e])
    subst this
    exact ⟨by rw [e, winsockUse_append]; simp [winsockUse, winsockStep], f⟩
  | noSocket hd r' n p hh e f =>
    have : r' = 0 := hk r' (by simp [e])
    subst this
    exact ⟨by rw [e, winsockUse_append]; simp [winsockUse, winsockStep], f⟩
  | noConnection hd r' n p hh e f =>
    have : r' = 0 := hk r' (by simp [e])
    subst this
    exact ⟨by rw [e, winsockUse_append]; simp [winsockUse, winsockStep], f⟩
  | opened hd n hh hn hs e f => exact absurd rfl hne

example : (initializeSessionWin winNoServer winNew).1 = .ok (-2) ∧ winNew.client.started = false ∧
    (initializeSessionWin winNoServer winNew).2.hist =
      [.startup 0, .resolve (some b!"mail") b!"25" 0, .socket 300, .connect 300 false, .wsaCleanup 0] := by decide +kernel

/-! ### Programs -/

/-- Whatever a program does with its objects, including copies, moves and assignments, and whatever fails: Winsock is never stopped more often than it was started. -/
theorem C66_never_too_many_stops (env : WinEnv) (ops : List WinOp) : 0 ≤ winsockUse (winRun ops env .empty).2.hist :=
  Int.le_trans (flags_nonneg _) (winRun_below (env := env) ops .empty (Int.le_refl 0))

/-- While an object is connected Winsock runs, in programs that do not move objects. -/
theorem C66_running_while_connected_partial (env : WinEnv) (ops : List WinOp) (hops : ∀ op ∈ ops, ∀ i j, op ≠ .move i ∧ op ≠ .moveAssign i j)
    (i : Nat) (c : WinClient) (hi : (winRun ops env .empty).2.get i = some c) (hc : c.base.isConnected = true) :
    WinsockRunning (winRun ops env .empty).2.hist := by
  have hput : ∀ op ∈ ops, staysPut op = true := by
    intro op hop
    cases op with
    | move j => exact absurd rfl (hops _ hop j 0).1
    | moveAssign j k => exact absurd rfl (hops _ hop j k).2
    | _ => rfl
  have hg := winRun_grounded (env := env) ops .empty hput (fun k c hk => by simp [WinWorld.empty, WinWorld.get] at hk) i c hi
  have hb := winRun_below (env := env) ops .empty (Int.le_refl 0)
  have := flags_ge (winGet_eq hi)
  have := flag_true (hg hc)
  unfold WinsockRunning
  omega

example : (winRun [.create .smtp b!"mail" 25, .send 0 .kept, .copy 0, .send 1 .closed] winFine .empty).2.get 0 ≠ none ∧
    ((winRun [.create .smtp b!"mail" 25, .send 0 .kept, .copy 0, .send 1 .closed] winFine .empty).2.get 0).any (·.base.isConnected) = true := by decide +kernel

/-- Programs that make objects, copy them, send with them and destroy them, never assign or move, and whose refused sessions are all closed, leave Winsock stopped when all objects are
destroyed and no `WSACleanup` failed. -/
theorem C66_balanced_partial (env : WinEnv) (ops : List WinOp)
    (hops : ∀ op ∈ ops, ∀ i j, op ≠ .move i ∧ op ≠ .moveAssign i j ∧ op ≠ .assign i j ∧ op ≠ .send i .refused)
    (hk : CleanupsWork (winRun ops env .empty).2.hist) (hgone : WinWorld.allGone (winRun ops env .empty).2) :
    winsockUse (winRun ops env .empty).2.hist = 0 := by
  have htidy : ∀ op ∈ ops, tidy op = true := by
    intro op hop
    cases op with
    | move j => exact absurd rfl (hops _ hop j 0).1
    | moveAssign j k => exact absurd rfl (hops _ hop j k).2.1
    | assign j k => exact absurd rfl (hops _ hop j k).2.2.1
    | send j e =>
      cases e with
      | refused => exact absurd rfl (hops _ hop j 0).2.2.2
      | _ => rfl
    | _ => rfl
  rw [← winRun_level (env := env) ops .empty htidy hk rfl (fun k c hk => by simp [WinWorld.empty, WinWorld.get] at hk)]
  exact flags_none hgone

/-- An ordinary program: two objects, several mails, one refused. -/
def winTidy : List WinOp :=
  [.create .smtp b!"mail" 25, .send 0 .kept, .send 0 .closed, .copy 0, .send 1 .refusedClosed, .send 1 .kept, .destroy 1, .destroy 0]

example : (∀ op ∈ winTidy, ∀ i j, op ≠ .move i ∧ op ≠ .moveAssign i j ∧ op ≠ .assign i j ∧ op ≠ .send i .refused) ∧
    (winRun winTidy winFine .empty).1 = .ok () ∧ (winRun winTidy winFine .empty).2.clients = [none, none] ∧
    (winRun winTidy winFine .empty).2.hist.length = 21 := by
  refine ⟨?_, by decide +kernel⟩
  intro op hop
  simp only [winTidy, List.mem_cons, List.not_mem_nil, or_false] at hop
  rcases hop with rfl | rfl | rfl | rfl | rfl | rfl | rfl | rfl <;> simp

/-! ### What goes wrong -/

/-- A session refused without `cleanup` (wrong password on an unencrypted connection, say) and a second attempt: Winsock is started twice and stopped once. -/
theorem C66_restart_leaks :
    ∃ (env : WinEnv) (ops : List WinOp), (winRun ops env .empty).1 = .ok () ∧ WinWorld.allGone (winRun ops env .empty).2 ∧
      CleanupsWork (winRun ops env .empty).2.hist ∧ winsockUse (winRun ops env .empty).2.hist = 1 := by
  refine ⟨winFine, [.create .smtp b!"mail" 25, .send 0 .refused, .send 0 .closed, .destroy 0], by decide +kernel, ?_, ?_, by decide +kernel⟩
  · have : (winRun [.create .smtp b!"mail" 25, .send 0 .refused, .send 0 .closed, .destroy 0] winFine .empty).2.clients = [none] := by decide +kernel
    intro i
    unfold WinWorld.get
    rw [this]
    cases i <;> simp
  · have : (winRun [.create .smtp b!"mail" 25, .send 0 .refused, .send 0 .closed, .destroy 0] winFine .empty).2.hist.all
        (fun e => match e with | .wsaCleanup r => r == 0 | _ => true) = true := by decide +kernel
    intro r hr
    have := List.all_eq_true.mp this _ hr
    simpa using this

/-- The same by assigning to an object with an open connection. -/
theorem C66_assign_leaks :
    ∃ (env : WinEnv) (ops : List WinOp), (∀ op ∈ ops, ∀ i j, op ≠ .move i ∧ op ≠ .moveAssign i j ∧ op ≠ .send i .refused) ∧
      (winRun ops env .empty).1 = .ok () ∧ (winRun ops env .empty).2.clients = [none, none] ∧ winsockUse (winRun ops env .empty).2.hist = 1 := by
  refine ⟨winFine, [.create .smtp b!"mail" 25, .create .smtp b!"other" 25, .send 0 .kept, .assign 0 1, .send 0 .closed, .destroy 1, .destroy 0], ?_, by decide +kernel⟩
  intro op hop
  simp only [List.mem_cons, List.not_mem_nil, or_false] at hop
  rcases hop with rfl | rfl | rfl | rfl | rfl | rfl | rfl <;> simp

/-- A move takes the open connection but not the flag: when the source is destroyed Winsock is stopped under the connection of the target. -/
theorem C66_move_stops_winsock :
    ∃ (env : WinEnv) (ops : List WinOp) (c : WinClient), (winRun ops env .empty).1 = .ok () ∧ (winRun ops env .empty).2.get 1 = some c ∧
      c.base.isConnected = true ∧ c.base.sock = 300 ∧ ¬ WinsockRunning (winRun ops env .empty).2.hist := by
  refine ⟨winFine, [.create .smtp b!"mail" 25, .send 0 .kept, .move 0, .destroy 0],
    { base := ((winRun [.create .smtp b!"mail" 25, .send 0 .kept, .move 0, .destroy 0] winFine .empty).2.get 1).get (by decide +kernel) |>.base },
    by decide +kernel, by decide +kernel, by decide +kernel, by decide +kernel, by unfold WinsockRunning; decide +kernel⟩

/-- After a refused connection the socket is kept and Winsock stopped; the destructor then shuts down and closes the socket with Winsock stopped. -/
theorem C66_closes_after_stop :
    ∃ (env : WinEnv) (ops : List WinOp) (before : WinHist), (winRun ops env .empty).1 = .ok () ∧
      (winRun ops env .empty).2.hist = before ++ [.closesocket 300] ∧ winsockUse before = 0 :=
  ⟨winNoServer, [.create .smtp b!"mail" 25, .send 0 .closed, .destroy 0],
    [.startup 0, .resolve (some b!"mail") b!"25" 0, .socket 300, .connect 300 false, .wsaCleanup 0, .shutdown 300], by decide +kernel⟩

/-- The destructor of an object that was moved from while connected writes to a null log when `WSACleanup` fails. -/
theorem C66_null_log :
    ∃ (env : WinEnv) (ops : List WinOp), (winRun ops env .empty).1 = .stop (.ub .nullDeref) :=
  ⟨winStuck, [.create .smtp b!"mail" 25, .send 0 .kept, .move 0, .destroy 0], by decide +kernel⟩

/-! ### TLS -/

/-- The negotiation returns 0 only when context and channel were made, every root certificate of the store imported, the connection and handshake succeeded, the server presented a certificate and its
verification gave 0 – or 18 when self signed certificates are accepted. -/
theorem C67_zero_means_checked (env : WinEnv) (s s' : WinSt) (h : startTLSNegotiationWin env s = (.ok 0, s')) :
    ∃ evs, s'.hist = s.hist ++ evs ∧ TlsChecked env.roots s.client.base.acceptSelfSigned s.hist evs := by
  have hr := startTLSNegotiationWin_run (env := env) s
  unfold wpW at hr
  rw [h] at hr
  obtain ⟨evs, e, hz, -⟩ := hr
  exact ⟨evs, e, hz rfl⟩

/-- A client with a log. -/
def winTlsNew : WinSt := { client := { base := { Client.init .forced b!"mail" 587 with log := some .fresh, sock := 300 }, started := true }, hist := [] }

example : (startTLSNegotiationWin winFine winTlsNew).1 = .ok 0 ∧ (startTLSNegotiationWin winSelfSigned winTlsNew).1 = .ok (-58) := by decide +kernel

/-- Whatever is returned, the certificate store opened is closed exactly when the code is not one of the four failures after its opening. -/
theorem C67_store_closed_partial (env : WinEnv) (s s' : WinSt) (code : Int) (h : startTLSNegotiationWin env s = (.ok code, s')) :
    storesOpen s'.hist = storesOpen s.hist ↔ code ∉ [(-55 : Int), -56, -57, -58] := by
  have hr := startTLSNegotiationWin_run (env := env) s
  unfold wpW at hr
  rw [h] at hr
  obtain ⟨evs, e, -, ⟨hc, ho⟩ | ⟨hc, ho, -⟩⟩ := hr
  · rw [e, storesOpen_append, ho, Int.add_zero]
    refine ⟨fun _ hm => ?_, fun _ => rfl⟩
    simp at hc hm
    omega
  · rw [e, storesOpen_append, ho]
    exact ⟨fun h => by omega, fun h => absurd hc h⟩

/-- Not always: a certificate that is not accepted leaves the store open, one more for every attempt. -/
theorem C67_store_left_open :
    ∃ (env : WinEnv) (s s' : WinSt), startTLSNegotiationWin env s = (.ok (-58), s') ∧ storesOpen s'.hist = storesOpen s.hist + 1 :=
  ⟨winSelfSigned, winTlsNew, (startTLSNegotiationWin winSelfSigned winTlsNew).2, by decide +kernel, by decide +kernel⟩

/-- A failed negotiation, other than for lack of memory or of the certificate store, also leaves the connection closed and Winsock stopped by this client: the socket
was shut down and closed, and the client forgot it. -/
theorem C67_failure_closes (env : WinEnv) (s s' : WinSt) (code : Int) (h : startTLSNegotiationWin env s = (.ok code, s')) (hc : code ∈ [(-55 : Int), -56, -57, -58]) :
    (s'.client.base.sock = 0 ∧ s'.client.base.isConnected = false ∧ s'.client.started = false) ∧
    (s.client.base.sock ≠ 0 → ∃ evs, s'.hist = s.hist ++ evs ∧ .shutdown s.client.base.sock ∈ evs ∧ .closesocket s.client.base.sock ∈ evs) := by
  have hr := startTLSNegotiationWin_run (env := env) s
  unfold wpW at hr
  rw [h] at hr
  obtain ⟨evs, e, -, ⟨hc', -⟩ | ⟨-, -, ho⟩⟩ := hr
  · simp at hc hc'
    omega
  · refine ⟨ho, fun hv => ?_⟩
    have hk := startTLSNegotiationWin_closes (env := env) (h0 := s.hist) hv s ⟨[], by simp, .inl rfl⟩
    unfold wpW at hk
    rw [h] at hk
    obtain ⟨evs, e, hk⟩ := hk
    exact ⟨evs, e, hk.resolve_left fun e => hv (e.symm.trans ho.1)⟩

example : (startTLSNegotiationWin winSelfSigned winTlsNew).2.client.base.sock = 0 ∧ winTlsNew.client.base.sock = 300 := by decide +kernel

end Verif.Props
