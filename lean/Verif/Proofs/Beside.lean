import Verif.Spec.WinDialogue
import Verif.Proofs.Platform
import Verif.Proofs.Log
/-!
# A world of POSIX for every world of Windows

The POSIX client asks more: between the creation of a socket and its connection it resolves the name, and it reads the flags of the socket before it changes them. From its history the
history of the Windows client can be read off; the world made here answers what the world of Windows answers after that history.
-/
namespace Verif.Proofs
open Verif Verif.Model Verif.Spec

/-- A history of POSIX read as one of Windows: that history, whether the socket is being connected, and for each event the number of events of Windows before it. -/
structure Relay where
  out : Hist := []
  opening : Bool := false
  pos : List Nat := []

namespace Relay

/-- The number of a TLS connection. -/
def id (t : Relay) (n : Nat) : Nat := t.pos.getD n 0

def chan (t : Relay) : Chan → Chan
  | .raw fd => .raw fd
  | .tls i fd => .tls (t.id i) fd

def op (t : Relay) : TlsOp → TlsOp
  | .connect i => .connect (t.id i)
  | .handshake i => .handshake (t.id i)
  | .peerCert i => .peerCert (t.id i)
  | .verifyResult i => .verifyResult (t.id i)
  | o => o

def ev (t : Relay) : Ev → Ev
  | .send k c d r => .send k (t.chan c) d r
  | .recv c r => .recv (t.chan c) r
  | .tls o r => .tls (t.op o) r
  | .bioFree i => .bioFree (t.id i)
  | e => e

def keep (t : Relay) (e : Ev) : Relay := { t with out := t.out ++ [e], pos := t.pos ++ [t.out.length] }
def skip (t : Relay) : Relay := { t with pos := t.pos ++ [t.out.length] }

/-- The next event of POSIX. -/
def step (t : Relay) (e : Ev) : Relay :=
  if t.opening then
    match e with
    | .fcntlSet _ false _ => { t.skip with opening := false }
    | _ => t.skip
  else
    match e with
    | .fcntlGet _ _ => t.skip
    | .socket (.val v) => { t.keep (.socket (.val v)) with opening := true }
    | e => t.keep (t.ev e)

end Relay

/-- A history of POSIX read as one of Windows. -/
def relayed (h : Hist) : Relay := h.foldl Relay.step {}

theorem relayed_snoc (h : Hist) (e : Ev) : relayed (h ++ [e]) = (relayed h).step e := by simp [relayed]

/-- The world of POSIX. -/
def asPosix (e : Env) : Env :=
  { depth := e.depth
    fuel := e.fuel
    errText := e.errText
    x509Text := e.x509Text
    socket := fun h => e.socket (relayed h).out
    resolve := fun _ _ => some [127, 0, 0, 1]
    fcntlGet := fun _ _ => .ok
    fcntlSet := fun h fd nb => if (relayed h).opening then .ok else e.fcntlSet (relayed h).out fd nb
    connect := fun _ _ _ => .ok
    select := fun _ _ _ => .ready
    sockopt := fun _ _ => .val 0
    send := fun h c d => e.send (relayed h).out ((relayed h).chan c) d
    recv := fun h c => e.recv (relayed h).out ((relayed h).chan c)
    tls := fun h o => e.tls (relayed h).out ((relayed h).op o)
    readFile := fun h n => e.readFile (relayed h).out n
    tlsErr := fun h => e.tlsErr (relayed h).out }

/-! ### Two programs in the two worlds -/

/-- Both programs end the same way and satisfy the relation. -/
def both (e : Env) {α β : Type} (m : M α) (m' : M β) (Q : α → β → St → St → Prop) (E : St → St → Prop) (s s' : St) : Prop :=
  match m e s, m' (asPosix e) s' with
  | (.ok a, t), (.ok b, t') => Q a b t t'
  | (.stop x, t), (.stop y, t') => x = y ∧ E t t'
  | _, _ => False

variable {e : Env} {α β γ δ : Type} {E : St → St → Prop} {s s' : St}

theorem both_bind {m : M α} {m' : M β} {f : α → M γ} {f' : β → M δ} {Q : γ → δ → St → St → Prop}
    (h : both e m m' (fun a b t t' => both e (f a) (f' b) Q E t t') E s s') : both e (m >>= f) (m' >>= f') Q E s s' := by
  show both e (M.bind m f) (M.bind m' f') Q E s s'
  unfold both M.bind at *
  cases h1 : m e s with
  | mk r t =>
    cases h2 : m' (asPosix e) s' with
    | mk r' t' =>
      rw [h1, h2] at h
      cases r <;> cases r' <;> first | exact h | exact h.elim

theorem both_mono {m : M α} {m' : M β} {Q Q' : α → β → St → St → Prop} {E' : St → St → Prop} (h : both e m m' Q E s s')
    (hq : ∀ a b t t', Q a b t t' → Q' a b t t') (he : ∀ t t', E t t' → E' t t') : both e m m' Q' E' s s' := by
  unfold both at *
  cases h1 : m e s with
  | mk r t =>
    cases h2 : m' (asPosix e) s' with
    | mk r' t' =>
      rw [h1, h2] at h
      cases r <;> cases r' <;> first | exact hq _ _ _ _ h | exact ⟨h.1, he _ _ h.2⟩ | exact h.elim

theorem both_cases {m : M α} {m' : M β} {Q : α → β → St → St → Prop} (h : both e m m' Q E s s') :
    (∃ a b t t', m e s = (.ok a, t) ∧ m' (asPosix e) s' = (.ok b, t') ∧ Q a b t t') ∨
      ∃ x t t', m e s = (.stop x, t) ∧ m' (asPosix e) s' = (.stop x, t') ∧ E t t' := by
  unfold both at h
  cases h1 : m e s with
  | mk r t =>
    cases h2 : m' (asPosix e) s' with
    | mk r' t' =>
      rw [h1, h2] at h
      cases r <;> cases r'
      · exact .inl ⟨_, _, _, _, rfl, rfl, h⟩
      · exact h.elim
      · exact h.elim
      · obtain ⟨rfl, h⟩ := h
        exact .inr ⟨_, _, _, rfl, rfl, h⟩

theorem both_gets {f : Client → α} {g : Client → β} {Q : α → β → St → St → Prop} :
    both e (M.gets f) (M.gets g) Q E s s' ↔ Q (f s.client) (g s'.client) s s' := Iff.rfl
theorem both_modify {f g : Client → Client} {Q : Unit → Unit → St → St → Prop} :
    both e (M.modify f) (M.modify g) Q E s s' ↔ Q () () { s with client := f s.client } { s' with client := g s'.client } := Iff.rfl
theorem both_modifyMem {o o' : SessionOp} {f g : Client → Client} {Q : Unit → Unit → St → St → Prop} :
    both e (M.modifyMem o f) (M.modifyMem o' g) Q E s s' ↔
      Q () () { s with client := f s.client, mem := s.mem ++ [o] } { s' with client := g s'.client, mem := s'.mem ++ [o'] } := Iff.rfl
theorem both_emit {y y' : Ev} {Q : Unit → Unit → St → St → Prop} :
    both e (M.emit y) (M.emit y') Q E s s' ↔ Q () () { s with hist := s.hist ++ [y] } { s' with hist := s'.hist ++ [y'] } := Iff.rfl
theorem both_ask {f : Env → Hist → α} {g : Env → Hist → β} {ev : α → Ev} {ev' : β → Ev} {Q : α → β → St → St → Prop} :
    both e (M.ask f ev) (M.ask g ev') Q E s s' ↔
      Q (f e s.hist) (g (asPosix e) s'.hist) { s with hist := s.hist ++ [ev (f e s.hist)] } { s' with hist := s'.hist ++ [ev' (g (asPosix e) s'.hist)] } := Iff.rfl
theorem both_ask' {f : Env → Hist → α} {g : Env → Hist → β} {Q : α → β → St → St → Prop} :
    both e (M.ask' f) (M.ask' g) Q E s s' ↔ Q (f e s.hist) (g (asPosix e) s'.hist) s s' := Iff.rfl
theorem both_histLength {Q : Nat → Nat → St → St → Prop} : both e M.histLength M.histLength Q E s s' ↔ Q s.hist.length s'.hist.length s s' := Iff.rfl

theorem both_ite {c : Prop} [Decidable c] {m n : M α} {m' n' : M β} {Q : α → β → St → St → Prop}
    (h1 : c → both e m m' Q E s s') (h2 : ¬ c → both e n n' Q E s s') : both e (if c then m else n) (if c then m' else n') Q E s s' := by
  split
  · exact h1 ‹_›
  · exact h2 ‹_›

/-- A log to which items can be added. -/
def Logging (s : St) : Prop := ∃ l, s.client.log = some l ∧ LogOk l

/-- What the two clients have in common at any time. `N` are numbers of TLS connections that are still used; `k` says that a session is being opened. -/
structure Beside (N : Nat → Nat → Prop) (k : Prop) (s s' : St) : Prop where
  hist : (relayed s'.hist).out = s.hist ∧ (relayed s'.hist).opening = false
  spoken : spoken s.hist = spoken s'.hist
  modes : ∀ fd, nonblocking fd s.hist = nonblocking fd s'.hist
  nums : ∀ i i', N i i' → i' < s'.hist.length ∧ (relayed s'.hist).id i' = i
  bio : (s.client.bio = none ∧ s'.client.bio = none) ∨
    ∃ i i' fd, s.client.bio = some { id := i, fd := fd } ∧ s'.client.bio = some { id := i', fd := fd } ∧ i' < s'.hist.length ∧ (relayed s'.hist).id i' = i
  same : SameSettings s.client s'.client
  connected : s.client.isConnected = s'.client.isConnected
  response : s.client.lastResponse = s'.client.lastResponse
  options : s.client.authOptions = s'.client.authOptions
  log : k ∨ s.client.isConnected = true → Logging s ∧ Logging s'
  sock : k ∨ s.client.isConnected = true → s.client.sock = s'.client.sock
  login : ∀ c, s.client.credential = some c → LoginFits c

/-- When a run has stopped. -/
def Parted (s s' : St) : Prop := spoken s.hist = spoken s'.hist

/-- The two programs keep the relation and give the same result. -/
structure Sim (e : Env) (R : St → St → Prop) (m m' : M α) : Prop where
  run : ∀ s s', R s s' → both e m m' (fun a b t t' => a = b ∧ R t t') Parted s s'

namespace Sim
variable {N : Nat → Nat → Prop} {k : Prop}

theorem pure {a : α} {R : St → St → Prop} : Sim e R (Pure.pure a : M α) (Pure.pure a) := ⟨fun _ _ h => ⟨rfl, h⟩⟩
theorem stop {x : Stop} : Sim e (Beside N k) (M.stop x : M α) (M.stop x) := ⟨fun _ _ h => ⟨rfl, h.spoken⟩⟩

theorem bind {R : St → St → Prop} {m m' : M α} {f f' : α → M β} (hm : Sim e R m m') (hf : ∀ a, Sim e R (f a) (f' a)) : Sim e R (m >>= f) (m' >>= f') := ⟨fun s s' h =>
  both_bind (both_mono (hm.run s s' h) (fun a b t t' q => by obtain ⟨rfl, q⟩ := q; exact (hf a).run t t' q) fun _ _ h => h)⟩

theorem ite {R : St → St → Prop} {c : Prop} [Decidable c] {m n m' n' : M α} (hm : Sim e R m m') (hn : Sim e R n n') :
    Sim e R (if c then m else n) (if c then m' else n') := by
  split
  · exact hm
  · exact hn

theorem gets {R : St → St → Prop} {f : Client → α} (h : ∀ s s', R s s' → f s.client = f s'.client) : Sim e R (M.gets f) (M.gets f) := ⟨fun s s' hr => ⟨h s s' hr, hr⟩⟩

end Sim

syntax "sim" "[" term,* "]" : tactic
macro_rules
  | `(tactic| sim [$ts,*]) => do
    let alts ← ts.getElems.mapM fun t => `(tacticSeq| with_reducible apply $t)
    `(tactic| repeat' (first
        $[| $alts:tacticSeq]*
        | assumption
        | with_reducible apply Sim.pure | with_reducible apply Sim.stop
        | with_reducible apply Sim.bind | with_reducible apply Sim.ite
        | intro _
        | split))

/-! ### Histories -/

theorem step_pos (t : Relay) (y : Ev) : (t.step y).pos = t.pos ++ [t.out.length] := by
  unfold Relay.step
  split <;> split <;> rfl

theorem relayed_pos (h : Hist) : (relayed h).pos.length = h.length := by
  have : ∀ (h : Hist) (t : Relay), (h.foldl Relay.step t).pos.length = t.pos.length + h.length := by
    intro h
    induction h with
    | nil => intro t; simp
    | cons y h ih =>
      intro t
      rw [List.foldl_cons, ih, step_pos]
      simp
      omega
  simpa [relayed] using this h {}

theorem relayed_id {h : Hist} {i i' : Nat} (y : Ev) (hi : i' < h.length ∧ (relayed h).id i' = i) :
    i' < (h ++ [y]).length ∧ (relayed (h ++ [y])).id i' = i := by
  refine ⟨by simp; omega, ?_⟩
  rw [← hi.2, relayed_snoc]
  unfold Relay.id
  rw [step_pos, List.getD_eq_getElem?_getD, List.getD_eq_getElem?_getD, List.getElem?_append_left (by rw [relayed_pos]; exact hi.1)]

/-- The number the next event gets. -/
theorem relayed_next (h : Hist) (y : Ev) : h.length < (h ++ [y]).length ∧ (relayed (h ++ [y])).id h.length = (relayed h).out.length := by
  refine ⟨by simp, ?_⟩
  rw [relayed_snoc]
  unfold Relay.id
  rw [step_pos, ← relayed_pos h]
  simp

theorem spoken_snoc (h : Hist) (y : Ev) : spoken (h ++ [y]) = spoken h ++ (spokenEv y).toList := by
  unfold spoken
  rw [List.filterMap_append]
  cases hy : spokenEv y <;> simp [hy]

theorem mode_snoc (fd : Int) (h : Hist) (y : Ev) : nonblocking fd (h ++ [y]) = match y with
    | .fcntlSet fd' nb .ok => if fd' = fd then nb else nonblocking fd h
    | .socket (.val v) => if (v : Int) = fd then false else nonblocking fd h
    | _ => nonblocking fd h := by
  unfold nonblocking
  rw [List.foldl_append]
  rfl

/-- An event that both have. -/
def Common : Ev → Prop
  | .fcntlGet _ _ | .socket (.val _) => False
  | _ => True

variable {N : Nat → Nat → Prop} {k : Prop}

theorem Beside.numbers (h : Beside N k s s') (y : Ev) :
    (s.client.bio = none ∧ s'.client.bio = none) ∨
    ∃ i i' fd, s.client.bio = some { id := i, fd := fd } ∧ s'.client.bio = some { id := i', fd := fd } ∧ i' < (s'.hist ++ [y]).length ∧ (relayed (s'.hist ++ [y])).id i' = i :=
  h.bio.imp id fun ⟨i, i', fd, h1, h2, h3⟩ => ⟨i, i', fd, h1, h2, relayed_id y h3⟩

theorem step_common {t : Relay} (ht : t.opening = false) {y : Ev} (hy : Common y) : t.step y = t.keep (t.ev y) := by
  unfold Relay.step
  rw [ht]
  cases y <;> first | rfl | (cases hy; done) | skip
  rename_i r
  cases r
  · cases hy
  · rfl

theorem talkEv_ev (t : Relay) (y : Ev) : spokenEv (t.ev y) = spokenEv y := by
  cases y <;> try rfl
  · rename_i c _ _; cases c <;> rfl
  · rename_i c _; cases c <;> rfl
  · rename_i o _; cases o <;> rfl

/-- The same event in both worlds. -/
theorem Beside.event (h : Beside N k s s') (y : Ev) (hy : Common y) :
    Beside N k { s with hist := s.hist ++ [(relayed s'.hist).ev y] } { s' with hist := s'.hist ++ [y] } := by
  refine { h with hist := ?_, spoken := ?_, modes := fun fd => ?_, nums := fun i i' hi => relayed_id y (h.nums i i' hi), bio := h.numbers y }
  · rw [relayed_snoc, step_common h.hist.2 hy, ← h.hist.1]
    exact ⟨rfl, h.hist.2⟩
  · simp only [spoken_snoc, h.spoken, talkEv_ev]
  · simp only [mode_snoc]
    rw [h.modes fd]
    cases y <;> rfl

/-- An event of POSIX only. -/
theorem Beside.extra (h : Beside N k s s') (fd : Int) (r : SysRes) : Beside N k s { s' with hist := s'.hist ++ [.fcntlGet fd r] } := by
  refine { h with hist := ?_, spoken := ?_, modes := fun fd => ?_, nums := fun i i' hi => relayed_id _ (h.nums i i' hi), bio := h.numbers _ }
  · rw [relayed_snoc]
    unfold Relay.step
    rw [h.hist.2, ← h.hist.1]
    exact ⟨rfl, h.hist.2⟩
  · simp [spoken_snoc, h.spoken, spokenEv]
  · simp only [mode_snoc]
    exact h.modes fd

/-- A question to the world. -/
theorem ask_both {f g : Env → Hist → α} {ev ev' : α → Ev} (hc : ∀ v, Common (ev' v)) (h : Beside N k s s') (he : ∀ v, ev v = (relayed s'.hist).ev (ev' v))
    (hf : f e s.hist = g (asPosix e) s'.hist) : both e (M.ask f ev) (M.ask g ev') (fun a b t t' => a = b ∧ Beside N k t t') Parted s s' := by
  rw [both_ask, ← hf, he]
  exact ⟨rfl, h.event _ (hc _)⟩

/-! ### System calls -/

theorem sysFcntlSet_sim (fd : Int) (nb : Bool) : Sim e (Beside N k) (sysFcntlSet fd nb) (sysFcntlSet fd nb) :=
  ⟨fun s s' h => ask_both (fun _ => trivial) h (fun _ => rfl) (by show _ = if _ then _ else _; rw [h.hist.2, h.hist.1]; rfl)⟩
theorem sysReadFile_sim (n : Bytes) : Sim e (Beside N k) (sysReadFile n) (sysReadFile n) :=
  ⟨fun s s' h => ask_both (fun _ => trivial) h (fun _ => rfl) (by show _ = e.readFile _ _; rw [h.hist.1])⟩
theorem sysSleep_sim : Sim e (Beside N k) sysSleep sysSleep := ⟨fun _ _ h => ⟨rfl, h.event .sleep trivial⟩⟩
theorem sysClose_sim (fd : Int) : Sim e (Beside N k) (sysClose fd) (sysClose fd) := ⟨fun _ _ h => ⟨rfl, h.event (.close fd) trivial⟩⟩
theorem tlsErr_sim : Sim e (Beside N k) (M.ask' (·.tlsErr)) (M.ask' (·.tlsErr)) :=
  ⟨fun s s' h => ⟨by show _ = e.tlsErr _; rw [h.hist.1], h⟩⟩

theorem sysTls_both (o : TlsOp) (h : Beside N k s s') :
    both e (sysTls ((relayed s'.hist).op o)) (sysTls o) (fun a b t t' => a = b ∧ Beside N k t t') Parted s s' :=
  ask_both (fun _ => trivial) h (fun _ => rfl) (by show _ = e.tls _ _; rw [h.hist.1])

theorem chan_fd (t : Relay) (c : Chan) : (t.chan c).fd = c.fd := by cases c <;> rfl

theorem sysSend_both (kd : SendKind) (c : Chan) (d : Bytes) (h : Beside N k s s') :
    both e (sysSend kd ((relayed s'.hist).chan c) d) (sysSend kd c d) (fun a b t t' => a = b ∧ Beside N k t t') Parted s s' := by
  unfold sysSend
  refine both_bind (both_mono (ask_both (fun _ => trivial) h (fun _ => rfl) ?_) (fun a b t t' q => ?_) fun _ _ h => h)
  · show _ = normSend _ _ (e.send _ _ _)
    rw [chan_fd, h.modes, h.hist.1]
  · obtain ⟨rfl, q⟩ := q
    exact both_ite (fun _ => ⟨rfl, q.spoken⟩) fun _ => ⟨rfl, q⟩

theorem sysRecv_both (c : Chan) (h : Beside N k s s') :
    both e (sysRecv ((relayed s'.hist).chan c)) (sysRecv c) (fun a b t t' => a = b ∧ Beside N k t t') Parted s s' := by
  unfold sysRecv
  refine both_bind (both_mono (ask_both (fun _ => trivial) h (fun _ => rfl) ?_) (fun a b t t' q => ?_) fun _ _ h => h)
  · show _ = normRecv _ (e.recv _ _)
    rw [chan_fd, h.modes, h.hist.1]
  · obtain ⟨rfl, q⟩ := q
    exact both_ite (fun _ => ⟨rfl, q.spoken⟩) fun _ => ⟨rfl, q⟩

theorem sendSock_sim (kd : SendKind) (fd : Int) (d : Bytes) : Sim e (Beside N k) (sysSend kd (.raw fd) d) (sysSend kd (.raw fd) d) := ⟨fun _ _ h => sysSend_both kd (.raw fd) d h⟩
theorem recvSock_sim (fd : Int) : Sim e (Beside N k) (sysRecv (.raw fd)) (sysRecv (.raw fd)) := ⟨fun _ _ h => sysRecv_both (.raw fd) h⟩

/-! ### Members -/

theorem kind_sim : Sim e (Beside N k) (M.gets (·.kind)) (M.gets (·.kind)) := Sim.gets fun _ _ h => h.same.kind
theorem name_sim : Sim e (Beside N k) (M.gets (·.serverName)) (M.gets (·.serverName)) := Sim.gets fun _ _ h => h.same.serverName
theorem port_sim : Sim e (Beside N k) (M.gets (·.port)) (M.gets (·.port)) := Sim.gets fun _ _ h => h.same.port
theorem batch_sim : Sim e (Beside N k) (M.gets (·.batch)) (M.gets (·.batch)) := Sim.gets fun _ _ h => h.same.batch
theorem timeout_sim : Sim e (Beside N k) (M.gets (·.timeout)) (M.gets (·.timeout)) := Sim.gets fun _ _ h => h.same.timeout
theorem ptrRaw_sim : Sim e (Beside N k) (M.gets (·.ptrRaw)) (M.gets (·.ptrRaw)) := Sim.gets fun _ _ h => h.same.ptrRaw
theorem accept_sim : Sim e (Beside N k) (M.gets (·.acceptSelfSigned)) (M.gets (·.acceptSelfSigned)) := Sim.gets fun _ _ h => h.same.acceptSelfSigned
theorem connected_sim : Sim e (Beside N k) (M.gets (·.isConnected)) (M.gets (·.isConnected)) := Sim.gets fun _ _ h => h.connected
theorem response_sim : Sim e (Beside N k) (M.gets (·.lastResponse)) (M.gets (·.lastResponse)) := Sim.gets fun _ _ h => h.response
theorem options_sim : Sim e (Beside N k) (M.gets (·.authOptions)) (M.gets (·.authOptions)) := Sim.gets fun _ _ h => h.options
theorem sock_sim (hk : k) : Sim e (Beside N k) (M.gets (·.sock)) (M.gets (·.sock)) := Sim.gets fun _ _ h => h.sock (.inl hk)
theorem env_sim {f : Env → α} (hf : f e = f (asPosix e)) : Sim e (Beside N k) (M.env f) (M.env f) := ⟨fun _ _ h => ⟨hf, h⟩⟩
theorem depth_sim : Sim e (Beside N k) (M.env (·.depth)) (M.env (·.depth)) := env_sim rfl
theorem fuel_sim : Sim e (Beside N k) (M.env (·.fuel)) (M.env (·.fuel)) := env_sim rfl
theorem errText_sim (n : Int) : Sim e (Beside N k) (M.env (·.errText n)) (M.env (·.errText n)) := env_sim rfl
theorem x509Text_sim (n : Int) : Sim e (Beside N k) (M.env (·.x509Text n)) (M.env (·.x509Text n)) := env_sim rfl

theorem setErrNo_sim (n : Int) : Sim e (Beside N k) (setErrNo n) (setErrNo n) := ⟨fun _ _ h => ⟨rfl, { h with same := { h.same with } }⟩⟩
theorem noSock_sim : Sim e (Beside N k) (M.modify ({ · with sock := 0 })) (M.modify ({ · with sock := 0 })) :=
  ⟨fun _ _ h => ⟨rfl, { h with same := { h.same with }, sock := fun _ => rfl }⟩⟩
theorem setConnected_sim (hk : k) (v : Bool) : Sim e (Beside N k) (M.modify ({ · with isConnected := v })) (M.modify ({ · with isConnected := v })) :=
  ⟨fun _ _ h => ⟨rfl, { h with same := { h.same with }, connected := rfl, log := fun _ => h.log (.inl hk), sock := fun _ => h.sock (.inl hk) }⟩⟩
theorem setCtx_sim (v : Bool) : Sim e (Beside N k) (M.modify ({ · with ctx := v })) (M.modify ({ · with ctx := v })) := ⟨fun _ _ h => ⟨rfl, { h with same := { h.same with } }⟩⟩
theorem noBio_sim : Sim e (Beside N k) (M.modify ({ · with bio := none })) (M.modify ({ · with bio := none })) :=
  ⟨fun _ _ h => ⟨rfl, { h with same := { h.same with }, bio := .inl ⟨rfl, rfl⟩ }⟩⟩
theorem setKeep_sim (b : Bool) : Sim e (Beside N k) (setKeepUsingBase b) (setKeepUsingBase b) :=
  ⟨fun _ _ h => ⟨rfl, { h with same := { h.same with keep := rfl, ptrRaw := rfl } }⟩⟩
theorem setResponse_sim (x : Bytes) : Sim e (Beside N k) (setLastServerResponse x) (setLastServerResponse x) :=
  ⟨fun _ _ h => ⟨rfl, { h with same := { h.same with }, response := rfl }⟩⟩
theorem setOptions_sim (x : Bytes) : Sim e (Beside N k) (setAuthOptions x) (setAuthOptions x) :=
  ⟨fun _ _ h => ⟨rfl, { h with same := { h.same with }, options := rfl }⟩⟩

/-! ### The log -/

theorem addLog_ok (env : Env) (i p : Bytes) (h : Logging s) :
    ∃ l m, LogOk l ∧ addLog i p env s = (.ok (), { s with client := { s.client with log := some l }, mem := m }) := by
  obtain ⟨l, hl, ho⟩ := h
  obtain ⟨l', h1, h2, -⟩ := log_add_ok ho i p
  refine ⟨l', s.mem ++ [.log (l.grows i p) l'.content], h2, ?_⟩
  simp only [addLog, bind, M.bind, M.gets, hl, h1]
  rfl

theorem Beside.relog (h : Beside N k s s') {l l' : Log} (hl : LogOk l) (hl' : LogOk l') (m m' : List SessionOp) :
    Beside N k { s with client := { s.client with log := some l }, mem := m } { s' with client := { s'.client with log := some l' }, mem := m' } :=
  { h with same := { h.same with }, log := fun _ => ⟨⟨l, rfl, hl⟩, ⟨l', rfl, hl'⟩⟩ }

theorem Beside.relogWin (h : Beside N k s s') (hk : k) {l : Log} (hl : LogOk l) (m : List SessionOp) :
    Beside N k { s with client := { s.client with log := some l }, mem := m } s' :=
  { h with same := { h.same with }, log := fun _ => ⟨⟨l, rfl, hl⟩, (h.log (.inl hk)).2⟩ }

/-- Texts may differ. -/
theorem addLog_both (hk : k) (i p i' p' : Bytes) (h : Beside N k s s') : both e (addLog i p) (addLog i' p') (fun _ _ t t' => Beside N k t t') Parted s s' := by
  obtain ⟨l, m, hl, h1⟩ := addLog_ok e i p (h.log (.inl hk)).1
  obtain ⟨l', m', hl', h2⟩ := addLog_ok (asPosix e) i' p' (h.log (.inl hk)).2
  unfold both
  rw [h1, h2]
  exact h.relog hl hl' m m'

theorem addLog_sim (hk : k) (i p : Bytes) : Sim e (Beside N k) (addLog i p) (addLog i p) := ⟨fun _ _ h => both_mono (addLog_both hk i p i p h) (fun _ _ _ _ q => ⟨rfl, q⟩) fun _ _ q => q⟩

theorem logErrno_sim (hk : k) (n : Int) : Sim e (Beside N k) (logErrno n) (logErrno n) := by
  unfold logErrno
  sim [setErrNo_sim, errText_sim, addLog_sim hk]

end Verif.Proofs
