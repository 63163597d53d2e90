import Verif.Spec.Afresh
/-!
# Two runs side by side
-/
namespace Verif.Proofs
open Verif Verif.Model Verif.Spec

/-- Two worlds that answer alike from some moment on. -/
structure Worlds where
  e : Env
  e' : Env
  h : Hist
  h' : Hist
  alike : AnswersAlike e e' h h'

/-- Both runs end the same way and satisfy the relation. -/
def wp2 (W : Worlds) {α β : Type} (m : M α) (m' : M β) (Q : α → β → St → St → Prop) (E : St → St → Prop) (s s' : St) : Prop :=
  match m W.e s, m' W.e' s' with
  | (.ok a, t), (.ok b, t') => Q a b t t'
  | (.stop x, t), (.stop y, t') => x = y ∧ E t t'
  | _, _ => False

variable {W : Worlds} {α β γ δ : Type} {E : St → St → Prop} {s s' : St}

theorem wp2_bind {m : M α} {m' : M β} {f : α → M γ} {f' : β → M δ} {Q : γ → δ → St → St → Prop}
    (h : wp2 W m m' (fun a b t t' => wp2 W (f a) (f' b) Q E t t') E s s') : wp2 W (m >>= f) (m' >>= f') Q E s s' := by
  show wp2 W (M.bind m f) (M.bind m' f') Q E s s'
  unfold wp2 M.bind at *
  cases h1 : m W.e s with
  | mk r t =>
    cases h2 : m' W.e' s' with
    | mk r' t' =>
      rw [h1, h2] at h
      cases r <;> cases r' <;> first | exact h | exact h.elim

theorem wp2_mono {m : M α} {m' : M β} {Q Q' : α → β → St → St → Prop} {E' : St → St → Prop} (h : wp2 W m m' Q E s s')
    (hq : ∀ a b t t', Q a b t t' → Q' a b t t') (he : ∀ t t', E t t' → E' t t') : wp2 W m m' Q' E' s s' := by
  unfold wp2 at *
  cases h1 : m W.e s with
  | mk r t =>
    cases h2 : m' W.e' s' with
    | mk r' t' =>
      rw [h1, h2] at h
      cases r <;> cases r' <;> first | exact hq _ _ _ _ h | exact ⟨h.1, he _ _ h.2⟩ | exact h.elim

theorem wp2_cases {m : M α} {m' : M β} {Q : α → β → St → St → Prop} (h : wp2 W m m' Q E s s') :
    (∃ a b t t', m W.e s = (.ok a, t) ∧ m' W.e' s' = (.ok b, t') ∧ Q a b t t') ∨ ∃ x t t', m W.e s = (.stop x, t) ∧ m' W.e' s' = (.stop x, t') ∧ E t t' := by
  unfold wp2 at h
  cases h1 : m W.e s with
  | mk r t =>
    cases h2 : m' W.e' s' with
    | mk r' t' =>
      rw [h1, h2] at h
      cases r <;> cases r'
      · exact .inl ⟨_, _, _, _, rfl, rfl, h⟩
      · exact h.elim
      · exact h.elim
      · obtain ⟨rfl, h⟩ := h
        exact .inr ⟨_, _, _, rfl, rfl, h⟩

theorem wp2_pure {a : α} {b : β} {Q : α → β → St → St → Prop} : wp2 W (pure a : M α) (pure b : M β) Q E s s' ↔ Q a b s s' := Iff.rfl
theorem wp2_stop {x y : Stop} {Q : α → β → St → St → Prop} : wp2 W (M.stop x : M α) (M.stop y : M β) Q E s s' ↔ x = y ∧ E s s' := Iff.rfl
theorem wp2_gets {f : Client → α} {g : Client → β} {Q : α → β → St → St → Prop} :
    wp2 W (M.gets f) (M.gets g) Q E s s' ↔ Q (f s.client) (g s'.client) s s' := Iff.rfl
theorem wp2_modify {f g : Client → Client} {Q : Unit → Unit → St → St → Prop} :
    wp2 W (M.modify f) (M.modify g) Q E s s' ↔ Q () () { s with client := f s.client } { s' with client := g s'.client } := Iff.rfl
theorem wp2_modifyMem {o o' : SessionOp} {f g : Client → Client} {Q : Unit → Unit → St → St → Prop} :
    wp2 W (M.modifyMem o f) (M.modifyMem o' g) Q E s s' ↔
      Q () () { s with client := f s.client, mem := s.mem ++ [o] } { s' with client := g s'.client, mem := s'.mem ++ [o'] } := Iff.rfl
theorem wp2_env {f : Env → α} {g : Env → β} {Q : α → β → St → St → Prop} : wp2 W (M.env f) (M.env g) Q E s s' ↔ Q (f W.e) (g W.e') s s' := Iff.rfl
theorem wp2_emit {e e' : Ev} {Q : Unit → Unit → St → St → Prop} :
    wp2 W (M.emit e) (M.emit e') Q E s s' ↔ Q () () { s with hist := s.hist ++ [e] } { s' with hist := s'.hist ++ [e'] } := Iff.rfl
theorem wp2_ask {f : Env → Hist → α} {g : Env → Hist → β} {ev : α → Ev} {ev' : β → Ev} {Q : α → β → St → St → Prop} :
    wp2 W (M.ask f ev) (M.ask g ev') Q E s s' ↔
      Q (f W.e s.hist) (g W.e' s'.hist) { s with hist := s.hist ++ [ev (f W.e s.hist)] } { s' with hist := s'.hist ++ [ev' (g W.e' s'.hist)] } := Iff.rfl
theorem wp2_ask' {f : Env → Hist → α} {g : Env → Hist → β} {Q : α → β → St → St → Prop} :
    wp2 W (M.ask' f) (M.ask' g) Q E s s' ↔ Q (f W.e s.hist) (g W.e' s'.hist) s s' := Iff.rfl
theorem wp2_histLength {Q : Nat → Nat → St → St → Prop} : wp2 W M.histLength M.histLength Q E s s' ↔ Q s.hist.length s'.hist.length s s' := Iff.rfl

theorem wp2_ite {c : Prop} [Decidable c] {m n : M α} {m' n' : M β} {Q : α → β → St → St → Prop}
    (h1 : c → wp2 W m m' Q E s s') (h2 : ¬ c → wp2 W n n' Q E s s') : wp2 W (if c then m else n) (if c then m' else n') Q E s s' := by
  split
  · exact h1 ‹_›
  · exact h2 ‹_›

/-- A TLS connection counted from `n` events on. -/
def bioLater (n : Nat) (b : Bio) : Bio := { id := n + b.id, fd := b.fd }

/-- What two clients have in common at any time: the settings, what happened since the two moments, and – as far as the flags tell, or while a session is open – the last
response, the authentication options, the log and the socket. The descriptors in `F` are in the same modes. -/
structure Mates (W : Worlds) (F : Int → Prop) (r a l k : Prop) (s s' : St) : Prop where
  hist : ∃ x, s.hist = continued W.h x ∧ s'.hist = continued W.h' x
  bio : ∃ b : Option Bio, s.client.bio = b.map (bioLater W.h.length) ∧ s'.client.bio = b.map (bioLater W.h'.length) ∧ ∀ x, b = some x → F x.fd
  same : SameSettings s.client s'.client
  connected : s.client.isConnected = s'.client.isConnected
  response : r → s.client.lastResponse = s'.client.lastResponse
  options : a → s.client.authOptions = s'.client.authOptions
  log : l ∨ s.client.isConnected = true → s.client.log = s'.client.log
  sock : k ∨ s.client.isConnected = true → s.client.sock = s'.client.sock ∧ F s.client.sock
  modes : ∀ fd, F fd → nonblocking fd s.hist = nonblocking fd s'.hist
  zero : F 0

/-- The same code in both worlds keeps the relation and gives the same result. -/
structure Sync (W : Worlds) (R : St → St → Prop) (m : M α) : Prop where
  run : ∀ s s', R s s' → wp2 W m m (fun a b t t' => a = b ∧ R t t') R s s'

namespace Sync
variable {R : St → St → Prop}

theorem pure {a : α} : Sync W R (Pure.pure a : M α) := ⟨fun _ _ h => ⟨rfl, h⟩⟩
theorem stop {x : Stop} : Sync W R (M.stop x : M α) := ⟨fun _ _ h => ⟨rfl, h⟩⟩

theorem bind {m : M α} {f : α → M β} (hm : Sync W R m) (hf : ∀ a, Sync W R (f a)) : Sync W R (m >>= f) := ⟨fun s s' h =>
  wp2_bind (wp2_mono (hm.run s s' h) (fun a b t t' q => by obtain ⟨rfl, q⟩ := q; exact (hf a).run t t' q) fun _ _ h => h)⟩

theorem ite {c : Prop} [Decidable c] {m n : M α} (hm : Sync W R m) (hn : Sync W R n) : Sync W R (if c then m else n) := by
  split
  · exact hm
  · exact hn

theorem gets {f : Client → α} (h : ∀ s s', R s s' → f s.client = f s'.client) : Sync W R (M.gets f) := ⟨fun s s' hr => ⟨h s s' hr, hr⟩⟩

end Sync

syntax "sync" "[" term,* "]" : tactic
macro_rules
  | `(tactic| sync [$ts,*]) => do
    let alts ← ts.getElems.mapM fun t => `(tacticSeq| with_reducible apply $t)
    `(tactic| repeat' (first
        $[| $alts:tacticSeq]*
        | assumption
        | with_reducible apply Sync.pure | with_reducible apply Sync.stop
        | with_reducible apply Sync.bind | with_reducible apply Sync.ite
        | intro _
        | split))

/-! ### Histories -/

theorem continued_snoc (h x : Hist) (y : Ev) : continued h x ++ [evLater h.length y] = continued h (x ++ [y]) := by simp [continued]

theorem continued_length (h x : Hist) : (continued h x).length = h.length + x.length := by simp [continued]

theorem nonblocking_snoc {h h' : Hist} {fd : Int} (n n' : Nat) (y : Ev) (e : nonblocking fd h = nonblocking fd h') :
    nonblocking fd (h ++ [evLater n y]) = nonblocking fd (h' ++ [evLater n' y]) := by
  unfold nonblocking at *
  rw [List.foldl_append, List.foldl_append, e]
  cases y <;> rfl

variable {F : Int → Prop} {r a l k : Prop}

/-- An event in both worlds. -/
theorem Mates.event {s s' : St} (h : Mates W F r a l k s s') (y : Ev) :
    Mates W F r a l k { s with hist := s.hist ++ [evLater W.h.length y] } { s' with hist := s'.hist ++ [evLater W.h'.length y] } := by
  obtain ⟨x, e1, e2⟩ := h.hist
  refine { h with hist := ⟨x ++ [y], ?_, ?_⟩, modes := fun fd hfd => nonblocking_snoc _ _ y (h.modes fd hfd) }
  · simp only [e1, continued_snoc]
  · simp only [e2, continued_snoc]

/-- A question to the world. -/
theorem ask_twin {f g : Env → Hist → α} {ev ev' : α → Ev} (y : α → Ev) (hy : ∀ v, ev v = evLater W.h.length (y v)) (hy' : ∀ v, ev' v = evLater W.h'.length (y v))
    {s s' : St} (hf : ∀ x, s.hist = continued W.h x → s'.hist = continued W.h' x → f W.e (continued W.h x) = g W.e' (continued W.h' x)) (h : Mates W F r a l k s s') :
    wp2 W (M.ask f ev) (M.ask g ev') (fun a' b t t' => a' = b ∧ Mates W F r a l k t t') (Mates W F r a l k) s s' := by
  rw [wp2_ask]
  obtain ⟨x, e1, e2⟩ := h.hist
  have he : f W.e s.hist = g W.e' s'.hist := by rw [e1, e2]; exact hf x e1 e2
  refine ⟨he, ?_⟩
  rw [hy, hy', he]
  exact h.event _

theorem ask'_twin {f : Env → Hist → α} (hf : ∀ x, f W.e (continued W.h x) = f W.e' (continued W.h' x)) : Sync W (Mates W F r a l k) (M.ask' f) := by
  refine ⟨fun s s' h => ?_⟩
  rw [wp2_ask']
  obtain ⟨x, e1, e2⟩ := h.hist
  exact ⟨by rw [e1, e2]; exact hf x, h⟩

theorem env_twin {f : Env → α} (hf : f W.e = f W.e') : Sync W (Mates W F r a l k) (M.env f) := ⟨fun _ _ h => ⟨hf, h⟩⟩

/-! ### System calls -/

theorem sysSocket_sync : Sync W (Mates W F r a l k) sysSocket := ⟨fun _ _ h => ask_twin .socket (fun _ => rfl) (fun _ => rfl) (fun x _ _ => W.alike.socket x) h⟩
theorem sysResolve_sync (n : Bytes) : Sync W (Mates W F r a l k) (sysResolve n) :=
  ⟨fun _ _ h => ask_twin (.resolve n) (fun _ => rfl) (fun _ => rfl) (fun x _ _ => W.alike.resolve x n) h⟩
theorem sysFcntlGet_sync (fd : Int) : Sync W (Mates W F r a l k) (sysFcntlGet fd) :=
  ⟨fun _ _ h => ask_twin (.fcntlGet fd) (fun _ => rfl) (fun _ => rfl) (fun x _ _ => W.alike.fcntlGet x fd) h⟩
theorem sysFcntlSet_sync (fd : Int) (nb : Bool) : Sync W (Mates W F r a l k) (sysFcntlSet fd nb) :=
  ⟨fun _ _ h => ask_twin (.fcntlSet fd nb) (fun _ => rfl) (fun _ => rfl) (fun x _ _ => W.alike.fcntlSet x fd nb) h⟩
theorem sysConnect_sync (fd : Int) (to : SockAddr) : Sync W (Mates W F r a l k) (sysConnect fd to) :=
  ⟨fun _ _ h => ask_twin (.connect fd to) (fun _ => rfl) (fun _ => rfl) (fun x _ _ => W.alike.connect x fd to) h⟩
theorem sysSelect_sync (fd : Int) (n : Nat) : Sync W (Mates W F r a l k) (sysSelect fd n) :=
  ⟨fun _ _ h => ask_twin (.select fd) (fun _ => rfl) (fun _ => rfl) (fun x _ _ => W.alike.select x fd n) h⟩
theorem sysSockopt_sync (fd : Int) : Sync W (Mates W F r a l k) (sysSockopt fd) :=
  ⟨fun _ _ h => ask_twin (.sockopt fd) (fun _ => rfl) (fun _ => rfl) (fun x _ _ => W.alike.sockopt x fd) h⟩
theorem sysReadFile_sync (n : Bytes) : Sync W (Mates W F r a l k) (sysReadFile n) :=
  ⟨fun _ _ h => ask_twin (.readFile n) (fun _ => rfl) (fun _ => rfl) (fun x _ _ => W.alike.readFile x n) h⟩
theorem sysSleep_sync : Sync W (Mates W F r a l k) sysSleep := ⟨fun _ _ h => ⟨rfl, h.event .sleep⟩⟩
theorem sysClose_sync (fd : Int) : Sync W (Mates W F r a l k) (sysClose fd) := ⟨fun _ _ h => ⟨rfl, h.event (.close fd)⟩⟩
theorem tlsErr_sync : Sync W (Mates W F r a l k) (M.ask' (·.tlsErr)) := ask'_twin W.alike.tlsErr

theorem chanLater_fd (n : Nat) (c : Chan) : (chanLater n c).fd = c.fd := by cases c <;> rfl

theorem sysTls_twin (op : TlsOp) {s s' : St} (h : Mates W F r a l k s s') :
    wp2 W (sysTls (tlsLater W.h.length op)) (sysTls (tlsLater W.h'.length op)) (fun a' b t t' => a' = b ∧ Mates W F r a l k t t') (Mates W F r a l k) s s' :=
  ask_twin (.tls op) (fun _ => rfl) (fun _ => rfl) (fun x _ _ => W.alike.tls x op) h

theorem sysSend_twin (kd : SendKind) (c : Chan) (d : Bytes) (hc : F c.fd) {s s' : St} (h : Mates W F r a l k s s') :
    wp2 W (sysSend kd (chanLater W.h.length c) d) (sysSend kd (chanLater W.h'.length c) d) (fun a' b t t' => a' = b ∧ Mates W F r a l k t t') (Mates W F r a l k) s s' := by
  unfold sysSend
  refine wp2_bind (wp2_mono (ask_twin (.send kd c d) (fun _ => rfl) (fun _ => rfl) (fun x e1 e2 => ?_) h) (fun a' b t t' q => ?_) fun _ _ h => h)
  · rw [chanLater_fd, chanLater_fd, ← e1, ← e2, h.modes _ hc, e1, e2, W.alike.send]
  · obtain ⟨rfl, q⟩ := q
    exact wp2_ite (fun _ => ⟨rfl, q⟩) fun _ => ⟨rfl, q⟩

theorem sysRecv_twin (c : Chan) (hc : F c.fd) {s s' : St} (h : Mates W F r a l k s s') :
    wp2 W (sysRecv (chanLater W.h.length c)) (sysRecv (chanLater W.h'.length c)) (fun a' b t t' => a' = b ∧ Mates W F r a l k t t') (Mates W F r a l k) s s' := by
  unfold sysRecv
  refine wp2_bind (wp2_mono (ask_twin (.recv c) (fun _ => rfl) (fun _ => rfl) (fun x e1 e2 => ?_) h) (fun a' b t t' q => ?_) fun _ _ h => h)
  · rw [chanLater_fd, chanLater_fd, ← e1, ← e2, h.modes _ hc, e1, e2, W.alike.recv]
  · obtain ⟨rfl, q⟩ := q
    exact wp2_ite (fun _ => ⟨rfl, q⟩) fun _ => ⟨rfl, q⟩

theorem sendRaw_sync' (kd : SendKind) (fd : Int) (d : Bytes) (hc : F fd) : Sync W (Mates W F r a l k) (sysSend kd (.raw fd) d) := ⟨fun _ _ h => sysSend_twin kd (.raw fd) d hc h⟩
theorem recvRaw_sync (fd : Int) (hc : F fd) : Sync W (Mates W F r a l k) (sysRecv (.raw fd)) := ⟨fun _ _ h => sysRecv_twin (.raw fd) hc h⟩

/-! ### Members -/

theorem kind_sync : Sync W (Mates W F r a l k) (M.gets (·.kind)) := Sync.gets fun _ _ h => h.same.kind
theorem name_sync : Sync W (Mates W F r a l k) (M.gets (·.serverName)) := Sync.gets fun _ _ h => h.same.serverName
theorem port_sync : Sync W (Mates W F r a l k) (M.gets (·.port)) := Sync.gets fun _ _ h => h.same.port
theorem batch_sync : Sync W (Mates W F r a l k) (M.gets (·.batch)) := Sync.gets fun _ _ h => h.same.batch
theorem timeout_sync : Sync W (Mates W F r a l k) (M.gets (·.timeout)) := Sync.gets fun _ _ h => h.same.timeout
theorem credential_sync : Sync W (Mates W F r a l k) (M.gets (·.credential)) := Sync.gets fun _ _ h => h.same.credential
theorem ptrRaw_sync : Sync W (Mates W F r a l k) (M.gets (·.ptrRaw)) := Sync.gets fun _ _ h => h.same.ptrRaw
theorem accept_sync : Sync W (Mates W F r a l k) (M.gets (·.acceptSelfSigned)) := Sync.gets fun _ _ h => h.same.acceptSelfSigned
theorem connected_sync : Sync W (Mates W F r a l k) (M.gets (·.isConnected)) := Sync.gets fun _ _ h => h.connected
theorem sock_bind (hk : k) {f : Int → M α} (hf : ∀ v, F v → Sync W (Mates W F r a l k) (f v)) : Sync W (Mates W F r a l k) (M.gets (·.sock) >>= f) := by
  refine ⟨fun s s' h => wp2_bind ?_⟩
  rw [wp2_gets, ← (h.sock (.inl hk)).1]
  exact (hf _ (h.sock (.inl hk)).2).run s s' h
theorem log_sync (hl : l) : Sync W (Mates W F r a l k) (M.gets (·.log)) := Sync.gets fun _ _ h => h.log (.inl hl)
theorem depth_sync : Sync W (Mates W F r a l k) (M.env (·.depth)) := env_twin W.alike.depth
theorem fuel_sync : Sync W (Mates W F r a l k) (M.env (·.fuel)) := env_twin W.alike.fuel
theorem errText_sync (e : Int) : Sync W (Mates W F r a l k) (M.env (·.errText e)) := env_twin (congrFun W.alike.errText e)
theorem x509Text_sync (e : Int) : Sync W (Mates W F r a l k) (M.env (·.x509Text e)) := env_twin (congrFun W.alike.x509Text e)

theorem setErrNo_sync (e : Int) : Sync W (Mates W F r a l k) (setErrNo e) := ⟨fun _ _ h => ⟨rfl, { h with same := { h.same with } }⟩⟩
theorem setSock_sync : Sync W (Mates W F r a l k) (M.modify ({ · with sock := 0 })) :=
  ⟨fun _ _ h => ⟨rfl, { h with same := { h.same with }, sock := fun _ => ⟨rfl, h.zero⟩ }⟩⟩
theorem setConnected_sync (hl : l) (hk : k) (v : Bool) : Sync W (Mates W F r a l k) (M.modify ({ · with isConnected := v })) :=
  ⟨fun _ _ h => ⟨rfl, { h with same := { h.same with }, connected := rfl, log := fun _ => h.log (.inl hl), sock := fun _ => h.sock (.inl hk) }⟩⟩
theorem setCtx_sync (v : Bool) : Sync W (Mates W F r a l k) (M.modify ({ · with ctx := v })) := ⟨fun _ _ h => ⟨rfl, { h with same := { h.same with } }⟩⟩
theorem noBio_sync : Sync W (Mates W F r a l k) (M.modify ({ · with bio := none })) :=
  ⟨fun _ _ h => ⟨rfl, { h with same := { h.same with }, bio := ⟨none, rfl, rfl, fun _ f => nomatch f⟩ }⟩⟩
theorem setKeep_sync (b : Bool) : Sync W (Mates W F r a l k) (setKeepUsingBase b) :=
  ⟨fun _ _ h => ⟨rfl, { h with same := { h.same with keep := rfl, ptrRaw := rfl } }⟩⟩

theorem setLog_sync (o : SessionOp) (v : Option Log) : Sync W (Mates W F r a l k) (M.modifyMem o ({ · with log := v })) :=
  ⟨fun _ _ h => ⟨rfl, { h with same := { h.same with }, log := fun _ => rfl }⟩⟩

theorem addLog_sync (hl : l) (i p : Bytes) : Sync W (Mates W F r a l k) (addLog i p) := by
  unfold addLog
  sync [log_sync hl, setLog_sync]

theorem setResponse_sync (s : Bytes) : Sync W (Mates W F r a l k) (setLastServerResponse s) :=
  ⟨fun _ _ h => ⟨rfl, { h with same := { h.same with }, response := fun _ => rfl }⟩⟩

theorem setOptions_sync (s : Bytes) : Sync W (Mates W F r a l k) (setAuthOptions s) :=
  ⟨fun _ _ h => ⟨rfl, { h with same := { h.same with }, options := fun _ => rfl }⟩⟩

theorem logErrno_sync (hl : l) (e : Int) : Sync W (Mates W F r a l k) (logErrno e) := by
  unfold logErrno
  sync [setErrNo_sync, errText_sync, addLog_sync hl]

end Verif.Proofs
