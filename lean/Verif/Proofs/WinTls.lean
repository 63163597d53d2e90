import Verif.Proofs.WinSock
/-!
# The TLS negotiation on Windows
-/
namespace Verif.Proofs
open Verif Verif.Model Verif.Spec

variable {α β : Type} {env : WinEnv}

/-- The events added leave the certificate stores as they are. -/
def Storeless (s s' : WinSt) : Prop := ∃ evs, s'.hist = s.hist ++ evs ∧ storesOpen evs = 0

theorem cleanupWin_stores (s : WinSt) : wpW env cleanupWin (fun _ => Storeless s) (fun _ => True) s := by
  unfold cleanupWin
  rw [wpW_bind, wpW_base, wpW_bind]
  have close : wpW env closeSocketWin (fun _ => Storeless s) (fun _ => False)
      { s with client := { s.client with base := { s.client.base with isConnected := false, ctx := false, bio := none } } } := by
    unfold closeSocketWin
    rw [wpW_bind, wpW_gets, wpW_ite]
    refine ⟨fun _ => ?_, fun _ => ?_⟩
    · rw [wpW_bind, wpW_emit, wpW_bind, wpW_emit, wpW_base]
      exact ⟨[.shutdown s.client.base.sock, .closesocket s.client.base.sock], by simp, by simp [storesOpen, storeStep]⟩
    · exact ⟨[], by simp, rfl⟩
  refine wpW_mono close (fun _ s1 h1 => ?_) (fun _ h => h.elim)
  obtain ⟨evs, e1, e2⟩ := h1
  unfold stopWinsock
  rw [wpW_bind, wpW_gets, wpW_ite]
  refine ⟨fun hs => ?_, fun hs => ⟨evs, e1, e2⟩⟩
  refine wpW_mono (doWSACleanup_run s1) (fun _ s2 h2 => ?_) (fun _ _ => trivial)
  obtain ⟨r, g1, -⟩ := h2
  exact ⟨evs ++ [.wsaCleanup r], by rw [g1, e1, List.append_assoc], by rw [storesOpen_append, e2]; simp [storesOpen, storeStep]⟩

/-- No connection, no Winsock. -/
def Shut (c : WinClient) : Prop := c.base.sock = 0 ∧ c.base.isConnected = false ∧ c.started = false

theorem cleanupWin_storeless (s : WinSt) : wpW env cleanupWin (fun _ s' => Storeless s s' ∧ Shut s'.client) (fun _ => True) s :=
  wpW_mono (wpW_and (cleanupWin_stores s) (cleanupWin_run s)) (fun _ _ h => ⟨h.1, h.2.2.2.2.2.2, h.2.2.2.2.1, h.2.2.2.2.2.1⟩) (fun _ _ => trivial)

theorem importRoots_run (cs : List Bool) (s : WinSt) :
    wpW env (importRoots cs) (fun _ s' => s'.hist = s.hist ++ cs.map .rootCert ∧ s'.client = s.client) (fun _ => False) s := by
  induction cs generalizing s with
  | nil => exact ⟨by simp, rfl⟩
  | cons c cs ih =>
    unfold importRoots
    rw [wpW_bind, wpW_emit]
    exact wpW_mono (ih _) (fun _ s' h => ⟨by rw [h.1]; simp, h.2⟩) (fun _ h => h)

theorem storesOpen_roots (cs : List Bool) : storesOpen (cs.map .rootCert) = 0 := by
  induction cs with
  | nil => rfl
  | cons c cs ih => rw [List.map_cons, storesOpen, ih]; rfl

/-- What the negotiation returns and leaves behind. -/
def WinNegotiated (env : WinEnv) (s : WinSt) (code : Int) (s' : WinSt) : Prop :=
  ∃ evs, s'.hist = s.hist ++ evs ∧ (code = 0 → TlsChecked env.roots s.client.base.acceptSelfSigned s.hist evs) ∧
    ((code ∈ [0, -51, -52, -53] ∧ storesOpen evs = 0) ∨ (code ∈ [-55, -56, -57, -58] ∧ storesOpen evs = 1 ∧ Shut s'.client))

theorem startTLSNegotiationWin_run (s : WinSt) : wpW env startTLSNegotiationWin (WinNegotiated env s) (fun _ => True) s := by
  unfold startTLSNegotiationWin winTls winErrNo
  rw [wpW_bind]
  refine wpW_mono (winLog_only _ _ _) (fun _ s1 l1 => ?_) (fun _ _ => trivial)
  rw [wpW_bind, wpW_ask]
  generalize env.tls s1.hist _ = r1
  rw [wpW_ite]
  refine ⟨fun h1 => ?_, fun h1 => ?_⟩
  · rw [wpW_bind, wpW_base, wpW_bind, wpW_ask', wpW_bind, wpW_base, wpW_pure]
    exact ⟨[.tls .ctxNew r1], by simp [l1.1], by simp, .inl ⟨by simp, rfl⟩⟩
  rw [wpW_bind, wpW_base, wpW_bind, wpW_ask', wpW_bind, wpW_ask]
  dsimp only
  generalize env.tls _ _ = r2
  have hid : (s1.hist ++ [WinEv.tls TlsOp.ctxNew r1]).length = s.hist.length + 1 := by rw [l1.1]; simp
  generalize (s1.hist ++ [WinEv.tls TlsOp.ctxNew r1]).length = id at hid
  rw [wpW_ite]
  refine ⟨fun h2 => ?_, fun h2 => ?_⟩
  · rw [wpW_bind, wpW_base, wpW_pure]
    exact ⟨[.tls .ctxNew r1, .tls .bioNew r2], by simp [l1.1], by simp, .inl ⟨by simp, rfl⟩⟩
  rw [wpW_bind, wpW_gets, wpW_bind, wpW_base, wpW_bind, wpW_gets]
  dsimp only
  cases s1.client.base.serverName with
  | none => trivial
  | some name =>
    dsimp only
    rw [wpW_bind, wpW_gets, wpW_ite]
    refine ⟨fun _ => trivial, fun _ => ?_⟩
    rw [wpW_bind, wpW_ask]
    dsimp only
    generalize env.storeOpen _ = so
    rw [wpW_ite]
    refine ⟨fun hso => ?_, fun hso => ?_⟩
    · have : so = false := by simpa using hso
      subst this
      rw [wpW_bind, wpW_ask', wpW_bind, wpW_base, wpW_pure]
      exact ⟨[.tls .ctxNew r1, .tls .bioNew r2, .storeOpen false], by simp [l1.1], by simp, .inl ⟨by simp, rfl⟩⟩
    have : so = true := by simpa using hso
    subst this
    rw [wpW_bind, wpW_ask', wpW_bind]
    dsimp only
    generalize hroots : env.roots _ = roots
    refine wpW_mono (importRoots_run _ _) (fun _ s2 l2 => ?_) (fun _ _ => trivial)
    obtain ⟨e2, c2⟩ := l2
    have e2' : s2.hist = s.hist ++ ([.tls .ctxNew r1, .tls .bioNew r2, .storeOpen true] ++ roots.map .rootCert) := by
      rw [e2]; simp [l1.1]
    have hst : storesOpen ([.tls .ctxNew r1, .tls .bioNew r2, .storeOpen true] ++ roots.map .rootCert) = 1 := by
      rw [storesOpen_append, storesOpen_roots]; rfl
    have hac : s2.client.base.acceptSelfSigned = s.client.base.acceptSelfSigned := by rw [c2]; exact l1.2.2.2.2.2.2
    generalize hpre : ([.tls .ctxNew r1, .tls .bioNew r2, .storeOpen true] ++ roots.map .rootCert : WinHist) = pre at e2' hst
    clear e2 c2
    -- ends after `cleanup`
    have bad : ∀ (s3 s4 : WinSt) (evs : WinHist) (code : Int), s3.hist = s.hist ++ (pre ++ evs) → storesOpen evs = 0 →
        Storeless s3 s4 ∧ Shut s4.client → code ∈ [-55, -56, -57, -58] → WinNegotiated env s code s4 := by
      intro s3 s4 evs code g1 g2 ⟨⟨x, g3, g4⟩, g5⟩ hc
      refine ⟨pre ++ evs ++ x, by rw [g3, g1]; simp, fun h0 => ?_, .inr ⟨hc, by rw [storesOpen_append, storesOpen_append]; omega, g5⟩⟩
      subst h0
      simp at hc
    rw [wpW_bind, wpW_ask]
    generalize env.tls s2.hist _ = r3
    rw [wpW_ite]
    refine ⟨fun h3 => ?_, fun h3 => ?_⟩
    · rw [wpW_bind]
      refine wpW_mono (cleanupWin_storeless _) (fun _ s4 l4 => ?_) (fun _ _ => trivial)
      rw [wpW_bind, wpW_ask', wpW_bind, wpW_base, wpW_pure]
      exact bad _ _ [.tls (.connect id) r3] _ (by simp [e2']) rfl l4 (by simp)
    rw [wpW_bind]
    refine wpW_mono (winLog_only _ _ _) (fun _ s3 l3 => ?_) (fun _ _ => trivial)
    have e3 : s3.hist = s.hist ++ (pre ++ [.tls (.connect id) r3]) := by rw [l3.1]; simp [e2']
    have a3 : s3.client.base.acceptSelfSigned = s.client.base.acceptSelfSigned := l3.2.2.2.2.2.2.trans hac
    rw [wpW_bind, wpW_ask]
    generalize env.tls s3.hist _ = r4
    rw [wpW_ite]
    refine ⟨fun h4 => ?_, fun h4 => ?_⟩
    · rw [wpW_bind]
      refine wpW_mono (cleanupWin_storeless _) (fun _ s4 l4 => ?_) (fun _ _ => trivial)
      rw [wpW_bind, wpW_ask', wpW_bind, wpW_base, wpW_pure]
      exact bad _ _ [.tls (.connect id) r3, .tls (.handshake id) r4] _ (by simp [e3]) rfl l4 (by simp)
    rw [wpW_bind]
    refine wpW_mono (winLog_only _ _ _) (fun _ s4 l4 => ?_) (fun _ _ => trivial)
    have e4 : s4.hist = s.hist ++ (pre ++ [.tls (.connect id) r3, .tls (.handshake id) r4]) := by rw [l4.1]; simp [e3]
    have a4 : s4.client.base.acceptSelfSigned = s.client.base.acceptSelfSigned := l4.2.2.2.2.2.2.trans a3
    rw [wpW_bind, wpW_ask]
    generalize env.tls s4.hist _ = r5
    rw [wpW_ite]
    refine ⟨fun h5 => ?_, fun h5 => ?_⟩
    · rw [wpW_bind]
      refine wpW_mono (cleanupWin_storeless _) (fun _ s5 l5 => ?_) (fun _ _ => trivial)
      rw [wpW_pure]
      exact bad _ _ [.tls (.connect id) r3, .tls (.handshake id) r4, .tls (.peerCert id) r5] _ (by simp [e4]) rfl l5 (by simp)
    rw [wpW_bind, wpW_ask, wpW_bind, wpW_gets]
    generalize env.tls _ _ = res
    -- the two good ends
    have good : ∀ s5 : WinSt, (res = 0 ∨ res = 18 ∧ s.client.base.acceptSelfSigned = true) →
        s5.hist = s.hist ++ (pre ++ [.tls (.connect id) r3, .tls (.handshake id) r4, .tls (.peerCert id) r5, .tls (.verifyResult id) res]) →
        wpW env (do winLog b!"TLS session ready!"; W.emit .storeClose; pure (0 : Int)) (WinNegotiated env s) (fun _ => True) s5 := by
      intro s5 hres e5
      rw [wpW_bind]
      refine wpW_mono (winLog_only _ _ _) (fun _ s6 l6 => ?_) (fun _ _ => trivial)
      rw [wpW_bind, wpW_emit, wpW_pure]
      refine ⟨pre ++ [.tls (.connect id) r3, .tls (.handshake id) r4, .tls (.peerCert id) r5, .tls (.verifyResult id) res, .storeClose], by simp [l6.1, e5],
        fun _ => ⟨id, r1, r2, r3, r4, r5, res, roots, hid, by rw [← hroots]; simp [l1.1], h1, h2, by omega, by omega, h5, hres, by rw [hpre]⟩, .inl ⟨by simp, ?_⟩⟩
      rw [storesOpen_append, hst]; rfl
    rw [wpW_ite]
    refine ⟨fun h6 => ?_, fun h6 => ?_⟩
    · rw [wpW_bind]
      refine wpW_mono (winLog_only _ _ _) (fun _ s5 l5 => ?_) (fun _ _ => trivial)
      exact good s5 (.inr ⟨h6.1, by rw [← a4]; exact h6.2⟩) (by rw [l5.1]; simp [e4])
    · rw [wpW_ite]
      refine ⟨fun h7 => ?_, fun h7 => ?_⟩
      · rw [wpW_bind, wpW_env, wpW_bind]
        refine wpW_mono (winLog_only _ _ _) (fun _ s5 l5 => ?_) (fun _ _ => trivial)
        rw [wpW_bind]
        refine wpW_mono (cleanupWin_storeless _) (fun _ s6 l6 => ?_) (fun _ _ => trivial)
        rw [wpW_pure]
        exact bad s5 _ [.tls (.connect id) r3, .tls (.handshake id) r4, .tls (.peerCert id) r5, .tls (.verifyResult id) res] _
          (by rw [l5.1]; simp [e4]) rfl l6 (by simp)
      · exact good _ (.inl (Decidable.not_not.mp h7)) (by simp [e4])

/-! ### The socket is closed -/

/-- `I` is kept by the code, whatever happens. -/
def KeepsW (env : WinEnv) (I : WinSt → Prop) (m : W α) : Prop := ∀ s, I s → wpW env m (fun _ => I) I s

section
variable {I : WinSt → Prop}

theorem kw_bind {m : W α} {f : α → W β} (h : KeepsW env I m) (hf : ∀ a, KeepsW env I (f a)) : KeepsW env I (m >>= f) := fun s hs =>
  wpW_bind.mpr (wpW_mono (h s hs) (fun a s' h' => hf a s' h') (fun _ h' => h'))
theorem kw_pure {a : α} : KeepsW env I (pure a : W α) := fun _ hs => hs
theorem kw_stop {e : Stop} : KeepsW env I (W.stop e : W α) := fun _ hs => hs
theorem kw_gets {f : WinClient → α} : KeepsW env I (W.gets f) := fun _ hs => hs
theorem kw_env {f : WinEnv → α} : KeepsW env I (W.env f) := fun _ hs => hs
theorem kw_ask' {f : WinEnv → WinHist → α} : KeepsW env I (W.ask' f) := fun _ hs => hs
theorem kw_ite {c : Prop} [Decidable c] {m m' : W α} (h : KeepsW env I m) (h' : KeepsW env I m') : KeepsW env I (if c then m else m') := by
  split
  · exact h
  · exact h'
end

/-- The socket is still held, or it was shut down and closed. -/
def HeldOrClosed (h0 : WinHist) (v : Int) (s : WinSt) : Prop :=
  ∃ evs, s.hist = h0 ++ evs ∧ (s.client.base.sock = v ∨ .shutdown v ∈ evs ∧ .closesocket v ∈ evs)

section
variable {h0 : WinHist} {v : Int}

theorem HeldOrClosed.event {s : WinSt} (h : HeldOrClosed h0 v s) (e : WinEv) : HeldOrClosed h0 v { s with hist := s.hist ++ [e] } := by
  obtain ⟨evs, h1, h2⟩ := h
  exact ⟨evs ++ [e], by simp [h1], h2.imp id fun h => ⟨List.mem_append_left _ h.1, List.mem_append_left _ h.2⟩⟩

theorem kw_event {f : WinEnv → WinHist → α} {ev : α → WinEv} : KeepsW env (HeldOrClosed h0 v) (W.ask f ev) := fun _ hs => hs.event _
theorem kw_emit {e : WinEv} : KeepsW env (HeldOrClosed h0 v) (W.emit e) := fun _ hs => hs.event _
theorem kw_base {f : Client → Client} (hf : ∀ c, (f c).sock = c.sock) : KeepsW env (HeldOrClosed h0 v) (W.base f) := fun s hs => by
  obtain ⟨evs, h1, h2⟩ := hs
  exact ⟨evs, h1, h2.imp (fun h => (hf s.client.base).trans h) id⟩
theorem kw_modify {f : WinClient → WinClient} (hf : ∀ c, (f c).base.sock = c.base.sock) : KeepsW env (HeldOrClosed h0 v) (W.modify f) := fun s hs => by
  obtain ⟨evs, h1, h2⟩ := hs
  exact ⟨evs, h1, h2.imp (fun h => (hf s.client).trans h) id⟩

theorem kw_log (i p : Bytes) : KeepsW env (HeldOrClosed h0 v) (winLog i p) := fun s hs => by
  obtain ⟨evs, h1, h2⟩ := hs
  exact wpW_mono (winLog_only i p s) (fun _ s' h => ⟨evs, h.1.trans h1, h2.imp (fun e => h.2.2.1.trans e) id⟩)
    (fun s' h => ⟨evs, h.1.trans h1, h2.imp (fun e => h.2.2.1.trans e) id⟩)

theorem kw_close (hv : v ≠ 0) : KeepsW env (HeldOrClosed h0 v) closeSocketWin := fun s hs => by
  obtain ⟨evs, h1, h2⟩ := hs
  unfold closeSocketWin
  rw [wpW_bind, wpW_gets, wpW_ite]
  refine ⟨fun _ => ?_, fun hz => ?_⟩
  · rw [wpW_bind, wpW_emit, wpW_bind, wpW_emit, wpW_base]
    refine ⟨evs ++ [.shutdown s.client.base.sock, .closesocket s.client.base.sock], by simp [h1], .inr ?_⟩
    rcases h2 with h2 | h2
    · rw [h2]; simp
    · exact ⟨List.mem_append_left _ h2.1, List.mem_append_left _ h2.2⟩
  · have hz := Decidable.not_not.mp hz
    rw [wpW_base]
    refine ⟨evs, h1, .inr (h2.resolve_left fun e => hv (e.symm.trans hz))⟩

theorem kw_cleanup (hv : v ≠ 0) : KeepsW env (HeldOrClosed h0 v) cleanupWin := by
  unfold cleanupWin stopWinsock doWSACleanup winErrNo
  refine kw_bind (kw_base fun _ => rfl) fun _ => kw_bind (kw_close hv) fun _ => kw_bind kw_gets fun _ => kw_ite (kw_bind kw_event fun _ => kw_ite ?_ ?_) ?_
  · exact kw_bind kw_ask' fun _ => kw_bind (kw_base fun _ => rfl) fun _ => kw_bind (kw_log _ _) fun _ => kw_modify fun _ => rfl
  · exact kw_modify fun _ => rfl
  · exact kw_modify fun _ => rfl

theorem kw_roots (cs : List Bool) : KeepsW env (HeldOrClosed h0 v) (importRoots cs) := by
  induction cs with
  | nil => exact kw_pure
  | cons c cs ih => exact kw_bind kw_emit fun _ => ih

theorem startTLSNegotiationWin_closes (hv : v ≠ 0) : KeepsW env (HeldOrClosed h0 v) startTLSNegotiationWin := by
  unfold startTLSNegotiationWin winTls winErrNo
  refine kw_bind (kw_log _ _) fun _ => kw_bind kw_event fun _ => kw_ite ?_ ?_
  · exact kw_bind (kw_base fun _ => rfl) fun _ => kw_bind kw_ask' fun _ => kw_bind (kw_base fun _ => rfl) fun _ => kw_pure
  refine kw_bind (kw_base fun _ => rfl) fun _ => kw_bind kw_ask' fun _ => kw_bind kw_event fun _ => kw_ite ?_ ?_
  · exact kw_bind (kw_base fun _ => rfl) fun _ => kw_pure
  refine kw_bind kw_gets fun _ => kw_bind (kw_base fun _ => rfl) fun _ => kw_bind kw_gets fun o => ?_
  cases o with
  | none => exact kw_stop
  | some name =>
    refine kw_bind kw_gets fun _ => kw_ite kw_stop (kw_bind kw_event fun _ => kw_ite ?_ ?_)
    · exact kw_bind kw_ask' fun _ => kw_bind (kw_base fun _ => rfl) fun _ => kw_pure
    refine kw_bind kw_ask' fun _ => kw_bind (kw_roots _) fun _ => kw_bind kw_event fun _ => kw_ite ?_ ?_
    · exact kw_bind (kw_cleanup hv) fun _ => kw_bind kw_ask' fun _ => kw_bind (kw_base fun _ => rfl) fun _ => kw_pure
    refine kw_bind (kw_log _ _) fun _ => kw_bind kw_event fun _ => kw_ite ?_ ?_
    · exact kw_bind (kw_cleanup hv) fun _ => kw_bind kw_ask' fun _ => kw_bind (kw_base fun _ => rfl) fun _ => kw_pure
    refine kw_bind (kw_log _ _) fun _ => kw_bind kw_event fun _ => kw_ite ?_ ?_
    · exact kw_bind (kw_cleanup hv) fun _ => kw_pure
    refine kw_bind kw_event fun _ => kw_bind kw_gets fun _ => kw_ite ?_ (kw_ite ?_ ?_)
    · exact kw_bind (kw_log _ _) fun _ => kw_bind (kw_log _ _) fun _ => kw_bind kw_emit fun _ => kw_pure
    · exact kw_bind kw_env fun _ => kw_bind (kw_log _ _) fun _ => kw_bind (kw_cleanup hv) fun _ => kw_pure
    · exact kw_bind (kw_log _ _) fun _ => kw_bind kw_emit fun _ => kw_pure

end

end Verif.Proofs
