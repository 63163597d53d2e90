import Verif.Spec.WinSock
/-!
# Reasoning about the Windows branches
-/
namespace Verif.Proofs
open Verif Verif.Model Verif.Spec

variable {α β : Type} {env : WinEnv}

/-- All ends of a piece of code: `Q` when it returns, `E` when it stops. -/
def wpW (env : WinEnv) (m : W α) (Q : α → WinSt → Prop) (E : WinSt → Prop) (s : WinSt) : Prop :=
  match m env s with
  | (.ok a, s') => Q a s'
  | (.stop _, s') => E s'

section
variable {Q : α → WinSt → Prop} {E : WinSt → Prop} {s : WinSt}

theorem wpW_bind {m : W α} {f : α → W β} {Q : β → WinSt → Prop} : wpW env (m >>= f) Q E s ↔ wpW env m (fun a => wpW env (f a) Q E) E s := by
  show wpW env (W.bind m f) Q E s ↔ _
  unfold wpW W.bind
  cases m env s with
  | mk r s' => cases r <;> exact Iff.rfl

theorem wpW_pure {a : α} : wpW env (pure a : W α) Q E s ↔ Q a s := Iff.rfl
theorem wpW_stop {e : Stop} : wpW env (W.stop e : W α) Q E s ↔ E s := Iff.rfl
theorem wpW_gets {f : WinClient → α} : wpW env (W.gets f) Q E s ↔ Q (f s.client) s := Iff.rfl
theorem wpW_modify {f : WinClient → WinClient} {Q : Unit → WinSt → Prop} : wpW env (W.modify f) Q E s ↔ Q () { s with client := f s.client } := Iff.rfl
theorem wpW_base {f : Client → Client} {Q : Unit → WinSt → Prop} :
    wpW env (W.base f) Q E s ↔ Q () { s with client := { s.client with base := f s.client.base } } := Iff.rfl
theorem wpW_env {f : WinEnv → α} : wpW env (W.env f) Q E s ↔ Q (f env) s := Iff.rfl
theorem wpW_emit {e : WinEv} {Q : Unit → WinSt → Prop} : wpW env (W.emit e) Q E s ↔ Q () { s with hist := s.hist ++ [e] } := Iff.rfl
theorem wpW_ask {f : WinEnv → WinHist → α} {ev : α → WinEv} :
    wpW env (W.ask f ev) Q E s ↔ Q (f env s.hist) { s with hist := s.hist ++ [ev (f env s.hist)] } := Iff.rfl
theorem wpW_ask' {f : WinEnv → WinHist → α} : wpW env (W.ask' f) Q E s ↔ Q (f env s.hist) s := Iff.rfl

theorem wpW_ite {c : Prop} [Decidable c] {m m' : W α} :
    wpW env (if c then m else m') Q E s ↔ (c → wpW env m Q E s) ∧ (¬ c → wpW env m' Q E s) := by
  by_cases h : c <;> simp [h]

theorem wpW_mono {m : W α} {Q' : α → WinSt → Prop} {E' : WinSt → Prop} (h : wpW env m Q E s) (hq : ∀ a s', Q a s' → Q' a s') (he : ∀ s', E s' → E' s') :
    wpW env m Q' E' s := by
  unfold wpW at *
  revert h
  cases m env s with
  | mk r s' =>
    cases r with
    | ok a => exact hq a s'
    | stop e => exact he s'

theorem wpW_and {m : W α} {Q' : α → WinSt → Prop} {E' : WinSt → Prop} (h : wpW env m Q E s) (h' : wpW env m Q' E' s) :
    wpW env m (fun a s => Q a s ∧ Q' a s) (fun s => E s ∧ E' s) s := by
  unfold wpW at *
  revert h h'
  cases m env s with
  | mk r s' => cases r <;> exact fun h h' => ⟨h, h'⟩

/-- From all ends to the state reached. -/
theorem wpW_state {I : WinSt → Prop} {m : W α} (h : wpW env m (fun _ => I) I s) : I (m env s).2 := by
  unfold wpW at h
  split at h <;> (rename_i e; rw [e]; exact h)

end

/-! ### Counting -/

theorem winsockUse_append (h h' : WinHist) : winsockUse (h ++ h') = winsockUse h + winsockUse h' := by
  induction h with
  | nil => simp [winsockUse]
  | cons e h ih =>
    rw [List.cons_append, winsockUse, winsockUse, ih]
    omega

theorem storesOpen_append (h h' : WinHist) : storesOpen (h ++ h') = storesOpen h + storesOpen h' := by
  induction h with
  | nil => simp [storesOpen]
  | cons e h ih =>
    rw [List.cons_append, storesOpen, storesOpen, ih]
    omega

/-- 1 for a client that believes to have started Winsock. -/
def flag (c : WinClient) : Int := if c.started then 1 else 0

/-- Only the log and the error number changed. -/
def LogOnly (s s' : WinSt) : Prop :=
  s'.hist = s.hist ∧ s'.client.started = s.client.started ∧ s'.client.base.sock = s.client.base.sock ∧
  s'.client.base.isConnected = s.client.base.isConnected ∧ s'.client.base.serverName = s.client.base.serverName ∧
  s'.client.base.port = s.client.base.port ∧ s'.client.base.acceptSelfSigned = s.client.base.acceptSelfSigned

theorem LogOnly.refl (s : WinSt) : LogOnly s s := ⟨rfl, rfl, rfl, rfl, rfl, rfl, rfl⟩

theorem LogOnly.trans {a b c : WinSt} (h : LogOnly a b) (h' : LogOnly b c) : LogOnly a c :=
  ⟨h'.1.trans h.1, h'.2.1.trans h.2.1, h'.2.2.1.trans h.2.2.1, h'.2.2.2.1.trans h.2.2.2.1, h'.2.2.2.2.1.trans h.2.2.2.2.1,
    h'.2.2.2.2.2.1.trans h.2.2.2.2.2.1, h'.2.2.2.2.2.2.trans h.2.2.2.2.2.2⟩

theorem winLog_only (i p : Bytes) (s : WinSt) : wpW env (winLog i p) (fun _ => LogOnly s) (LogOnly s) s := by
  unfold winLog
  rw [wpW_bind, wpW_gets]
  cases s.client.base.log with
  | none => exact LogOnly.refl s
  | some l =>
    cases ha : l.add i p with
    | error u => simp only [ha]; exact LogOnly.refl s
    | ok l' => simp only [ha]; exact ⟨rfl, rfl, rfl, rfl, rfl, rfl, rfl⟩

theorem addWSAMessage_only (e : Int) (s : WinSt) : wpW env (addWSAMessage e) (fun _ => LogOnly s) (LogOnly s) s := by
  unfold addWSAMessage
  rw [wpW_bind, wpW_env]
  cases env.wsaText e with
  | none => exact LogOnly.refl s
  | some t => exact winLog_only t _ s

/-- `WSACleanup` was called; when it failed and could not be logged the run stopped with the flag still set. -/
theorem doWSACleanup_run (s : WinSt) :
    wpW env doWSACleanup
      (fun _ s' => ∃ r, s'.hist = s.hist ++ [.wsaCleanup r] ∧ s'.client.started = false ∧ s'.client.base.sock = s.client.base.sock ∧
        s'.client.base.isConnected = s.client.base.isConnected)
      (fun s' => ∃ r, r ≠ 0 ∧ s'.hist = s.hist ++ [.wsaCleanup r] ∧ s'.client.started = s.client.started ∧
        s'.client.base.isConnected = s.client.base.isConnected) s := by
  unfold doWSACleanup winErrNo
  rw [wpW_bind, wpW_ask, wpW_ite]
  refine ⟨fun hr => ?_, fun _ => ?_⟩
  · rw [wpW_bind, wpW_ask', wpW_bind, wpW_base, wpW_bind]
    refine wpW_mono (winLog_only _ _ _) (fun _ s1 h1 => ?_) (fun s1 h1 => ?_)
    · rw [wpW_modify]
      exact ⟨_, h1.1, rfl, h1.2.2.1, h1.2.2.2.1⟩
    · exact ⟨_, hr, h1.1, h1.2.1, h1.2.2.2.1⟩
  · rw [wpW_modify]
    exact ⟨_, rfl, rfl, rfl, rfl⟩

theorem winOpenFailed_run (e code : Int) (s : WinSt) :
    wpW env (winOpenFailed e code)
      (fun c s' => c = code ∧ ∃ r, s'.hist = s.hist ++ [.wsaCleanup r] ∧ s'.client.started = false ∧ s'.client.base.sock = s.client.base.sock ∧
        s'.client.base.isConnected = s.client.base.isConnected)
      (fun s' => s'.client.started = s.client.started ∧ s'.client.base.isConnected = s.client.base.isConnected ∧
        (s'.hist = s.hist ∨ ∃ r, r ≠ 0 ∧ s'.hist = s.hist ++ [.wsaCleanup r])) s := by
  unfold winOpenFailed winErrNo
  rw [wpW_bind]
  refine wpW_mono (addWSAMessage_only e s) (fun _ s1 h1 => ?_) (fun s1 h1 => ⟨h1.2.1, h1.2.2.2.1, .inl h1.1⟩)
  rw [wpW_bind, wpW_base, wpW_bind]
  refine wpW_mono (doWSACleanup_run _) (fun _ s2 h2 => ?_) (fun s2 h2 => ?_)
  · obtain ⟨r, e1, e2, e3, e4⟩ := h2
    exact ⟨rfl, r, by rw [e1, ← h1.1], e2, e3.trans h1.2.2.1, e4.trans h1.2.2.2.1⟩
  · obtain ⟨r, e1, e2, e3, e4⟩ := h2
    exact ⟨e3.trans h1.2.1, e4.trans h1.2.2.2.1, .inr ⟨r, e1, by rw [e2, ← h1.1]⟩⟩

/-- The ways `initializeSessionWin` ends when it returns. -/
inductive WinInit (s s' : WinSt) : Int → Prop
  | noStartup (r : Int) : r ≠ 0 → s'.hist = s.hist ++ [.startup r] → s'.client.started = s.client.started → WinInit s s' (-4)
  | noAddress (r r' : Int) (n p) : r ≠ 0 → s'.hist = s.hist ++ [.startup 0, .resolve n p r, .wsaCleanup r'] → s'.client.started = false → WinInit s s' (-5)
  | noSocket (h : Nat) (r' : Int) (n p) : handleInt h = -1 → s'.hist = s.hist ++ [.startup 0, .resolve n p 0, .socket h, .wsaCleanup r'] →
      s'.client.started = false → WinInit s s' (-1)
  | noConnection (h : Nat) (r' : Int) (n p) : handleInt h ≠ -1 →
      s'.hist = s.hist ++ [.startup 0, .resolve n p 0, .socket h, .connect (handleInt h) false, .wsaCleanup r'] → s'.client.started = false → WinInit s s' (-2)
  | opened (h : Nat) (n : Bytes) : handleInt h ≠ -1 → s.client.base.serverName = some n → s'.client.base.sock = handleInt h →
      s'.hist = s.hist ++ [.startup 0, .resolve (some n) (natDec s.client.base.port) 0, .socket h, .connect (handleInt h) true] →
      s'.client.started = true → WinInit s s' 0

/-- The ways it stops. -/
inductive WinInitStop (s s' : WinSt) : Prop
  | early (r : Int) : r ≠ 0 → s'.hist = s.hist ++ [.startup r] → s'.client.started = s.client.started → WinInitStop s s'
  | late (evs : WinHist) : s'.hist = s.hist ++ .startup 0 :: evs → (∀ e ∈ evs, winsockStep e = 0) → s'.client.started = true → WinInitStop s s'

theorem initializeSessionWin_run (s : WinSt) :
    wpW env initializeSessionWin
      (fun code s' => WinInit s s' code ∧ s'.client.base.isConnected = s.client.base.isConnected)
      (fun s' => WinInitStop s s' ∧ s'.client.base.isConnected = s.client.base.isConnected) s := by
  unfold initializeSessionWin
  rw [wpW_bind, wpW_base, wpW_bind, wpW_ask]
  dsimp only
  generalize env.startup s.hist = r0
  rw [wpW_ite]
  refine ⟨fun hr => ?_, fun hr => ?_⟩
  · unfold winErrNo
    rw [wpW_bind, wpW_base, wpW_bind]
    refine wpW_mono (winLog_only _ _ _) (fun _ s1 h1 => ?_) (fun s1 h1 => ?_)
    · rw [wpW_pure]
      exact ⟨.noStartup _ hr h1.1 h1.2.1, h1.2.2.2.1⟩
    · exact ⟨.early _ hr h1.1 h1.2.1, h1.2.2.2.1⟩
  · have hr := Decidable.not_not.mp hr
    subst hr
    rw [wpW_bind, wpW_modify, wpW_bind, wpW_gets, wpW_bind, wpW_gets, wpW_bind, wpW_ask]
    dsimp only
    generalize hname : s.client.base.serverName = name
    generalize hport : natDec s.client.base.port = port
    generalize env.resolve _ name port = r1
    rw [wpW_ite]
    refine ⟨fun hr1 => ?_, fun hr1 => ?_⟩
    · refine wpW_mono (winOpenFailed_run _ _ _) (fun c s1 h1 => ?_) (fun s1 h1 => ?_)
      · obtain ⟨rfl, r', e1, e2, -, e4⟩ := h1
        exact ⟨.noAddress r1 r' name port hr1 (by rw [e1]; simp) e2, e4⟩
      · obtain ⟨e1, e2, e3 | ⟨r', hr', e3⟩⟩ := h1
        · exact ⟨.late [.resolve name port r1] (by rw [e3]; simp) (by simp [winsockStep]) e1, e2⟩
        · exact ⟨.late [.resolve name port r1, .wsaCleanup r'] (by rw [e3]; simp) (by simp [winsockStep, hr']) e1, e2⟩
    · have hr1 := Decidable.not_not.mp hr1
      subst hr1
      rw [wpW_bind, wpW_ask, wpW_bind, wpW_base]
      dsimp only
      generalize env.socket _ = h
      rw [wpW_ite]
      refine ⟨fun hh => ?_, fun hh => ?_⟩
      · rw [wpW_bind, wpW_ask']
        refine wpW_mono (winOpenFailed_run _ _ _) (fun c s1 h1 => ?_) (fun s1 h1 => ?_)
        · obtain ⟨rfl, r', e1, e2, -, e4⟩ := h1
          exact ⟨.noSocket h r' name port hh (by rw [e1]; simp) e2, e4⟩
        · obtain ⟨e1, e2, e3 | ⟨r', hr', e3⟩⟩ := h1
          · exact ⟨.late [.resolve name port 0, .socket h] (by rw [e3]; simp) (by simp [winsockStep]) e1, e2⟩
          · exact ⟨.late [.resolve name port 0, .socket h, .wsaCleanup r'] (by rw [e3]; simp) (by simp [winsockStep, hr']) e1, e2⟩
      · cases name with
        | none => exact ⟨.late [.resolve none port 0, .socket h] (by simp) (by simp [winsockStep]) rfl, rfl⟩
        | some n =>
          dsimp only
          rw [wpW_bind]
          refine wpW_mono (winLog_only _ _ _) (fun _ s1 h1 => ?_) (fun s1 h1 => ?_)
          · rw [wpW_bind, wpW_ask, wpW_ite]
            generalize env.connect s1.hist (handleInt h) = ok
            refine ⟨fun hc => ?_, fun hc => ?_⟩
            · rw [wpW_pure]
              subst hc
              exact ⟨.opened h n hh hname h1.2.2.1 (by simp only [h1.1]; simp [hport]) h1.2.1, h1.2.2.2.1⟩
            · rw [wpW_bind, wpW_ask']
              cases ok with
              | true => exact absurd rfl hc
              | false =>
                refine wpW_mono (winOpenFailed_run _ _ _) (fun c s2 h2 => ?_) (fun s2 h2 => ?_)
                · obtain ⟨rfl, r', e1, e2, -, e4⟩ := h2
                  exact ⟨.noConnection h r' (some n) port hh (by rw [e1]; simp [h1.1]) e2, e4.trans h1.2.2.2.1⟩
                · obtain ⟨e1, e2, e3 | ⟨r', hr', e3⟩⟩ := h2
                  · exact ⟨.late [.resolve (some n) port 0, .socket h, .connect (handleInt h) false] (by rw [e3]; simp [h1.1]) (by simp [winsockStep])
                      (e1.trans h1.2.1), e2.trans h1.2.2.2.1⟩
                  · exact ⟨.late [.resolve (some n) port 0, .socket h, .connect (handleInt h) false, .wsaCleanup r'] (by rw [e3]; simp [h1.1])
                      (by simp [winsockStep, hr']) (e1.trans h1.2.1), e2.trans h1.2.2.2.1⟩
          · exact ⟨.late [.resolve (some n) port 0, .socket h] (by rw [h1.1]; simp) (by simp [winsockStep]) h1.2.1, h1.2.2.2.1⟩

/-! ### The flag and the count -/

theorem flag_nonneg (c : WinClient) : 0 ≤ flag c := by unfold flag; split <;> omega
theorem flag_true {c : WinClient} (h : c.started = true) : flag c = 1 := by simp [flag, h]
theorem flag_false {c : WinClient} (h : c.started = false) : flag c = 0 := by simp [flag, h]
theorem flag_congr {c d : WinClient} (h : c.started = d.started) : flag c = flag d := by simp [flag, h]
theorem winsockUse_one (e : WinEv) : winsockUse [e] = winsockStep e := by simp [winsockUse]
theorem winsockStep_cleanup (r : Int) : -1 ≤ winsockStep (.wsaCleanup r) ∧ winsockStep (.wsaCleanup r) ≤ 0 := by
  simp only [winsockStep]; split <;> omega
theorem winsockUse_zero {h : WinHist} (hz : ∀ e ∈ h, winsockStep e = 0) : winsockUse h = 0 := by
  induction h with
  | nil => rfl
  | cons e h ih =>
    rw [winsockUse, hz e (List.mem_cons_self ..), ih fun x hx => hz x (List.mem_cons_of_mem _ hx)]
    rfl

/-- What a client believes is never more than what Winsock counts. -/
def Below (s s' : WinSt) : Prop := flag s'.client + winsockUse s.hist ≤ flag s.client + winsockUse s'.hist

/-- What a client believes is what Winsock counts. -/
def Level (s s' : WinSt) : Prop := flag s'.client + winsockUse s.hist = flag s.client + winsockUse s'.hist

theorem Below.trans {a b c : WinSt} (h : Below a b) (h' : Below b c) : Below a c := by unfold Below at *; omega
theorem Level.trans {a b c : WinSt} (h : Level a b) (h' : Level b c) : Level a c := by unfold Level at *; omega

/-- The history only grows. -/
def Longer (s s' : WinSt) : Prop := ∃ evs, s'.hist = s.hist ++ evs

theorem Longer.trans {a b c : WinSt} (h : Longer a b) (h' : Longer b c) : Longer a c := by
  obtain ⟨x, hx⟩ := h
  obtain ⟨y, hy⟩ := h'
  exact ⟨x ++ y, by rw [hy, hx, List.append_assoc]⟩

/-- The joint statement: never above; and level when no cleanup failed and a client that is not connected has not started Winsock. -/
def Counted (s s' : WinSt) : Prop :=
  Longer s s' ∧ Below s s' ∧ (CleanupsWork s'.hist → (s.client.base.isConnected = false → s.client.started = false) → Level s s')

theorem counted_init {s s' : WinSt} {code : Int} (h : WinInit s s' code) (hc : s.client.base.isConnected = false) : Counted s s' := by
  have h0 := flag_nonneg s.client
  cases h with
  | noStartup r hr e f =>
    have hu : winsockUse s'.hist = winsockUse s.hist := by rw [e, winsockUse_append]; simp [winsockUse, winsockStep, hr]
    have hf := flag_congr f
    exact ⟨⟨_, e⟩, by unfold Below; omega, fun _ _ => by unfold Level; omega⟩
  | noAddress r r' n p hr e f =>
    have hu : winsockUse s'.hist = winsockUse s.hist + 1 + winsockStep (.wsaCleanup r') := by
      rw [e, winsockUse_append]; simp [winsockUse, winsockStep]; omega
    have hf := flag_false f
    have hw := winsockStep_cleanup r'
    refine ⟨⟨_, e⟩, by unfold Below; omega, fun hk hs => ?_⟩
    have : r' = 0 := hk r' (by simp [e])
    subst this
    have := flag_false (hs hc)
    simp [winsockStep] at hu
    unfold Level; omega
  | noSocket h r' n p hh e f =>
    have hu : winsockUse s'.hist = winsockUse s.hist + 1 + winsockStep (.wsaCleanup r') := by
      rw [e, winsockUse_append]; simp [winsockUse, winsockStep]; omega
    have hf := flag_false f
    have hw := winsockStep_cleanup r'
    refine ⟨⟨_, e⟩, by unfold Below; omega, fun hk hs => ?_⟩
    have : r' = 0 := hk r' (by simp [e])
    subst this
    have := flag_false (hs hc)
    simp [winsockStep] at hu
    unfold Level; omega
  | noConnection h r' n p hh e f =>
    have hu : winsockUse s'.hist = winsockUse s.hist + 1 + winsockStep (.wsaCleanup r') := by
      rw [e, winsockUse_append]; simp [winsockUse, winsockStep]; omega
    have hf := flag_false f
    have hw := winsockStep_cleanup r'
    refine ⟨⟨_, e⟩, by unfold Below; omega, fun hk hs => ?_⟩
    have : r' = 0 := hk r' (by simp [e])
    subst this
    have := flag_false (hs hc)
    simp [winsockStep] at hu
    unfold Level; omega
  | opened h n hh hn hs e f =>
    have hu : winsockUse s'.hist = winsockUse s.hist + 1 := by
      rw [e, winsockUse_append]; simp [winsockUse, winsockStep]
    have hf := flag_true f
    refine ⟨⟨_, e⟩, by unfold Below; omega, fun _ hs => ?_⟩
    have := flag_false (hs hc)
    unfold Level; omega

theorem counted_stop {s s' : WinSt} (h : WinInitStop s s') (hc : s.client.base.isConnected = false) : Counted s s' := by
  have h0 := flag_nonneg s.client
  cases h with
  | early r hr e f =>
    have hu : winsockUse s'.hist = winsockUse s.hist := by rw [e, winsockUse_append]; simp [winsockUse, winsockStep, hr]
    have hf := flag_congr f
    exact ⟨⟨_, e⟩, by unfold Below; omega, fun _ _ => by unfold Level; omega⟩
  | late evs e hz f =>
    have hu : winsockUse s'.hist = winsockUse s.hist + 1 := by
      rw [e, winsockUse_append, winsockUse, winsockUse_zero hz]; simp [winsockStep]
    have hf := flag_true f
    refine ⟨⟨_, e⟩, by unfold Below; omega, fun _ hs => ?_⟩
    have := flag_false (hs hc)
    unfold Level; omega

/-- After `cleanup`: not connected, no Winsock of its own, level. -/
theorem cleanupWin_run (s : WinSt) :
    wpW env cleanupWin
      (fun _ s' => Longer s s' ∧ Below s s' ∧ (CleanupsWork s'.hist → Level s s') ∧ s'.client.base.isConnected = false ∧ s'.client.started = false ∧
        s'.client.base.sock = 0)
      (fun s' => Longer s s' ∧ Below s s' ∧ (CleanupsWork s'.hist → Level s s') ∧ s'.client.base.isConnected = false ∧ ¬ CleanupsWork s'.hist) s := by
  unfold cleanupWin
  rw [wpW_bind, wpW_base, wpW_bind]
  have close : wpW env closeSocketWin
      (fun _ s' => ∃ evs, s'.hist = s.hist ++ evs ∧ winsockUse evs = 0 ∧ s'.client.started = s.client.started ∧ s'.client.base.isConnected = false ∧
        s'.client.base.sock = 0)
      (fun _ => False) { s with client := { s.client with base := { s.client.base with isConnected := false, ctx := false, bio := none } } } := by
    unfold closeSocketWin
    rw [wpW_bind, wpW_gets, wpW_ite]
    refine ⟨fun _ => ?_, fun _ => ?_⟩
    · rw [wpW_bind, wpW_emit, wpW_bind, wpW_emit, wpW_base]
      exact ⟨[.shutdown s.client.base.sock, .closesocket s.client.base.sock], by simp, by simp [winsockUse, winsockStep], rfl, rfl, rfl⟩
    · rw [wpW_base]
      exact ⟨[], by simp, rfl, rfl, rfl, rfl⟩
  refine wpW_mono close (fun _ s1 h1 => ?_) (fun _ h => h.elim)
  obtain ⟨evs, e1, e2, e3, e4, e5⟩ := h1
  have hu : winsockUse s1.hist = winsockUse s.hist := by rw [e1, winsockUse_append, e2, Int.add_zero]
  have hf := flag_congr e3
  unfold stopWinsock
  rw [wpW_bind, wpW_gets, wpW_ite]
  refine ⟨fun hs => ?_, fun hs => ?_⟩
  · refine wpW_mono (doWSACleanup_run s1) (fun _ s2 h2 => ?_) (fun s2 h2 => ?_)
    · obtain ⟨r, g1, g2, g3, g4⟩ := h2
      have hu2 : winsockUse s2.hist = winsockUse s1.hist + winsockStep (.wsaCleanup r) := by rw [g1, winsockUse_append, winsockUse_one]
      have hw := winsockStep_cleanup r
      have hf1 := flag_true hs
      have hf2 := flag_false g2
      refine ⟨⟨evs ++ [.wsaCleanup r], by rw [g1, e1, List.append_assoc]⟩, by unfold Below; omega, fun hk => ?_, g4.trans e4, g2, g3.trans e5⟩
      have : r = 0 := hk r (by simp [g1])
      subst this
      simp [winsockStep] at hu2
      unfold Level; omega
    · obtain ⟨r, hr, g1, g2, g4⟩ := h2
      have hbad : ¬ CleanupsWork s2.hist := fun hk => hr (hk r (by simp [g1]))
      have hu2 : winsockUse s2.hist = winsockUse s1.hist := by rw [g1, winsockUse_append, winsockUse_one]; simp [winsockStep, hr]
      have hf2 := flag_congr g2
      exact ⟨⟨evs ++ [.wsaCleanup r], by rw [g1, e1, List.append_assoc]⟩, by unfold Below; omega, fun hk => absurd hk hbad, g4.trans e4, hbad⟩
  · rw [wpW_modify]
    have hs : s1.client.started = false := by simpa using hs
    have hf1 := flag_false hs
    have hf2 : flag { base := s1.client.base } = 0 := rfl
    refine ⟨⟨evs, e1⟩, ?_, fun _ => ?_, e4, rfl, e5⟩
    · unfold Below; dsimp only; omega
    · unfold Level; dsimp only; omega

/-- A client that is connected has started Winsock. -/
def Grounded (c : WinClient) : Prop := c.base.isConnected = true → c.started = true

/-- A client that is not connected has not started Winsock. -/
def Resting' (c : WinClient) : Prop := c.base.isConnected = false → c.started = false

theorem grounded_of_closed {c : WinClient} (h : c.base.isConnected = false) : Grounded c := fun h' => by rw [h] at h'; cases h'

theorem counted_cleanup (s : WinSt) :
    wpW env cleanupWin (fun _ s' => Counted s s' ∧ Grounded s'.client ∧ Resting' s'.client)
      (fun s' => Counted s s' ∧ Grounded s'.client ∧ ¬ CleanupsWork s'.hist) s := by
  refine wpW_mono (cleanupWin_run s) (fun _ s' h => ?_) (fun s' h => ?_)
  · obtain ⟨h1, h2, h3, h4, h5, -⟩ := h
    exact ⟨⟨h1, h2, fun hk _ => h3 hk⟩, grounded_of_closed h4, fun _ => h5⟩
  · obtain ⟨h1, h2, h3, h4, h5⟩ := h
    exact ⟨⟨h1, h2, fun hk _ => h3 hk⟩, grounded_of_closed h4, h5⟩

theorem Counted.refl (s : WinSt) : Counted s s :=
  ⟨⟨[], by simp⟩, by unfold Below; omega, fun _ _ => by unfold Level; omega⟩

/-- One call of `sendMail`. -/
theorem sendMailWin_run (e : WinEnd) (s : WinSt) :
    wpW env (sendMailWin e)
      (fun _ s' => Counted s s' ∧ (Grounded s.client → Grounded s'.client) ∧ (e ≠ .refused → CleanupsWork s'.hist → Resting' s.client → Resting' s'.client))
      (fun s' => Counted s s' ∧ (Grounded s.client → Grounded s'.client)) s := by
  unfold sendMailWin
  rw [wpW_bind, wpW_gets, wpW_ite]
  refine ⟨fun hc => ?_, fun hc => ?_⟩
  · have clean : wpW env cleanupWin
        (fun _ s' => Counted s s' ∧ (Grounded s.client → Grounded s'.client) ∧ (e ≠ .refused → CleanupsWork s'.hist → Resting' s.client → Resting' s'.client))
        (fun s' => Counted s s' ∧ (Grounded s.client → Grounded s'.client)) s :=
      wpW_mono (counted_cleanup s) (fun _ s' h => ⟨h.1, fun _ => h.2.1, fun _ _ _ => h.2.2⟩) (fun s' h => ⟨h.1, fun _ => h.2.1⟩)
    cases e with
    | refused => exact ⟨Counted.refl s, id, fun _ _ h => h⟩
    | kept => exact ⟨Counted.refl s, id, fun _ _ h => h⟩
    | closed => exact clean
    | refusedClosed => exact clean
  · have hc : s.client.base.isConnected = false := by simpa using hc
    rw [wpW_bind]
    refine wpW_mono (initializeSessionWin_run s) (fun code s1 h1 => ?_) (fun s1 h1 => ?_)
    · obtain ⟨hi, hcc⟩ := h1
      have hcount := counted_init hi hc
      have hc1 := hcc.trans hc
      have hg1 : Grounded s1.client := fun h => by rw [hc1] at h; cases h
      rw [wpW_ite]
      refine ⟨fun hne => ?_, fun h0 => ?_⟩
      · rw [wpW_pure]
        refine ⟨hcount, fun _ => hg1, fun _ _ hr _ => ?_⟩
        cases hi with
        | noStartup r hr' e f => exact f.trans (hr hc)
        | noAddress r r' n p hr e f => exact f
        | noSocket h r' n p hh e f => exact f
        | noConnection h r' n p hh e f => exact f
        | opened h n hh hn hs e f => exact absurd rfl hne
      · have h0 := Decidable.not_not.mp h0
        subst h0
        have hst : s1.client.started = true := by cases hi with | opened h n hh hn hs e f => exact f
        have fin : ∀ (s0 s' : WinSt), s0.hist = s1.hist → s0.client.started = s1.client.started → Longer s0 s' → Below s0 s' →
            (CleanupsWork s'.hist → Level s0 s') → Counted s s' := by
          intro s0 s' e1 e2 hl hb hv
          obtain ⟨a1, a2, a3⟩ := hcount
          obtain ⟨y, hy⟩ := hl
          have hf := flag_congr e2
          have hl' : Longer s1 s' := ⟨y, by rw [hy, e1]⟩
          refine ⟨a1.trans hl', ?_, fun hk hr => ?_⟩
          · unfold Below at *; rw [e1] at hb; omega
          · have hk1 : CleanupsWork s1.hist := fun r hr => hk r (by rw [hy, e1]; exact List.mem_append_left _ hr)
            have x := a3 hk1 hr
            have z := hv hk
            unfold Level at *; rw [e1] at z; omega
        cases e with
        | refused => exact ⟨hcount, fun _ => hg1, fun h => absurd rfl h⟩
        | refusedClosed =>
          refine wpW_mono (cleanupWin_run s1) (fun _ s' h => ?_) (fun s' h => ?_)
          · obtain ⟨g1, g2, g3, g4, g5, -⟩ := h
            exact ⟨fin s1 s' rfl rfl g1 g2 g3, fun _ => grounded_of_closed g4, fun _ _ _ _ => g5⟩
          · obtain ⟨g1, g2, g3, g4, g5⟩ := h
            exact ⟨fin s1 s' rfl rfl g1 g2 g3, fun _ => grounded_of_closed g4⟩
        | kept =>
          unfold winDialogue
          rw [wpW_base]
          exact ⟨fin s1 _ rfl rfl ⟨[], by simp⟩ (Int.le_refl _) (fun _ => rfl), fun _ _ => hst, fun _ _ _ h => by cases h⟩
        | closed =>
          unfold winDialogue
          rw [wpW_bind, wpW_base]
          refine wpW_mono (cleanupWin_run _) (fun _ s' h => ?_) (fun s' h => ?_)
          · obtain ⟨g1, g2, g3, g4, g5, -⟩ := h
            exact ⟨fin _ s' rfl rfl g1 g2 g3, fun _ => grounded_of_closed g4, fun _ _ _ _ => g5⟩
          · obtain ⟨g1, g2, g3, g4, g5⟩ := h
            exact ⟨fin _ s' rfl rfl g1 g2 g3, fun _ => grounded_of_closed g4⟩
    · obtain ⟨hi, hcc⟩ := h1
      exact ⟨counted_stop hi hc, fun _ => grounded_of_closed (hcc.trans hc)⟩

/-! ### Many objects -/

/-- The number of objects that believe to have started Winsock. -/
def flags : List (Option WinClient) → Int
  | [] => 0
  | none :: l => flags l
  | some c :: l => flag c + flags l

/-- The same for one place. -/
def oflag : Option WinClient → Int
  | none => 0
  | some c => flag c

theorem flags_cons (o : Option WinClient) (l : List (Option WinClient)) : flags (o :: l) = oflag o + flags l := by
  cases o <;> simp [flags, oflag]

theorem flags_append (l : List (Option WinClient)) (o : Option WinClient) : flags (l ++ [o]) = flags l + oflag o := by
  induction l with
  | nil => rw [List.nil_append, flags_cons]; simp [flags]
  | cons x l ih => rw [List.cons_append, flags_cons, flags_cons, ih]; omega

theorem flags_set {l : List (Option WinClient)} {i : Nat} {o o' : Option WinClient} (h : l[i]? = some o) :
    flags (l.set i o') = flags l - oflag o + oflag o' := by
  induction l generalizing i with
  | nil => simp at h
  | cons x l ih =>
    cases i with
    | zero =>
      have : x = o := by simpa using h
      subst this
      rw [List.set_cons_zero, flags_cons, flags_cons]; omega
    | succ i =>
      rw [List.set_cons_succ, flags_cons, flags_cons, ih (by simpa using h)]; omega

theorem flags_nonneg (l : List (Option WinClient)) : 0 ≤ flags l := by
  induction l with
  | nil => exact Int.le_refl 0
  | cons x l ih =>
    rw [flags_cons]
    cases x with
    | none => simp [oflag]; exact ih
    | some c => have := flag_nonneg c; simp only [oflag]; omega

theorem flags_ge {l : List (Option WinClient)} {i : Nat} {c : WinClient} (h : l[i]? = some (some c)) : flag c ≤ flags l := by
  have := flags_set (o' := none) h
  have := flags_nonneg (l.set i none)
  simp only [oflag] at *
  omega

theorem winGet_eq {w : WinWorld} {i : Nat} {c : WinClient} (h : w.get i = some c) : w.clients[i]? = some (some c) := by
  unfold WinWorld.get at h
  cases hx : w.clients[i]? with
  | none => rw [hx] at h; cases h
  | some o => rw [hx] at h; simp only [Option.join_some] at h; rw [h]

theorem flags_none {l : List (Option WinClient)} (h : ∀ i : Nat, (l[i]?).join = none) : flags l = 0 := by
  induction l with
  | nil => rfl
  | cons x l ih =>
    have h0 := h 0
    simp at h0
    subst h0
    rw [flags_cons, ih fun i => by simpa using h (i + 1)]
    rfl

theorem wpW_run {m : W Unit} {Q : Unit → WinSt → Prop} {E : WinSt → Prop} {s : WinSt} (h : wpW env m Q E s) :
    ((m env s).1 = .ok () ∧ Q () (m env s).2) ∨ ((∃ e, (m env s).1 = .stop e) ∧ E (m env s).2) := by
  unfold wpW at h
  revert h
  cases m env s with
  | mk r s' =>
    cases r with
    | ok a => exact fun h => .inl ⟨rfl, h⟩
    | stop e => exact fun h => .inr ⟨⟨e, rfl⟩, h⟩

theorem sendMailWin_counted (e : WinEnd) (s : WinSt) :
    Counted s (sendMailWin e env s).2 ∧ (Grounded s.client → Grounded (sendMailWin e env s).2.client) := by
  rcases wpW_run (sendMailWin_run (env := env) e s) with ⟨-, h⟩ | ⟨-, h⟩
  · exact ⟨h.1, h.2.1⟩
  · exact h

theorem cleanupWin_counted (s : WinSt) : Counted s (cleanupWin env s).2 := by
  rcases wpW_run (counted_cleanup (env := env) s) with ⟨-, h⟩ | ⟨-, h⟩
  · exact h.1
  · exact h.1

theorem copied_flags {c c' : WinClient} (h : c.copied = .ok c') : c'.started = false ∧ c'.base.isConnected = false := by
  unfold WinClient.copied Client.copied at h
  cases hn : c.base.serverName with
  | none => rw [hn] at h; cases h
  | some n => rw [hn] at h; cases h; exact ⟨rfl, rfl⟩

theorem assigned_flags {d c c' : WinClient} (h : d.assigned c = .ok c') : c'.started = d.started ∧ c'.base.isConnected = false := by
  unfold WinClient.assigned Client.copied at h
  cases hn : c.base.serverName with
  | none => rw [hn] at h; cases h
  | some n => rw [hn] at h; cases h; exact ⟨rfl, rfl⟩

/-- One operation changes at most one object by code that runs, or only the list of objects. -/
theorem winStep_below (op : WinOp) (w : WinWorld) (h : flags w.clients ≤ winsockUse w.hist) :
    flags (winStep op env w).2.clients ≤ winsockUse (winStep op env w).2.hist := by
  cases op with
  | create k n p =>
    simp only [winStep, flags_append, oflag]
    exact Int.le_trans (Int.le_of_eq (Int.add_zero _)) h
  | copy i =>
    simp only [winStep]
    cases hi : w.get i with
    | none => exact h
    | some c =>
      cases hc : c.copied with
      | error u => simp only [hc]; exact h
      | ok c' =>
        simp only [hc, flags_append, oflag, flag_false (copied_flags hc).1, Int.add_zero]
        exact h
  | move i =>
    simp only [winStep]
    cases hi : w.get i with
    | none => exact h
    | some c =>
      have e : flag c.movedFrom = flag c := flag_congr rfl
      have e' : flag c.moved = 0 := rfl
      simp only [flags_append, flags_set (winGet_eq hi), oflag, e, e']
      omega
  | assign i j =>
    simp only [winStep]
    cases hi : w.get i with
    | none => exact h
    | some d =>
      cases hj : w.get j with
      | none => exact h
      | some c =>
        dsimp only
        split
        · exact h
        · cases hc : d.assigned c with
          | error u => exact h
          | ok c' =>
            simp only [flags_set (winGet_eq hi), oflag, flag_congr (assigned_flags hc).1]
            omega
  | moveAssign i j =>
    simp only [winStep]
    cases hi : w.get i with
    | none => exact h
    | some d =>
      cases hj : w.get j with
      | none => exact h
      | some c =>
        dsimp only
        split
        · exact h
        · rename_i hne
          have hij : j ≠ i := fun e => hne (.inl e.symm)
          have hset : (w.clients.set j (some c.movedFrom))[i]? = some (some d) := by rw [List.getElem?_set_ne hij]; exact winGet_eq hi
          have e : flag c.movedFrom = flag c := flag_congr rfl
          have e' : flag (d.moveAssigned c) = flag d := flag_congr rfl
          simp only [flags_set hset, flags_set (winGet_eq hj), oflag, e, e']
          omega
  | send i e =>
    simp only [winStep, winOn]
    cases hi : w.get i with
    | none => exact h
    | some c =>
      have hb := (sendMailWin_counted (env := env) e { client := c, hist := w.hist }).1.2.1
      unfold Below at hb
      simp only [flags_set (winGet_eq hi), oflag, Bool.false_eq_true, if_false] at *
      omega
  | destroy i =>
    simp only [winStep, winOn]
    cases hi : w.get i with
    | none => exact h
    | some c =>
      have hb := (cleanupWin_counted (env := env) { client := c, hist := w.hist }).2.1
      have := flag_nonneg (cleanupWin env { client := c, hist := w.hist }).2.client
      unfold Below at hb
      simp only [flags_set (winGet_eq hi), oflag, if_true] at *
      omega

theorem winRun_below (ops : List WinOp) (w : WinWorld) (h : flags w.clients ≤ winsockUse w.hist) :
    flags (winRun ops env w).2.clients ≤ winsockUse (winRun ops env w).2.hist := by
  induction ops generalizing w with
  | nil => exact h
  | cons op ops ih =>
    have hs := winStep_below (env := env) op w h
    simp only [winRun]
    cases hx : winStep op env w with
    | mk r w' =>
      rw [hx] at hs
      cases r with
      | ok a => exact ih w' hs
      | stop e => exact hs

theorem winGet_set {w : WinWorld} {i k : Nat} {o : Option WinClient} {c : WinClient} {h' : WinHist}
    (h : WinWorld.get { clients := w.clients.set i o, hist := h' } k = some c) : (k = i ∧ o = some c) ∨ w.get k = some c := by
  unfold WinWorld.get at *
  dsimp only at h
  by_cases e : i = k
  · subst e
    rw [List.getElem?_set] at h
    simp only [if_true] at h
    split at h
    · simp only [Option.join_some] at h; exact .inl ⟨rfl, h⟩
    · cases h
  · rw [List.getElem?_set_ne e] at h
    exact .inr h

theorem winGet_append {w : WinWorld} {k : Nat} {o : Option WinClient} {c : WinClient} {h' : WinHist}
    (h : WinWorld.get { clients := w.clients ++ [o], hist := h' } k = some c) : o = some c ∨ w.get k = some c := by
  unfold WinWorld.get at *
  dsimp only at h
  rw [List.getElem?_append] at h
  split at h
  · exact .inr h
  · refine .inl ?_
    cases hk : k - w.clients.length with
    | zero => rw [hk] at h; simpa using h
    | succ n => rw [hk] at h; simp at h

/-- No moves. -/
def staysPut : WinOp → Bool
  | .move _ => false
  | .moveAssign _ _ => false
  | _ => true

theorem winStep_grounded (op : WinOp) (w : WinWorld) (hop : staysPut op = true) (h : ∀ k c, w.get k = some c → Grounded c) :
    ∀ k c, (winStep op env w).2.get k = some c → Grounded c := by
  cases op with
  | create kd n p =>
    intro k c hk
    rcases winGet_append hk with e | e
    · cases e; exact grounded_of_closed rfl
    · exact h k c e
  | copy i =>
    simp only [winStep]
    cases hi : w.get i with
    | none => exact h
    | some c =>
      cases hc : c.copied with
      | error u => simp only [hc]; exact h
      | ok c' =>
        simp only [hc]
        intro k c2 hk
        rcases winGet_append hk with e | e
        · cases e; exact grounded_of_closed (copied_flags hc).2
        · exact h k c2 e
  | move i => cases hop
  | moveAssign i j => cases hop
  | assign i j =>
    simp only [winStep]
    cases hi : w.get i with
    | none => exact h
    | some d =>
      cases hj : w.get j with
      | none => exact h
      | some c =>
        dsimp only
        split
        · exact h
        · cases hc : d.assigned c with
          | error u => exact h
          | ok c' =>
            intro k c2 hk
            rcases winGet_set hk with ⟨-, e⟩ | e
            · cases e; exact grounded_of_closed (assigned_flags hc).2
            · exact h k c2 e
  | send i e =>
    simp only [winStep, winOn]
    cases hi : w.get i with
    | none => exact h
    | some c =>
      intro k c2 hk
      have hb := (sendMailWin_counted (env := env) e { client := c, hist := w.hist }).2 (h i c hi)
      rcases winGet_set hk with ⟨-, e⟩ | e
      · simp only [Bool.false_eq_true, if_false, Option.some.injEq] at e
        rw [← e]; exact hb
      · exact h k c2 e
  | destroy i =>
    simp only [winStep, winOn]
    cases hi : w.get i with
    | none => exact h
    | some c =>
      intro k c2 hk
      rcases winGet_set hk with ⟨-, e⟩ | e
      · cases e
      · exact h k c2 e

theorem winRun_grounded (ops : List WinOp) (w : WinWorld) (hops : ∀ op ∈ ops, staysPut op = true) (h : ∀ k c, w.get k = some c → Grounded c) :
    ∀ k c, (winRun ops env w).2.get k = some c → Grounded c := by
  induction ops generalizing w with
  | nil => exact h
  | cons op ops ih =>
    have hs := winStep_grounded (env := env) op w (hops op (List.mem_cons_self ..)) h
    simp only [winRun]
    cases hx : winStep op env w with
    | mk r w' =>
      rw [hx] at hs
      cases r with
      | ok a => exact ih w' (fun o ho => hops o (List.mem_cons_of_mem _ ho)) hs
      | stop e => exact hs

theorem winStep_longer (op : WinOp) (w : WinWorld) : ∃ evs, (winStep op env w).2.hist = w.hist ++ evs := by
  have same : ∃ evs, w.hist = w.hist ++ evs := ⟨[], by simp⟩
  cases op with
  | create k n p => exact same
  | copy i =>
    simp only [winStep]
    cases w.get i with
    | none => exact same
    | some c => cases hc : c.copied <;> (simp only [hc]; exact same)
  | move i => simp only [winStep]; cases w.get i <;> exact same
  | assign i j =>
    simp only [winStep]
    cases w.get i with
    | none => exact same
    | some d =>
      cases w.get j with
      | none => exact same
      | some c =>
        dsimp only
        split
        · exact same
        · cases d.assigned c <;> exact same
  | moveAssign i j =>
    simp only [winStep]
    cases w.get i with
    | none => exact same
    | some d =>
      cases w.get j with
      | none => exact same
      | some c =>
        dsimp only
        split <;> exact same
  | send i e =>
    simp only [winStep, winOn]
    cases w.get i with
    | none => exact same
    | some c => exact (sendMailWin_counted (env := env) e { client := c, hist := w.hist }).1.1
  | destroy i =>
    simp only [winStep, winOn]
    cases w.get i with
    | none => exact same
    | some c => exact (cleanupWin_counted (env := env) { client := c, hist := w.hist }).1

theorem winRun_longer (ops : List WinOp) (w : WinWorld) : ∃ evs, (winRun ops env w).2.hist = w.hist ++ evs := by
  induction ops generalizing w with
  | nil => exact ⟨[], by simp [winRun]⟩
  | cons op ops ih =>
    obtain ⟨x, hx'⟩ := winStep_longer (env := env) op w
    simp only [winRun]
    cases hx : winStep op env w with
    | mk r w' =>
      rw [hx] at hx'
      cases r with
      | ok a =>
        obtain ⟨y, hy⟩ := ih w'
        exact ⟨x ++ y, by rw [hy, hx', List.append_assoc]⟩
      | stop e => exact ⟨x, hx'⟩

/-- Only objects made, copied, used with a closing end, and destroyed. -/
def tidy : WinOp → Bool
  | .move _ => false
  | .moveAssign _ _ => false
  | .assign _ _ => false
  | .send _ .refused => false
  | _ => true

theorem winStep_level (op : WinOp) (w : WinWorld) (hop : tidy op = true) (hk : CleanupsWork (winStep op env w).2.hist)
    (h : flags w.clients = winsockUse w.hist) (hr : ∀ k c, w.get k = some c → Resting' c) :
    flags (winStep op env w).2.clients = winsockUse (winStep op env w).2.hist ∧
      ((winStep op env w).1 = .ok () → ∀ k c, (winStep op env w).2.get k = some c → Resting' c) := by
  cases op with
  | move i => cases hop
  | moveAssign i j => cases hop
  | assign i j => cases hop
  | create kd n p =>
    refine ⟨?_, fun _ k c hk => ?_⟩
    · simp only [winStep, flags_append, oflag]
      exact (Int.add_zero _).trans h
    · rcases winGet_append hk with e | e
      · cases e; exact fun _ => rfl
      · exact hr k c e
  | copy i =>
    simp only [winStep]
    cases hi : w.get i with
    | none => exact ⟨h, fun _ => hr⟩
    | some c =>
      cases hc : c.copied with
      | error u => simp only [hc]; exact ⟨h, fun _ => hr⟩
      | ok c' =>
        simp only [hc, flags_append, oflag, flag_false (copied_flags hc).1, Int.add_zero]
        refine ⟨h, fun _ k c2 hk => ?_⟩
        rcases winGet_append hk with e | e
        · cases e; exact fun _ => (copied_flags hc).1
        · exact hr k c2 e
  | send i e =>
    simp only [winStep, winOn] at hk ⊢
    cases hi : w.get i with
    | none => exact ⟨h, fun _ => hr⟩
    | some c =>
      rw [hi] at hk
      dsimp only at hk ⊢
      have hrc := hr i c hi
      have hne : e ≠ .refused := by intro e'; subst e'; cases hop
      have hb := (sendMailWin_counted (env := env) e { client := c, hist := w.hist }).1.2.2 hk hrc
      refine ⟨?_, fun hok k c2 hk2 => ?_⟩
      · unfold Level at hb
        simp only [flags_set (winGet_eq hi), oflag, Bool.false_eq_true, if_false] at *
        omega
      · rcases winGet_set hk2 with ⟨-, e⟩ | e
        · simp only [Bool.false_eq_true, if_false, Option.some.injEq] at e
          rw [← e]
          rcases wpW_run (sendMailWin_run (env := env) _ { client := c, hist := w.hist }) with ⟨-, q⟩ | ⟨⟨e', q⟩, -⟩
          · exact q.2.2 hne hk hrc
          · rw [q] at hok; cases hok
        · exact hr k c2 e
  | destroy i =>
    simp only [winStep, winOn] at hk ⊢
    cases hi : w.get i with
    | none => exact ⟨h, fun _ => hr⟩
    | some c =>
      rw [hi] at hk
      dsimp only at hk ⊢
      rcases wpW_run (cleanupWin_run (env := env) { client := c, hist := w.hist }) with ⟨-, q⟩ | ⟨-, q⟩
      · obtain ⟨-, -, q3, -, q5, -⟩ := q
        have hb := q3 hk
        have hz := flag_false q5
        refine ⟨?_, fun _ k c2 hk2 => ?_⟩
        · unfold Level at hb
          simp only [flags_set (winGet_eq hi), oflag, if_true] at *
          omega
        · rcases winGet_set hk2 with ⟨-, e⟩ | e
          · cases e
          · exact hr k c2 e
      · exact absurd hk q.2.2.2.2

theorem winRun_level (ops : List WinOp) (w : WinWorld) (hops : ∀ op ∈ ops, tidy op = true) (hk : CleanupsWork (winRun ops env w).2.hist)
    (h : flags w.clients = winsockUse w.hist) (hr : ∀ k c, w.get k = some c → Resting' c) :
    flags (winRun ops env w).2.clients = winsockUse (winRun ops env w).2.hist := by
  induction ops generalizing w with
  | nil => exact h
  | cons op ops ih =>
    have hs := winStep_level (env := env) op w (hops op (List.mem_cons_self ..))
    simp only [winRun] at hk ⊢
    cases hx : winStep op env w with
    | mk r w' =>
      rw [hx] at hs hk
      cases r with
      | ok a =>
        dsimp only at hk hs ⊢
        obtain ⟨y, hy⟩ := winRun_longer (env := env) ops w'
        obtain ⟨h1, h2⟩ := hs (fun r hr => hk r (by rw [hy]; exact List.mem_append_left _ hr)) h hr
        exact ih w' (fun o ho => hops o (List.mem_cons_of_mem _ ho)) hk h1 (h2 rfl)
      | stop e => exact (hs hk h hr).1

end Verif.Proofs
