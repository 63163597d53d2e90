import Verif.Spec.WinHandles
import Verif.Proofs.WinSock
/-!
# Sockets on Windows
-/
namespace Verif.Proofs
open Verif Verif.Model Verif.Spec

variable {α β : Type} {env : WinEnv}

/-- A 32 bit `int`. -/
def Fits (v : Int) : Prop := -2 ^ 31 ≤ v ∧ v < 2 ^ 31

theorem asSocket_inj {v w : Int} (hv : Fits v) (hw : Fits w) (h : asSocket v = asSocket w) : v = w := by
  unfold asSocket Fits at *
  omega

theorem handle_back {h : Nat} (hs : h < 2 ^ 31 ∨ 2 ^ 64 - 2 ^ 31 ≤ h ∧ h < 2 ^ 64) : asSocket (handleInt h) = h ∧ Fits (handleInt h) := by
  unfold asSocket handleInt Fits
  split <;> omega

theorem handle_invalid {h : Nat} (hs : h < 2 ^ 31 ∨ 2 ^ 64 - 2 ^ 31 ≤ h ∧ h < 2 ^ 64) : handleInt h = -1 ↔ h = invalidSocket := by
  unfold handleInt invalidSocket
  split <;> omega

theorem openHandles_snoc (h : WinHist) (e : WinEv) : openHandles (h ++ [e]) = handleStep (openHandles h) e := by
  unfold openHandles
  rw [List.foldl_append]
  rfl

theorem not_invalid (h : WinHist) : invalidSocket ∉ openHandles h := by
  have : ∀ l : List Nat, invalidSocket ∉ l → invalidSocket ∉ h.foldl handleStep l := by
    induction h with
    | nil => exact fun l hl => hl
    | cons e h ih =>
      intro l hl
      refine ih _ ?_
      unfold handleStep
      split
      · split
        · exact hl
        · rename_i hne
          exact fun hm => (List.mem_cons.mp hm).elim (fun e => hne e.symm) hl
      · exact fun hm => hl (List.mem_filter.mp hm).1
      · exact hl
  exact this [] (by simp)

/-- An event that is not about sockets. -/
def Aside (e : WinEv) : Prop := aboutSocket e = none ∧ ∀ h, e ≠ .socket h

theorem openHandles_aside {h : WinHist} {e : WinEv} (he : aboutSocket e = none ∧ (∀ h, e ≠ .socket h)) : openHandles (h ++ [e]) = openHandles h := by
  rw [openHandles_snoc]
  unfold handleStep
  split
  · exact absurd rfl (he.2 _)
  · exact absurd he.1 (by simp [aboutSocket])
  · rfl

theorem win_snoc_split {h : WinHist} {x : WinEv} {a : WinHist} {e : WinEv} {b : WinHist} (hx : h ++ [x] = a ++ e :: b) :
    (∃ b', h = a ++ e :: b') ∨ (h = a ∧ x = e) := by
  rcases List.eq_nil_or_concat b with rfl | ⟨b', y, rfl⟩
  · have := List.append_inj' hx rfl
    exact .inr ⟨this.1, List.singleton_inj.mp this.2⟩
  · have : h ++ [x] = (a ++ e :: b') ++ [y] := by rw [hx]; simp
    exact .inl ⟨b', (List.append_inj' this rfl).1⟩

theorem usesOpen_snoc {h : WinHist} {x : WinEv} (hu : UsesOpen h) (hx : ∀ v, aboutSocket x = some v → asSocket v ∈ openHandles h ∨ v = -1) :
    UsesOpen (h ++ [x]) := by
  intro a e b v he hv
  rcases win_snoc_split he with ⟨b', rfl⟩ | ⟨rfl, rfl⟩
  · exact hu a e b' v rfl hv
  · exact hx v hv

/-- HeldW and open. -/
def HeldW (h : WinHist) (v : Int) : Prop := Fits v ∧ asSocket v ∈ openHandles h

/-- One object at work while the others hold the sockets `O`. -/
structure MineW (O : Int → Prop) (s : WinSt) : Prop where
  others : ∀ v, O v → v ≠ 0 → v ≠ -1 → HeldW s.hist v
  apart : O s.client.base.sock → s.client.base.sock = 0 ∨ s.client.base.sock = -1
  mine : s.client.base.sock ≠ 0 → s.client.base.sock ≠ -1 → HeldW s.hist s.client.base.sock
  uses : UsesOpen s.hist

/-- All sockets that are open are held. -/
def FullW (O : Int → Prop) (s : WinSt) : Prop :=
  ∀ k ∈ openHandles s.hist, k = 0 ∨ (∃ v, O v ∧ asSocket v = k) ∨ asSocket s.client.base.sock = k

/-- Only client members other than the socket changed, and events that are not about sockets were added. -/
def SameSock (s s' : WinSt) : Prop :=
  s'.client.base.sock = s.client.base.sock ∧ s'.client.base.isConnected = s.client.base.isConnected ∧
  ∃ evs, s'.hist = s.hist ++ evs ∧ ∀ e ∈ evs, Aside e

theorem SameSock.refl (s : WinSt) : SameSock s s := ⟨rfl, rfl, [], by simp, by simp⟩

theorem SameSock.trans {a b c : WinSt} (h : SameSock a b) (h' : SameSock b c) : SameSock a c := by
  obtain ⟨h1, h2, x, hx, hx'⟩ := h
  obtain ⟨g1, g2, y, hy, hy'⟩ := h'
  exact ⟨g1.trans h1, g2.trans h2, x ++ y, by rw [hy, hx, List.append_assoc], fun e he => (List.mem_append.mp he).elim (hx' e) (hy' e)⟩

theorem SameSock.pre {a s s1 : WinSt} (h : SameSock a s1) (evs : WinHist) (e1 : a.client.base.sock = s.client.base.sock)
    (e2 : a.client.base.isConnected = s.client.base.isConnected) (e3 : a.hist = s.hist ++ evs) (e4 : ∀ e ∈ evs, Aside e) : SameSock s s1 :=
  SameSock.trans ⟨e1, e2, evs, e3, e4⟩ h

theorem openHandles_asides {h evs : WinHist} (he : ∀ e ∈ evs, Aside e) : openHandles (h ++ evs) = openHandles h := by
  induction evs generalizing h with
  | nil => simp
  | cons e evs ih =>
    have : h ++ e :: evs = (h ++ [e]) ++ evs := by simp
    rw [this, ih (fun x hx => he x (List.mem_cons_of_mem _ hx)), openHandles_aside (he e (List.mem_cons_self ..))]

theorem usesOpen_asides {h evs : WinHist} (hu : UsesOpen h) (he : ∀ e ∈ evs, Aside e) : UsesOpen (h ++ evs) := by
  induction evs generalizing h with
  | nil => simpa using hu
  | cons e evs ih =>
    have : h ++ e :: evs = (h ++ [e]) ++ evs := by simp
    rw [this]
    refine ih (usesOpen_snoc hu fun v hv => ?_) (fun x hx => he x (List.mem_cons_of_mem _ hx))
    rw [(he e (List.mem_cons_self ..)).1] at hv
    cases hv

theorem SameSock.open {s s' : WinSt} (h : SameSock s s') : openHandles s'.hist = openHandles s.hist := by
  obtain ⟨-, -, x, hx, hx'⟩ := h
  rw [hx, openHandles_asides hx']

theorem MineW.same {O : Int → Prop} {s s' : WinSt} (hm : MineW O s) (h : SameSock s s') : MineW O s' := by
  have ho := h.open
  have hs := h.1
  refine ⟨fun v h1 h2 h3 => ?_, fun h1 => ?_, fun h1 h2 => ?_, ?_⟩
  · unfold HeldW; rw [ho]; exact hm.others v h1 h2 h3
  · rw [hs] at h1 ⊢; exact hm.apart h1
  · unfold HeldW; rw [ho, hs]; rw [hs] at h1 h2; exact hm.mine h1 h2
  · obtain ⟨-, -, x, hx, hx'⟩ := h
    rw [hx]; exact usesOpen_asides hm.uses hx'

theorem FullW.same {O : Int → Prop} {s s' : WinSt} (hm : FullW O s) (h : SameSock s s') : FullW O s' := by
  unfold FullW
  rw [h.open, h.1]
  exact hm

theorem sameSock_log (i p : Bytes) (s : WinSt) : wpW env (winLog i p) (fun _ => SameSock s) (SameSock s) s :=
  wpW_mono (winLog_only i p s) (fun _ s' h => ⟨h.2.2.1, h.2.2.2.1, [], by simp [h.1], by simp⟩) (fun s' h => ⟨h.2.2.1, h.2.2.2.1, [], by simp [h.1], by simp⟩)

theorem sameSock_failed (e code : Int) (s : WinSt) :
    wpW env (winOpenFailed e code) (fun c s' => c = code ∧ SameSock s s') (SameSock s) s := by
  unfold winOpenFailed winErrNo
  rw [wpW_bind]
  have hlog : wpW env (addWSAMessage e) (fun _ => SameSock s) (SameSock s) s :=
    wpW_mono (addWSAMessage_only e s) (fun _ s' h => ⟨h.2.2.1, h.2.2.2.1, [], by simp [h.1], by simp⟩)
      (fun s' h => ⟨h.2.2.1, h.2.2.2.1, [], by simp [h.1], by simp⟩)
  refine wpW_mono hlog (fun _ s1 h1 => ?_) (fun _ h1 => h1)
  rw [wpW_bind, wpW_base, wpW_bind]
  unfold doWSACleanup winErrNo
  rw [wpW_bind, wpW_ask]
  generalize env.wsaCleanup _ = r
  have h2 : SameSock s { client := { s1.client with base := { s1.client.base with lastErrNo := e } }, hist := s1.hist ++ [.wsaCleanup r] } :=
    h1.trans ⟨rfl, rfl, [.wsaCleanup r], rfl, by simp [Aside, aboutSocket]⟩
  rw [wpW_ite]
  refine ⟨fun _ => ?_, fun _ => ?_⟩
  · rw [wpW_bind, wpW_ask', wpW_bind, wpW_base, wpW_bind]
    refine wpW_mono (sameSock_log _ _ _) (fun _ s3 h3 => ?_) (fun s3 h3 => ?_)
    · rw [wpW_modify, wpW_pure]
      exact ⟨rfl, h2.trans (.trans ⟨h3.1, h3.2.1, h3.2.2⟩ ⟨rfl, rfl, [], by simp, by simp⟩)⟩
    · exact h2.trans ⟨h3.1, h3.2.1, h3.2.2⟩
  · rw [wpW_modify, wpW_pure]
    exact ⟨rfl, h2.trans ⟨rfl, rfl, [], by simp, by simp⟩⟩

/-! ### Opening -/

/-- A new socket. -/
theorem MineW.opened {O : Int → Prop} {s : WinSt} (hf : FreshHandles env) (hm : MineW O s) :
    MineW O { client := { s.client with base := { s.client.base with sock := handleInt (env.socket s.hist) } }, hist := s.hist ++ [.socket (env.socket s.hist)] } := by
  obtain ⟨hnew, hs⟩ := hf s.hist
  obtain ⟨hb, hfit⟩ := handle_back hs
  have hi := handle_invalid hs
  generalize env.socket s.hist = h at *
  have hopen : ∀ k ∈ openHandles s.hist, k ∈ openHandles (s.hist ++ [.socket h]) := by
    intro k hk
    rw [openHandles_snoc]
    unfold handleStep
    dsimp only
    split
    · exact hk
    · exact List.mem_cons_of_mem _ hk
  refine ⟨fun v h1 h2 h3 => ⟨(hm.others v h1 h2 h3).1, hopen _ (hm.others v h1 h2 h3).2⟩, fun h1 => ?_, fun h1 h2 => ⟨hfit, ?_⟩, ?_⟩
  · dsimp only at h1 ⊢
    by_cases h0 : handleInt h = 0
    · exact .inl h0
    · by_cases h2 : handleInt h = -1
      · exact .inr h2
      · have := (hm.others _ h1 h0 h2).2
        rw [hb] at this
        exact absurd this hnew
  · dsimp only at h2 ⊢
    rw [openHandles_snoc, hb]
    unfold handleStep
    dsimp only
    rw [if_neg fun e => h2 (hi.mpr e)]
    exact List.mem_cons_self ..
  · exact usesOpen_snoc hm.uses fun v hv => by cases hv

theorem FullW.opened {O : Int → Prop} {s : WinSt} (hf : FreshHandles env) (hm : FullW O s) (h0 : s.client.base.sock = 0 ∨ s.client.base.sock = -1) :
    FullW O { client := { s.client with base := { s.client.base with sock := handleInt (env.socket s.hist) } }, hist := s.hist ++ [.socket (env.socket s.hist)] } := by
  obtain ⟨hnew, hs⟩ := hf s.hist
  obtain ⟨hb, hfit⟩ := handle_back hs
  generalize env.socket s.hist = h at *
  have old : ∀ k ∈ openHandles s.hist, k = 0 ∨ (∃ v, O v ∧ asSocket v = k) ∨ asSocket (handleInt h) = k := by
    intro k hk
    rcases hm k hk with h1 | h1 | h1
    · exact .inl h1
    · exact .inr (.inl h1)
    · rcases h0 with h0 | h0
      · rw [h0] at h1; exact .inl (by rw [← h1]; rfl)
      · rw [h0] at h1
        have : k = invalidSocket := by rw [← h1]; rfl
        rw [this] at hk
        exact absurd hk (not_invalid _)
  intro k hk
  dsimp only at hk ⊢
  rw [openHandles_snoc] at hk
  unfold handleStep at hk
  dsimp only at hk
  split at hk
  · exact old k hk
  · rcases List.mem_cons.mp hk with rfl | hk
    · exact .inr (.inr hb)
    · exact old k hk

/-- The socket held is not a real one. -/
def EmptyHanded (c : WinClient) : Prop := c.base.sock = 0 ∨ c.base.sock = -1

/-- What an opening does to the sockets. -/
theorem initializeSessionWin_sockets (hf : FreshHandles env) {O : Int → Prop} (s : WinSt) (hm : MineW O s) :
    wpW env initializeSessionWin
      (fun code s' => MineW O s' ∧ s'.client.base.isConnected = s.client.base.isConnected ∧
        (EmptyHanded s.client → FullW O s → FullW O s') ∧ (code ≠ 0 → ConnectsWork s'.hist → EmptyHanded s.client → EmptyHanded s'.client))
      (MineW O) s := by
  unfold initializeSessionWin
  rw [wpW_bind, wpW_base, wpW_bind, wpW_ask]
  dsimp only
  generalize env.startup s.hist = r0
  rw [wpW_ite]
  refine ⟨fun hr => ?_, fun hr => ?_⟩
  · unfold winErrNo
    rw [wpW_bind, wpW_base, wpW_bind]
    refine wpW_mono (sameSock_log _ _ _) (fun _ s1 h1 => ?_) (fun s1 h1 => ?_)
    · have h2 : SameSock s s1 := h1.pre [.startup r0] rfl rfl rfl (by simp [Aside, aboutSocket])
      rw [wpW_pure]
      exact ⟨hm.same h2, h2.2.1, fun _ hF => hF.same h2, fun _ _ h0 => by unfold EmptyHanded at *; rw [h2.1]; exact h0⟩
    · exact hm.same (h1.pre [.startup r0] rfl rfl rfl (by simp [Aside, aboutSocket]))
  · rw [wpW_bind, wpW_modify, wpW_bind, wpW_gets, wpW_bind, wpW_gets, wpW_bind, wpW_ask]
    dsimp only
    generalize hname : s.client.base.serverName = name
    generalize hport : natDec s.client.base.port = port
    generalize env.resolve _ name port = r1
    rw [wpW_ite]
    refine ⟨fun hr1 => ?_, fun hr1 => ?_⟩
    · refine wpW_mono (sameSock_failed _ _ _) (fun c s1 h1 => ?_) (fun s1 h1 => ?_)
      · have h2 : SameSock s s1 := h1.2.pre [.startup r0, .resolve name port r1] rfl rfl (by simp) (by simp [Aside, aboutSocket])
        exact ⟨hm.same h2, h2.2.1, fun _ hF => hF.same h2, fun _ _ h0 => by unfold EmptyHanded at *; rw [h2.1]; exact h0⟩
      · exact hm.same (h1.pre [.startup r0, .resolve name port r1] rfl rfl (by simp) (by simp [Aside, aboutSocket]))
    · rw [wpW_bind, wpW_ask, wpW_bind, wpW_base]
      dsimp only
      have h1 : SameSock s { client := { base := { s.client.base with log := some .fresh }, started := true }, hist := s.hist ++ [.startup r0] ++ [.resolve name port r1] } :=
        ⟨rfl, rfl, [.startup r0, .resolve name port r1], by simp, by simp [Aside, aboutSocket]⟩
      have hm2 := (hm.same h1).opened hf
      have hF2 := fun (h0 : EmptyHanded s.client) (hF : FullW O s) => (hF.same h1).opened hf (by rw [h1.1]; exact h0)
      dsimp only at hm2 hF2
      generalize hh : env.socket _ = h at *
      rw [wpW_ite]
      refine ⟨fun hneg => ?_, fun hneg => ?_⟩
      · rw [wpW_bind, wpW_ask']
        refine wpW_mono (sameSock_failed _ _ _) (fun c s1 g => ?_) (fun s1 g => hm2.same g)
        refine ⟨hm2.same g.2, g.2.2.1, fun h0 hF => (hF2 h0 hF).same g.2, fun _ _ _ => .inr ?_⟩
        rw [g.2.1]
        exact hneg
      · cases name with
        | none => exact hm2.same ⟨rfl, rfl, [], by simp, by simp⟩
        | some n =>
          dsimp only
          rw [wpW_bind]
          refine wpW_mono (sameSock_log _ _ _) (fun _ s2 g => ?_) (fun s2 g => hm2.same g)
          rw [wpW_bind, wpW_ask]
          have hm3 := hm2.same g
          have hs2 : s2.client.base.sock = handleInt h := g.1
          have hopen : ∀ ok, openHandles (s2.hist ++ [.connect (handleInt h) ok]) = openHandles s2.hist := fun ok => by rw [openHandles_snoc]; rfl
          have hin : asSocket (handleInt h) ∈ openHandles s2.hist := by
            by_cases h0 : handleInt h = 0
            · rw [g.open, openHandles_snoc]
              have hs := (hf (s.hist ++ [.startup r0] ++ [.resolve (some n) port r1])).2
              rw [hh] at hs
              unfold handleStep
              dsimp only
              rw [(handle_back hs).1, if_neg fun e => hneg ((handle_invalid hs).mpr e)]
              exact List.mem_cons_self ..
            · have := (hm3.mine (by rw [hs2]; exact h0) (by rw [hs2]; exact hneg)).2
              rw [hs2] at this
              exact this
          have hm4 : ∀ ok, MineW O { client := s2.client, hist := s2.hist ++ [.connect (handleInt h) ok] } := fun ok =>
            ⟨fun v a b c => ⟨(hm3.others v a b c).1, by rw [hopen]; exact (hm3.others v a b c).2⟩, hm3.apart,
              fun a b => ⟨(hm3.mine a b).1, by rw [hopen]; exact (hm3.mine a b).2⟩,
              usesOpen_snoc hm3.uses fun v hv => by cases hv; exact .inl hin⟩
          have hF4 : ∀ ok, EmptyHanded s.client → FullW O s → FullW O { client := s2.client, hist := s2.hist ++ [.connect (handleInt h) ok] } := by
            intro ok h0 hF k hk
            dsimp only at hk
            rw [hopen] at hk
            exact ((hF2 h0 hF).same g) k hk
          cases hok : env.connect s2.hist (handleInt h) with
          | true =>
            rw [wpW_ite]
            exact ⟨fun _ => ⟨hm4 true, g.2.1, hF4 true, fun hne => absurd rfl hne⟩, fun hf => absurd rfl hf⟩
          | false =>
            rw [wpW_ite]
            refine ⟨fun hf => by simp at hf, fun _ => ?_⟩
            rw [wpW_bind, wpW_ask']
            refine wpW_mono (sameSock_failed _ _ _) (fun c s3 g3 => ?_) (fun s3 g3 => (hm4 false).same g3)
            refine ⟨(hm4 false).same g3.2, g3.2.2.1.trans g.2.1, fun h0 hF => (hF4 false h0 hF).same g3.2, fun _ hw => ?_⟩
            obtain ⟨-, -, -, x, hx, -⟩ := g3
            have := hw (handleInt h) false (by rw [hx]; simp)
            cases this

/-! ### Closing -/

theorem cleanupWin_sockets {O : Int → Prop} (s : WinSt) (hm : MineW O s) :
    wpW env cleanupWin
      (fun _ s' => MineW O s' ∧ s'.client.base.isConnected = false ∧ s'.client.base.sock = 0 ∧ (FullW O s → FullW O s'))
      (fun s' => MineW O s' ∧ s'.client.base.sock = 0 ∧ (FullW O s → FullW O s')) s := by
  unfold cleanupWin
  rw [wpW_bind, wpW_base, wpW_bind]
  have close : wpW env closeSocketWin
      (fun _ s' => MineW O s' ∧ s'.client.base.isConnected = false ∧ s'.client.base.sock = 0 ∧ (FullW O s → FullW O s')) (fun _ => False)
      { s with client := { s.client with base := { s.client.base with isConnected := false, ctx := false, bio := none } } } := by
    unfold closeSocketWin
    rw [wpW_bind, wpW_gets, wpW_ite]
    refine ⟨fun h0 => ?_, fun h0 => ?_⟩
    · rw [wpW_bind, wpW_emit, wpW_bind, wpW_emit, wpW_base]
      dsimp only at h0 ⊢
      generalize hv : s.client.base.sock = v at *
      have ho : openHandles (s.hist ++ [.shutdown v] ++ [.closesocket v]) = (openHandles s.hist).filter (· ≠ asSocket v) := by
        rw [openHandles_snoc, openHandles_snoc]
        rfl
      have hfit : Fits v := by
        by_cases h1 : v = -1
        · subst h1; unfold Fits; omega
        · have := (hm.mine (by rw [hv]; exact h0) (by rw [hv]; exact h1)).1
          rwa [hv] at this
      have hin : asSocket v ∈ openHandles s.hist ∨ v = -1 := by
        by_cases h1 : v = -1
        · exact .inr h1
        · have := (hm.mine (by rw [hv]; exact h0) (by rw [hv]; exact h1)).2
          rw [hv] at this
          exact .inl this
      refine ⟨⟨fun w h1 h2 h3 => ⟨(hm.others w h1 h2 h3).1, ?_⟩, fun _ => .inl rfl, fun h1 => absurd rfl h1, ?_⟩, rfl, rfl, fun hF k hk => ?_⟩
      · dsimp only
        rw [ho]
        refine List.mem_filter.mpr ⟨(hm.others w h1 h2 h3).2, ?_⟩
        simp only [ne_eq, decide_eq_true_eq]
        intro e
        have := asSocket_inj (hm.others w h1 h2 h3).1 hfit e
        subst this
        rcases hm.apart (by rw [hv]; exact h1) with h4 | h4
        · rw [hv] at h4; exact h2 h4
        · rw [hv] at h4; exact h3 h4
      · refine usesOpen_snoc (usesOpen_snoc hm.uses fun w hw => ?_) fun w hw => ?_
        · cases hw; exact hin
        · cases hw
          rw [openHandles_snoc]
          exact hin
      · dsimp only at hk ⊢
        rw [ho] at hk
        obtain ⟨hk, hne⟩ := List.mem_filter.mp hk
        simp only [ne_eq, decide_eq_true_eq] at hne
        rcases hF k hk with h1 | h1 | h1
        · exact .inl h1
        · exact .inr (.inl h1)
        · rw [hv] at h1
          exact absurd h1.symm hne
    · have h0 := Decidable.not_not.mp h0
      rw [wpW_base]
      dsimp only at h0 ⊢
      refine ⟨⟨hm.others, fun _ => .inl rfl, fun h1 => absurd rfl h1, hm.uses⟩, rfl, rfl, fun hF k hk => ?_⟩
      have := hF k hk
      rw [h0] at this
      exact this
  refine wpW_mono close (fun _ s1 h1 => ?_) (fun _ h => h.elim)
  obtain ⟨g1, g2, g3, g4⟩ := h1
  unfold stopWinsock
  rw [wpW_bind, wpW_gets, wpW_ite]
  refine ⟨fun hs => ?_, fun hs => ⟨g1.same ⟨rfl, rfl, [], by simp, by simp⟩, g2, g3, fun hF => (g4 hF).same ⟨rfl, rfl, [], by simp, by simp⟩⟩⟩
  unfold doWSACleanup winErrNo
  rw [wpW_bind, wpW_ask]
  generalize env.wsaCleanup _ = r
  have e2 : SameSock s1 { s1 with hist := s1.hist ++ [.wsaCleanup r] } := ⟨rfl, rfl, [.wsaCleanup r], rfl, by simp [Aside, aboutSocket]⟩
  rw [wpW_ite]
  refine ⟨fun _ => ?_, fun _ => ?_⟩
  · rw [wpW_bind, wpW_ask', wpW_bind, wpW_base, wpW_bind]
    refine wpW_mono (sameSock_log _ _ _) (fun _ s3 h3 => ?_) (fun s3 h3 => ?_)
    · rw [wpW_modify]
      have h4 : SameSock s1 { s3 with client := { s3.client with started := false } } := e2.trans (.trans ⟨h3.1, h3.2.1, h3.2.2⟩ ⟨rfl, rfl, [], by simp, by simp⟩)
      exact ⟨g1.same h4, h4.2.1.trans g2, h4.1.trans g3, fun hF => (g4 hF).same h4⟩
    · have h4 : SameSock s1 s3 := e2.trans ⟨h3.1, h3.2.1, h3.2.2⟩
      exact ⟨g1.same h4, h4.1.trans g3, fun hF => (g4 hF).same h4⟩
  · rw [wpW_modify]
    have h4 : SameSock s1 { client := { s1.client with started := false }, hist := s1.hist ++ [.wsaCleanup r] } := e2.trans ⟨rfl, rfl, [], by simp, by simp⟩
    exact ⟨g1.same h4, h4.2.1.trans g2, h4.1.trans g3, fun hF => (g4 hF).same h4⟩

/-! ### One call -/

/-- A client that is not connected holds no socket. -/
def RestW (c : WinClient) : Prop := c.base.isConnected = false → EmptyHanded c

theorem sendMailWin_sockets (hf : FreshHandles env) {O : Int → Prop} (e : WinEnd) (s : WinSt) (hm : MineW O s) :
    wpW env (sendMailWin e)
      (fun _ s' => MineW O s' ∧ (e ≠ .refused → ConnectsWork s'.hist → RestW s.client → FullW O s → RestW s'.client ∧ FullW O s'))
      (MineW O) s := by
  unfold sendMailWin
  rw [wpW_bind, wpW_gets, wpW_ite]
  refine ⟨fun hc => ?_, fun hc => ?_⟩
  · have quiet : wpW env (pure () : W Unit)
        (fun _ s' => MineW O s' ∧ (e ≠ .refused → ConnectsWork s'.hist → RestW s.client → FullW O s → RestW s'.client ∧ FullW O s')) (MineW O) s :=
      ⟨hm, fun _ _ h1 h2 => ⟨h1, h2⟩⟩
    have closed : wpW env cleanupWin
        (fun _ s' => MineW O s' ∧ (e ≠ .refused → ConnectsWork s'.hist → RestW s.client → FullW O s → RestW s'.client ∧ FullW O s')) (MineW O) s :=
      wpW_mono (cleanupWin_sockets s hm) (fun _ s' h => ⟨h.1, fun _ _ _ hF => ⟨fun _ => .inl h.2.2.1, h.2.2.2 hF⟩⟩) (fun s' h => h.1)
    cases e with
    | refused => exact quiet
    | refusedClosed => exact closed
    | kept => exact quiet
    | closed => exact closed
  · have hc : s.client.base.isConnected = false := by simpa using hc
    rw [wpW_bind]
    refine wpW_mono (initializeSessionWin_sockets hf s hm) (fun code s1 h1 => ?_) (fun s1 h1 => h1)
    obtain ⟨h1, h2, h3, h4⟩ := h1
    rw [wpW_ite]
    refine ⟨fun hcode => ⟨h1, fun _ hw hr hF => ⟨fun _ => h4 hcode hw (hr hc), h3 (hr hc) hF⟩⟩, fun hcode => ?_⟩
    cases e with
    | refused => exact ⟨h1, fun hne => absurd rfl hne⟩
    | refusedClosed =>
      exact wpW_mono (cleanupWin_sockets s1 h1) (fun _ s' h => ⟨h.1, fun _ _ hr hF => ⟨fun _ => .inl h.2.2.1, h.2.2.2 (h3 (hr hc) hF)⟩⟩) (fun s' h => h.1)
    | kept =>
      unfold winDialogue
      rw [wpW_base]
      have same : SameSock s1 { s1 with client := { s1.client with base := { s1.client.base with isConnected := s1.client.base.isConnected } } } := .refl _
      refine ⟨⟨h1.others, h1.apart, h1.mine, h1.uses⟩, fun _ _ hr hF => ⟨fun h => ?_, fun k hk => h3 (hr hc) hF k hk⟩⟩
      cases h
    | closed =>
      unfold winDialogue
      rw [wpW_bind, wpW_base]
      have hm2 : MineW O { s1 with client := { s1.client with base := { s1.client.base with isConnected := true } } } := ⟨h1.others, h1.apart, h1.mine, h1.uses⟩
      exact wpW_mono (cleanupWin_sockets _ hm2)
        (fun _ s' h => ⟨h.1, fun _ _ hr hF => ⟨fun _ => .inl h.2.2.1, h.2.2.2 fun k hk => h3 (hr hc) hF k hk⟩⟩) (fun s' h => h.1)

/-! ### Programs -/

/-- The invariant of all programs. -/
structure OwnersW (w : WinWorld) : Prop where
  one : OneHolder w
  holds : ∀ i c, w.get i = some c → c.base.sock ≠ 0 → c.base.sock ≠ -1 → HeldW w.hist c.base.sock
  uses : UsesOpen w.hist

/-- What the objects other than `i` hold. -/
def othersHold (w : WinWorld) (i : Nat) (v : Int) : Prop := ∃ j d, j ≠ i ∧ w.get j = some d ∧ d.base.sock = v

theorem OwnersW.mine {w : WinWorld} (h : OwnersW w) {i : Nat} {c : WinClient} (hi : w.get i = some c) :
    MineW (othersHold w i) { client := c, hist := w.hist } := by
  refine ⟨?_, ?_, h.holds i c hi, h.uses⟩
  · rintro v ⟨j, d, hj, hd, rfl⟩ h0 h1
    exact h.holds j d hd h0 h1
  · rintro ⟨j, d, hj, hd, e⟩
    exact h.one i j c d hi hd (fun e => hj e.symm) e.symm

theorem winGet_set_iff {w : WinWorld} {i k : Nat} {o : Option WinClient} {h' : WinHist} (hi : i < w.clients.length) :
    WinWorld.get { clients := w.clients.set i o, hist := h' } k = if k = i then o else w.get k := by
  unfold WinWorld.get
  dsimp only
  by_cases e : i = k
  · subst e
    rw [List.getElem?_set_self hi, if_pos rfl, Option.join_some]
  · rw [List.getElem?_set_ne e, if_neg fun h => e h.symm]

theorem winGet_append_iff {w : WinWorld} {k : Nat} {o : Option WinClient} {h' : WinHist} :
    WinWorld.get { clients := w.clients ++ [o], hist := h' } k = if k = w.clients.length then o else w.get k := by
  unfold WinWorld.get
  dsimp only
  by_cases e : k = w.clients.length
  · subst e
    rw [List.getElem?_append_right (Nat.le_refl _)]
    simp
  · rw [if_neg e]
    by_cases hk : k < w.clients.length
    · rw [List.getElem?_append_left hk]
    · rw [List.getElem?_eq_none (by simp; omega), List.getElem?_eq_none (by omega)]

theorem winGet_length {w : WinWorld} {i : Nat} {c : WinClient} (h : w.get i = some c) : i < w.clients.length := by
  have := winGet_eq h
  exact (List.getElem?_eq_some_iff.mp this).1

theorem winGet_end (w : WinWorld) : w.get w.clients.length = none := by
  unfold WinWorld.get
  rw [List.getElem?_eq_none (Nat.le_refl _)]
  rfl

/-- A world seen as a function. -/
theorem OwnersW.of_get {w w' : WinWorld} (h : OwnersW w) (f : Nat → Option WinClient) (hg : ∀ k, w'.get k = f k) (hh : w'.hist = w.hist)
    (hf : ∀ k c, f k = some c → EmptyHanded c ∨ ∃ j d, w.get j = some d ∧ d.base.sock = c.base.sock ∧
      ∀ k' c', k' ≠ k → f k' = some c' → c'.base.sock = c.base.sock → EmptyHanded c') : OwnersW w' := by
  refine ⟨?_, ?_, by rw [hh]; exact h.uses⟩
  · intro i j c d hi hj hij he
    rw [hg] at hi hj
    rcases hf i c hi with h1 | ⟨-, -, -, -, h1⟩
    · exact h1
    · have := h1 j d (fun e => hij e.symm) hj he.symm
      unfold EmptyHanded at this
      rw [← he] at this
      exact this
  · intro i c hi h0 h1
    rw [hg] at hi
    rcases hf i c hi with h2 | ⟨j, d, hd, e, -⟩
    · rcases h2 with h2 | h2
      · exact absurd h2 h0
      · exact absurd h2 h1
    · rw [hh, ← e]
      exact h.holds j d hd (by rw [e]; exact h0) (by rw [e]; exact h1)

/-- After code on one object. -/
theorem OwnersW.after {w : WinWorld} (h : OwnersW w) {i : Nat} {c : WinClient} (hi : w.get i = some c) {s' : WinSt}
    (hm : MineW (othersHold w i) s') (gone : Bool) :
    OwnersW { clients := w.clients.set i (if gone then none else some s'.client), hist := s'.hist } := by
  have hl := winGet_length hi
  refine ⟨?_, ?_, hm.uses⟩
  · intro a b x y hx hy hab he
    rw [winGet_set_iff hl] at hx hy
    split at hx
    · rename_i ea
      subst ea
      split at hx
      · cases hx
      · cases hx
        rw [if_neg fun e => hab e.symm] at hy
        exact hm.apart ⟨b, y, fun e => hab e.symm, hy, he.symm⟩
    · rename_i ea
      split at hy
      · rename_i eb
        subst eb
        split at hy
        · cases hy
        · cases hy
          rw [he]
          exact hm.apart ⟨a, x, ea, hx, he⟩
      · exact h.one a b x y hx hy hab he
  · intro a x hx h0 h1
    rw [winGet_set_iff hl] at hx
    split at hx
    · split at hx
      · cases hx
      · cases hx
        exact hm.mine h0 h1
    · rename_i ea
      exact hm.others _ ⟨a, x, ea, hx, rfl⟩ h0 h1

theorem copied_sock {c c' : WinClient} (h : c.copied = .ok c') : c'.base.sock = 0 := by
  unfold WinClient.copied Client.copied at h
  cases hn : c.base.serverName with
  | none => rw [hn] at h; cases h
  | some n => rw [hn] at h; cases h; rfl

theorem assigned_sock {d c c' : WinClient} (h : d.assigned c = .ok c') : c'.base.sock = 0 := by
  unfold WinClient.assigned Client.copied at h
  cases hn : c.base.serverName with
  | none => rw [hn] at h; cases h
  | some n => rw [hn] at h; cases h; rfl

/-- Objects that are as before or hold nothing. -/
theorem OwnersW.weaken {w w' : WinWorld} (h : OwnersW w) (hh : w'.hist = w.hist)
    (hf : ∀ k c, w'.get k = some c → EmptyHanded c ∨ w.get k = some c) : OwnersW w' := by
  refine ⟨?_, ?_, by rw [hh]; exact h.uses⟩
  · intro i j c d hi hj hij he
    rcases hf i c hi with h1 | h1
    · exact h1
    · rcases hf j d hj with h2 | h2
      · unfold EmptyHanded at h2; rw [he]; exact h2
      · exact h.one i j c d h1 h2 hij he
  · intro i c hi h0 h1
    rcases hf i c hi with (h2 | h2) | h2
    · exact absurd h2 h0
    · exact absurd h2 h1
    · rw [hh]; exact h.holds i c h2 h0 h1

theorem winOn_owners {w : WinWorld} (h : OwnersW w) (i : Nat) (m : W Unit) (gone : Bool)
    (hm : ∀ c, w.get i = some c → MineW (othersHold w i) (m env { client := c, hist := w.hist }).2) : OwnersW (winOn i m gone env w).2 := by
  unfold winOn
  cases hi : w.get i with
  | none => exact h
  | some c => exact h.after hi (hm c hi) gone

theorem sendMailWin_mine (hf : FreshHandles env) {O : Int → Prop} (e : WinEnd) (s : WinSt) (hm : MineW O s) : MineW O (sendMailWin e env s).2 :=
  wpW_state (wpW_mono (sendMailWin_sockets hf e s hm) (fun _ _ h => h.1) (fun _ h => h))

theorem cleanupWin_mine {O : Int → Prop} (s : WinSt) (hm : MineW O s) : MineW O (cleanupWin env s).2 :=
  wpW_state (wpW_mono (cleanupWin_sockets s hm) (fun _ _ h => h.1) (fun _ h => h.1))

theorem winStep_owners (hf : FreshHandles env) (op : WinOp) {w : WinWorld} (h : OwnersW w) : OwnersW (winStep op env w).2 := by
  cases op with
  | create kd n p =>
    refine h.weaken rfl fun k c hk => ?_
    rcases winGet_append hk with e | e
    · cases e; exact .inl (.inl rfl)
    · exact .inr e
  | copy i =>
    simp only [winStep]
    cases hi : w.get i with
    | none => exact h
    | some c =>
      cases hc : c.copied with
      | error u => simp only [hc]; exact h
      | ok c' =>
        simp only [hc]
        refine h.weaken rfl fun k c2 hk => ?_
        rcases winGet_append hk with e | e
        · cases e; exact .inl (.inl (copied_sock hc))
        · exact .inr e
  | move i =>
    simp only [winStep]
    cases hi : w.get i with
    | none => exact h
    | some c =>
      have hl := winGet_length hi
      refine h.of_get (fun k => if k = w.clients.length then some c.moved else if k = i then some c.movedFrom else w.get k) (fun k => ?_) rfl ?_
      · have := winGet_append_iff (w := { w with clients := w.clients.set i (some c.movedFrom) }) (k := k) (o := some c.moved) (h' := w.hist)
        rw [List.length_set] at this
        refine this.trans ?_
        split
        · rfl
        · exact winGet_set_iff hl
      · intro k x hx
        split at hx
        · cases hx
          refine .inr ⟨i, c, hi, rfl, fun k' c' hk' hc' he => ?_⟩
          rename_i ek
          rw [if_neg (by rw [← ek]; exact hk')] at hc'
          split at hc'
          · cases hc'; exact .inl rfl
          · rename_i ek'
            unfold EmptyHanded
            rw [he]
            exact h.one i k' c c' hi hc' (fun e => ek' e.symm) he.symm
        · split at hx
          · cases hx; exact .inl (.inl rfl)
          · rename_i ek ei
            refine .inr ⟨k, x, hx, rfl, fun k' c' hk' hc' he => ?_⟩
            split at hc'
            · cases hc'
              exact h.one i k c x hi hx (fun e => ei e.symm) he
            · split at hc'
              · cases hc'; exact .inl rfl
              · exact h.one k' k c' x hc' hx hk' he
  | assign i j =>
    simp only [winStep]
    cases hi : w.get i with
    | none => exact h
    | some d =>
      cases hj : w.get j with
      | none => exact h
      | some c =>
        dsimp only
        split
        · exact h
        · cases hc : d.assigned c with
          | error u => exact h
          | ok c' =>
            refine h.weaken rfl fun k c2 hk => ?_
            rcases winGet_set hk with ⟨-, e⟩ | e
            · cases e; exact .inl (.inl (assigned_sock hc))
            · exact .inr e
  | moveAssign i j =>
    simp only [winStep]
    cases hi : w.get i with
    | none => exact h
    | some d =>
      cases hj : w.get j with
      | none => exact h
      | some c =>
        dsimp only
        split
        · exact h
        · rename_i hne
          have hij : i ≠ j := fun e => hne (.inl e)
          have hl := winGet_length hi
          have hl' := winGet_length hj
          refine h.of_get (fun k => if k = i then some (d.moveAssigned c) else if k = j then some c.movedFrom else w.get k) (fun k => ?_) rfl ?_
          · have := winGet_set_iff (w := { w with clients := w.clients.set j (some c.movedFrom) }) (i := i) (k := k) (o := some (d.moveAssigned c)) (h' := w.hist) (by simpa using hl)
            refine this.trans ?_
            split
            · rfl
            · exact winGet_set_iff hl'
          · intro k x hx
            split at hx
            · cases hx
              refine .inr ⟨j, c, hj, rfl, fun k' c' hk' hc' he => ?_⟩
              rename_i ek
              rw [if_neg (by rw [← ek]; exact hk')] at hc'
              split at hc'
              · cases hc'; exact .inl rfl
              · rename_i ek'
                unfold EmptyHanded
                rw [he]
                exact h.one j k' c c' hj hc' (fun e => ek' e.symm) he.symm
            · split at hx
              · cases hx; exact .inl (.inl rfl)
              · rename_i ek ei
                refine .inr ⟨k, x, hx, rfl, fun k' c' hk' hc' he => ?_⟩
                split at hc'
                · cases hc'
                  exact h.one j k c x hj hx (fun e => ei e.symm) he
                · split at hc'
                  · cases hc'; exact .inl rfl
                  · exact h.one k' k c' x hc' hx hk' he
  | send i e => exact winOn_owners h i _ false fun c hi => sendMailWin_mine hf e _ (h.mine hi)
  | destroy i => exact winOn_owners h i _ true fun c hi => cleanupWin_mine _ (h.mine hi)

theorem winRun_owners (hf : FreshHandles env) (ops : List WinOp) {w : WinWorld} (h : OwnersW w) : OwnersW (winRun ops env w).2 := by
  induction ops generalizing w with
  | nil => exact h
  | cons op ops ih =>
    have hs := winStep_owners hf op h
    simp only [winRun]
    cases hx : winStep op env w with
    | mk r w' =>
      rw [hx] at hs
      cases r with
      | ok a => exact ih hs
      | stop e => exact hs

theorem ownersW_empty : OwnersW .empty :=
  ⟨fun i j c d hi => by simp [WinWorld.empty, WinWorld.get] at hi, fun i c hi => by simp [WinWorld.empty, WinWorld.get] at hi,
    fun a e b v he => by simp [WinWorld.empty] at he⟩

/-! ### Nothing is left open -/

/-- All sockets that are open are held by objects, and objects without connection hold none. -/
structure AllHeld (w : WinWorld) : Prop where
  full : ∀ k ∈ openHandles w.hist, k = 0 ∨ ∃ i c, w.get i = some c ∧ asSocket c.base.sock = k
  rest : ∀ i c, w.get i = some c → RestW c

theorem AllHeld.fullW {w : WinWorld} (h : AllHeld w) {i : Nat} {c : WinClient} (hi : w.get i = some c) : FullW (othersHold w i) { client := c, hist := w.hist } := by
  intro k hk
  rcases h.full k hk with h1 | ⟨j, d, hj, e⟩
  · exact .inl h1
  · by_cases hij : j = i
    · subst hij
      rw [hi] at hj
      cases hj
      exact .inr (.inr e)
    · exact .inr (.inl ⟨d.base.sock, ⟨j, d, hij, hj, rfl⟩, e⟩)

/-- Operations after which every socket is still held. -/
def keepsSockets : WinOp → Bool
  | .assign _ _ => false
  | .moveAssign _ _ => false
  | .send _ .refused => false
  | _ => true

theorem asSocket_empty {w : WinWorld} {c : WinClient} {k : Nat} (h : EmptyHanded c) (hk : k ∈ openHandles w.hist) (e : asSocket c.base.sock = k) : k = 0 := by
  rcases h with h | h
  · rw [h] at e; exact e.symm
  · rw [h] at e
    have : k = invalidSocket := by rw [← e]; rfl
    rw [this] at hk
    exact absurd hk (not_invalid _)

theorem winStep_allHeld (hf : FreshHandles env) (op : WinOp) {w w' : WinWorld} (hop : keepsSockets op = true) (ho : OwnersW w) (h : AllHeld w)
    (hr : winStep op env w = (.ok (), w')) (hw : ConnectsWork w'.hist) : AllHeld w' := by
  have add : ∀ c, RestW c → AllHeld { w with clients := w.clients ++ [some c] } := by
    intro c hc
    refine ⟨fun k hk => ?_, fun k x hx => ?_⟩
    · rcases h.full k hk with h1 | ⟨j, d, hj, e⟩
      · exact .inl h1
      · have hl := winGet_length hj
        exact .inr ⟨j, d, by rw [winGet_append_iff, if_neg (by omega)]; exact hj, e⟩
    · rcases winGet_append hx with e | e
      · cases e; exact hc
      · exact h.rest k x e
  cases op with
  | create kd n p =>
    cases hr
    exact add _ fun _ => .inl rfl
  | copy i =>
    simp only [winStep] at hr
    cases hi : w.get i with
    | none => rw [hi] at hr; cases hr; exact h
    | some c =>
      rw [hi] at hr
      dsimp only at hr
      cases hc : c.copied with
      | error u => rw [hc] at hr; cases hr
      | ok c' =>
        rw [hc] at hr
        cases hr
        exact add _ fun _ => .inl (copied_sock hc)
  | move i =>
    simp only [winStep] at hr
    cases hi : w.get i with
    | none => rw [hi] at hr; cases hr; exact h
    | some c =>
      rw [hi] at hr
      cases hr
      have hl := winGet_length hi
      have hget : ∀ k, WinWorld.get { w with clients := w.clients.set i (some c.movedFrom) ++ [some c.moved] } k =
          if k = w.clients.length then some c.moved else if k = i then some c.movedFrom else w.get k := by
        intro k
        have := winGet_append_iff (w := { w with clients := w.clients.set i (some c.movedFrom) }) (k := k) (o := some c.moved) (h' := w.hist)
        rw [List.length_set] at this
        refine this.trans ?_
        split
        · rfl
        · exact winGet_set_iff hl
      refine ⟨fun k hk => ?_, fun k x hx => ?_⟩
      · rcases h.full k hk with h1 | ⟨j, d, hj, e⟩
        · exact .inl h1
        · by_cases hij : j = i
          · subst hij
            rw [hi] at hj
            cases hj
            exact .inr ⟨w.clients.length, c.moved, by rw [hget, if_pos rfl], e⟩
          · have hlj := winGet_length hj
            exact .inr ⟨j, d, by rw [hget, if_neg (by omega), if_neg hij]; exact hj, e⟩
      · rw [hget] at hx
        split at hx
        · cases hx
          exact fun hcon => h.rest i c hi hcon
        · split at hx
          · cases hx; exact fun _ => .inl rfl
          · exact h.rest k x hx
  | assign i j => cases hop
  | moveAssign i j => cases hop
  | send i e =>
    simp only [winStep, winOn] at hr
    cases hi : w.get i with
    | none => rw [hi] at hr; cases hr; exact h
    | some c =>
      rw [hi] at hr
      dsimp only at hr
      have hl := winGet_length hi
      have hs := sendMailWin_sockets hf e _ (ho.mine hi)
      unfold wpW at hs
      cases hx : sendMailWin e env { client := c, hist := w.hist } with
      | mk r s' =>
        rw [hx] at hr hs
        cases r with
        | stop z => cases hr
        | ok u =>
          cases hr
          dsimp only at hs hw ⊢
          obtain ⟨g1, g2⟩ := hs.2 (fun e => by subst e; cases hop) hw (h.rest i c hi) (h.fullW hi)
          refine ⟨fun k hk => ?_, fun k x hx => ?_⟩
          · rcases g2 k hk with h1 | ⟨v, ⟨j, d, hij, hj, rfl⟩, e⟩ | e
            · exact .inl h1
            · exact .inr ⟨j, d, by rw [winGet_set_iff hl, if_neg hij]; exact hj, e⟩
            · exact .inr ⟨i, s'.client, by rw [winGet_set_iff hl, if_pos rfl]; rfl, e⟩
          · rcases winGet_set hx with ⟨-, e⟩ | e
            · cases e; exact g1
            · exact h.rest k x e
  | destroy i =>
    simp only [winStep, winOn] at hr
    cases hi : w.get i with
    | none => rw [hi] at hr; cases hr; exact h
    | some c =>
      rw [hi] at hr
      dsimp only at hr
      have hl := winGet_length hi
      have hs := cleanupWin_sockets (env := env) _ (ho.mine hi)
      unfold wpW at hs
      cases hx : cleanupWin env { client := c, hist := w.hist } with
      | mk r s' =>
        rw [hx] at hr hs
        cases r with
        | stop z => cases hr
        | ok u =>
          cases hr
          dsimp only at hs hw ⊢
          have g2 := hs.2.2.2 (h.fullW hi)
          refine ⟨fun k hk => ?_, fun k x hx => ?_⟩
          · rcases g2 k hk with h1 | ⟨v, ⟨j, d, hij, hj, rfl⟩, e⟩ | e
            · exact .inl h1
            · exact .inr ⟨j, d, by rw [winGet_set_iff hl, if_neg hij]; exact hj, e⟩
            · rw [hs.2.2.1] at e
              exact .inl e.symm
          · rcases winGet_set hx with ⟨-, e⟩ | e
            · cases e
            · exact h.rest k x e

theorem connectsWork_prefix {a b : WinHist} (h : ConnectsWork (a ++ b)) : ConnectsWork a := fun v ok hm => h v ok (List.mem_append_left _ hm)

theorem winRun_allHeld (hf : FreshHandles env) (ops : List WinOp) {w w' : WinWorld} (hops : ∀ op ∈ ops, keepsSockets op = true) (ho : OwnersW w) (h : AllHeld w)
    (hr : winRun ops env w = (.ok (), w')) (hw : ConnectsWork w'.hist) : AllHeld w' := by
  induction ops generalizing w with
  | nil => cases hr; exact h
  | cons op ops ih =>
    have hs := winStep_owners hf op ho
    have hlong : ∃ evs, (winRun ops env (winStep op env w).2).2.hist = (winStep op env w).2.hist ++ evs := winRun_longer ops _
    simp only [winRun] at hr
    cases hx : winStep op env w with
    | mk r w1 =>
      rw [hx] at hs hr hlong
      cases r with
      | stop e => cases hr
      | ok a =>
        dsimp only at hr hlong
        obtain ⟨evs, he⟩ := hlong
        rw [hr] at he
        dsimp only at he
        rw [he] at hw
        have := winStep_allHeld hf op (hops op (List.mem_cons_self ..)) ho h hx (connectsWork_prefix hw)
        rw [← he] at hw
        exact ih (fun o h' => hops o (List.mem_cons_of_mem _ h')) hs this hr

end Verif.Proofs
