import Verif.Proofs.Said
import Verif.Spec.Script
import Verif.Spec.Served
/-!
# C52: opening a session
-/
namespace Verif.Props
open Verif Verif.Model Verif.Spec

variable {env : Env}

/-- Nothing was recorded and the socket is the same. -/
def NoEvent (s s' : St) : Prop := s'.hist = s.hist ∧ s'.client.sock = s.client.sock ∧ s'.client.port = s.client.port

theorem addLog_noEvent (i p : Bytes) (s : St) : Proofs.wp env (addLog i p) (fun _ s' => NoEvent s s') (fun _ _ => True) s := by
  unfold addLog
  rw [Proofs.wp_bind, Proofs.wp_gets]
  cases s.client.log with
  | none => trivial
  | some l =>
    cases ha : l.add i p with
    | error u => simp only [ha]; trivial
    | ok l' => simp only [ha]; exact ⟨rfl, rfl, rfl⟩

theorem logErrno_then (e : Int) (c : Int) (hc : c ≠ 0) (s : St) {P : St → Prop} :
    Proofs.wp env (do logErrno e; pure c) (fun code s' => code = 0 → P s') (fun _ _ => True) s := by
  rw [Proofs.wp_bind]
  exact Proofs.wp_mono ((Proofs.logErrno_steps (R := Proofs.Ext) e).run s) (fun _ _ _ h => absurd h hc) (fun _ _ _ => trivial)

theorem setBlocking_zero (s : St) :
    Proofs.wp env setBlocking (fun code s' => code = 0 →
      s'.hist = s.hist ++ [.fcntlGet s.client.sock .ok, .fcntlSet s.client.sock false .ok] ∧ s'.client.sock = s.client.sock) (fun _ _ => True) s := by
  unfold setBlocking sysFcntlGet
  simp only [Proofs.wp_bind, Proofs.wp_gets, Proofs.wp_ask]
  cases hr : env.fcntlGet s.hist s.client.sock with
  | err e => exact logErrno_then e _ (by decide) _
  | ok =>
    dsimp only
    unfold sysFcntlSet
    rw [Proofs.wp_bind, Proofs.wp_ask]
    generalize hr' : env.fcntlSet _ _ _ = r'
    cases r' with
    | err e => exact logErrno_then e _ (by decide) _
    | ok => exact fun _ => ⟨by simp, rfl⟩

theorem setNonBlocking_zero (s : St) :
    Proofs.wp env setNonBlocking (fun code s' => code = 0 → ∃ r,
      s'.hist = s.hist ++ [.fcntlGet s.client.sock r, .fcntlSet s.client.sock true .ok] ∧ s'.client.sock = s.client.sock ∧
      s'.client.port = s.client.port) (fun _ _ => True) s := by
  unfold setNonBlocking sysFcntlGet
  simp only [Proofs.wp_bind, Proofs.wp_gets, Proofs.wp_ask]
  generalize hr : env.fcntlGet s.hist s.client.sock = r
  have hlog : ∀ s1, Proofs.wp env (logIfErr r) (fun _ s2 => NoEvent s1 s2) (fun _ _ => True) s1 := by
    intro s1
    cases r with
    | ok => exact ⟨rfl, rfl, rfl⟩
    | err e =>
      unfold logIfErr logErrno setErrNo
      simp only [Proofs.wp_bind, Proofs.wp_modify, Proofs.wp_env]
      exact addLog_noEvent _ _ _
  refine Proofs.wp_mono (hlog _) (fun _ s2 h2 => ?_) (fun _ _ h => h)
  unfold sysFcntlSet
  rw [Proofs.wp_ask]
  generalize hr' : env.fcntlSet _ _ _ = r'
  cases r' with
  | err e => exact logErrno_then e _ (by decide) _
  | ok => exact fun _ => ⟨r, by rw [h2.1]; simp, h2.2.1, h2.2.2⟩

theorem connectPOSIX_zero (ip : Bytes) (s : St) :
    Proofs.wp env (connectPOSIX ip) (fun code s' => code = 0 → ∃ mid, TcpConnected s.client.sock ⟨ip, s.client.port % 65536⟩ mid ∧
      s'.hist = s.hist ++ mid ++ [.fcntlGet s.client.sock .ok, .fcntlSet s.client.sock false .ok] ∧ s'.client.sock = s.client.sock) (fun _ _ => True) s := by
  unfold connectPOSIX sysConnect
  simp only [Proofs.wp_bind, Proofs.wp_gets, Proofs.wp_ask]
  cases hr : env.connect s.hist s.client.sock ⟨ip, s.client.port % 65536⟩ with
  | ok =>
    refine Proofs.wp_mono (setBlocking_zero _) (fun code s1 h hc => ?_) (fun _ _ h => h)
    exact ⟨_, .inl rfl, h hc⟩
  | err e =>
    dsimp only
    rw [Proofs.wp_ite]
    refine ⟨fun he => ?_, fun _ => logErrno_then e _ (by decide) _⟩
    subst he
    rw [Proofs.wp_ite]
    refine ⟨fun _ => trivial, fun _ => ?_⟩
    unfold sysSelect
    simp only [Proofs.wp_bind, Proofs.wp_gets, Proofs.wp_ask]
    generalize hr' : env.select _ _ _ = r'
    cases r' with
    | err e' =>
      dsimp only
      rw [Proofs.wp_ite]
      exact ⟨fun _ => logErrno_then e' _ (by decide) _, fun _ h => absurd h (by decide)⟩
    | timeout => exact fun h => absurd h (by decide)
    | ready =>
      dsimp only
      unfold sysSockopt
      simp only [Proofs.wp_bind, Proofs.wp_ask]
      generalize hr'' : env.sockopt _ _ = r''
      cases r'' with
      | err e' => exact logErrno_then e' _ (by decide) _
      | val v =>
        dsimp only
        rw [Proofs.wp_ite]
        refine ⟨fun _ => logErrno_then _ _ (by decide) _, fun hv => ?_⟩
        have hv := Decidable.not_not.mp hv
        subst hv
        refine Proofs.wp_mono (setBlocking_zero _) (fun code s1 h hc => ?_) (fun _ _ h => h)
        refine ⟨_, .inr rfl, ?_, (h hc).2⟩
        rw [(h hc).1]
        simp

/-- **C52.** `initializeSession` returns 0 only if a socket was created, the configured server name was resolved, and a connection
to the address found and the configured port was established on that socket (at once, or pending and then confirmed without error); the socket is then the one of the client.
The port is the configured one for all ports up to 65535. -/
theorem C52_session_needs_connection (env : Env) (s s' : St) (h : initializeSession env s = (.ok 0, s')) :
    ∃ (name : Bytes) (fd : Nat) (evs : Hist), s.client.serverName = some name ∧ s'.hist = s.hist ++ evs ∧ s'.client.sock = fd ∧
      OpenedTo name (s.client.port % 65536) fd evs ∧ (s.client.port ≤ 65535 → OpenedTo name s.client.port fd evs) := by
  have key : Proofs.wp env initializeSession (fun code s' => code = 0 → ∃ (name : Bytes) (fd : Nat) (evs : Hist), s.client.serverName = some name ∧
      s'.hist = s.hist ++ evs ∧ s'.client.sock = fd ∧ OpenedTo name (s.client.port % 65536) fd evs) (fun _ _ => True) s := by
    unfold initializeSession initializePOSIX sysSocket
    simp only [Proofs.wp_bind, Proofs.wp_modifyMem, Proofs.wp_ask]
    cases hr : env.socket s.hist with
    | err e =>
      dsimp only
      rw [Proofs.wp_bind, Proofs.wp_modify]
      exact logErrno_then e _ (by decide) _
    | val fd =>
      dsimp only
      simp only [Proofs.wp_bind, Proofs.wp_modify, Proofs.wp_gets]
      cases hn : s.client.serverName with
      | none => trivial
      | some name =>
        dsimp only
        unfold sysResolve
        rw [Proofs.wp_bind, Proofs.wp_ask]
        generalize hf : env.resolve _ _ = found
        cases found with
        | none => exact fun h => absurd h (by decide)
        | some a =>
          dsimp only
          rw [Proofs.wp_ite]
          refine ⟨fun _ => trivial, fun hl => ?_⟩
          rw [Proofs.wp_bind]
          refine Proofs.wp_mono (setNonBlocking_zero _) (fun code s1 h1 => ?_) (fun _ _ h => h)
          rw [Proofs.wp_ite]
          refine ⟨fun _ h => absurd h (by decide), fun hc => ?_⟩
          obtain ⟨r, h1, h2, h3⟩ := h1 (Decidable.not_not.mp hc)
          simp only [Proofs.wp_bind, Proofs.wp_gets]
          refine Proofs.wp_mono (addLog_noEvent _ _ s1) (fun _ s2 h4 => ?_) (fun _ _ h => h)
          refine Proofs.wp_mono (connectPOSIX_zero _ s2) (fun code s3 h5 hc => ?_) (fun _ _ h => h)
          obtain ⟨mid, hm, h6, h7⟩ := h5 hc
          have hs : s2.client.sock = (fd : Int) := h4.2.1.trans h2
          have hp : s2.client.port = s.client.port := h4.2.2.trans h3
          rw [hs, hp] at hm
          rw [hs] at h6 h7
          refine ⟨name, fd, _, rfl, ?_, h7, a, r, mid, Nat.le_of_not_lt hl, hm, rfl⟩
          rw [h6, h4.1, h1]
          simp
  unfold Proofs.wp at key
  rw [h] at key
  obtain ⟨name, fd, evs, h1, h2, h3, h4⟩ := key rfl
  refine ⟨name, fd, evs, h1, h2, h3, h4, fun hp => ?_⟩
  rwa [Nat.mod_eq_of_lt (by omega)] at h4

/-- Ports above 65535 (the field has 32 bits) silently lead to another port. -/
theorem C52_large_port :
    (initializeSession (scripted []) { client := Client.init .smtp b!"mail.org" 65561, hist := [] }).2.hist =
      [.socket (.val 5), .resolve b!"mail.org" (some [192, 0, 2, 1]), .fcntlGet 5 .ok, .fcntlSet 5 true .ok, .connect 5 ⟨[192, 0, 2, 1], 25⟩ .ok, .fcntlGet 5 .ok,
        .fcntlSet 5 false .ok] := by decide +kernel

/-- A short answer of the resolver is filled up with zeros. -/
example : (initializeSession { scripted [] with resolve := fun _ _ => some [127] } (fresh .smtp)).2.hist.contains
    (.connect 5 ⟨[127, 0, 0, 0], 25⟩ .ok) = true := by decide +kernel

/-- Non-vacuity: both ways to succeed, and a pending connection that fails. -/
example : (initializeSession (scripted []) (fresh .smtp)).1 = .ok 0 ∧
    (initializeSession { scripted [] with connect := fun _ _ _ => .err 115 } (fresh .smtp)).1 = .ok 0 ∧
    (initializeSession { scripted [] with connect := fun _ _ _ => .err 115, sockopt := fun _ _ => .val 111 } (fresh .smtp)).1 = .ok (-10) := by
  decide +kernel

end Verif.Props
