import Verif.Proofs.Guard
import Verif.Spec.Secure
/-!
# Opening the connection and the TLS negotiation
-/
namespace Verif.Proofs
open Verif Verif.Model Verif.Spec

variable {α : Type} {env : Env}

/-- Events of the opening phase: nothing is sent or received, the user does nothing. -/
def PrepEv : Ev → Prop
  | .send _ _ _ _ => False
  | .recv _ _ => False
  | .call _ => False
  | .destroy => False
  | _ => True

/-- What the opening phase keeps, as long as the client is not connected. -/
structure Prepared (s s' : St) : Prop where
  isConnected : s'.client.isConnected = false
  kind : s'.client.kind = s.client.kind
  ptrRaw : s'.client.ptrRaw = s.client.ptrRaw
  accept : s'.client.acceptSelfSigned = s.client.acceptSelfSigned
  events : NewEvents PrepEv s s'

/-- … as a relation. -/
def Prep (s s' : St) : Prop := s.client.isConnected = false → Prepared s s'

theorem Prepared.trans {a b c : St} (h : Prepared a b) (h' : Prepared b c) : Prepared a c :=
  ⟨h'.isConnected, h'.kind.trans h.kind, h'.ptrRaw.trans h.ptrRaw, h'.accept.trans h.accept, h.events.trans h'.events⟩

instance : Sleeping Prep where
  refl := fun _ h => ⟨h, rfl, rfl, rfl, .same rfl⟩
  trans := fun h h' hc => (h hc).trans (h' (h hc).isConnected)
  log := fun _ _ _ _ _ _ _ h => ⟨h, rfl, rfl, rfl, .same rfl⟩
  errno := fun _ _ h => ⟨h, rfl, rfl, rfl, .same rfl⟩
  resp := fun _ _ h => ⟨h, rfl, rfl, rfl, .same rfl⟩
  auth := fun _ _ h => ⟨h, rfl, rfl, rfl, .same rfl⟩
  fcntlGet := fun _ _ _ h => ⟨h, rfl, rfl, rfl, .one trivial⟩
  fcntlSet := fun _ _ _ _ h => ⟨h, rfl, rfl, rfl, .one trivial⟩
  select := fun _ _ _ h => ⟨h, rfl, rfl, rfl, .one trivial⟩
  sockopt := fun _ _ _ h => ⟨h, rfl, rfl, rfl, .one trivial⟩
  resolve := fun _ _ _ h => ⟨h, rfl, rfl, rfl, .one trivial⟩
  connect := fun _ _ _ _ h => ⟨h, rfl, rfl, rfl, .one trivial⟩
  sleep := fun _ h => ⟨h, rfl, rfl, rfl, .one trivial⟩

theorem initializeSession_prep : Steps env Prep initializeSession := by
  unfold initializeSession initializePOSIX sysSocket
  steps [Steps.modify, Steps.modifyMem, Steps.ask, logErrno_steps, sysResolve_steps, setNonBlocking_steps, addLog_steps, connectPOSIX_steps]
  · exact ⟨by assumption, rfl, rfl, rfl, .same rfl⟩
  · exact ⟨by assumption, rfl, rfl, rfl, .one trivial⟩
  · exact ⟨by assumption, rfl, rfl, rfl, .same rfl⟩
  · exact ⟨by assumption, rfl, rfl, rfl, .same rfl⟩

/-- It leaves the TLS objects alone. -/
def SameBio (s s' : St) : Prop := s'.client.bio = s.client.bio

instance : Sleeping SameBio where
  refl := fun _ => rfl
  trans := fun h h' => h'.trans h
  log := fun _ _ _ _ _ _ _ => rfl
  errno := fun _ _ => rfl
  resp := fun _ _ => rfl
  auth := fun _ _ => rfl
  fcntlGet := fun _ _ _ => rfl
  fcntlSet := fun _ _ _ _ => rfl
  select := fun _ _ _ => rfl
  sockopt := fun _ _ _ => rfl
  resolve := fun _ _ _ => rfl
  connect := fun _ _ _ _ => rfl
  sleep := fun _ => rfl

theorem initializeSession_bio : Steps env SameBio initializeSession := by
  unfold initializeSession initializePOSIX sysSocket
  steps [Steps.modify, Steps.modifyMem, Steps.ask, logErrno_steps, sysResolve_steps, setNonBlocking_steps, addLog_steps, connectPOSIX_steps]
  all_goals exact rfl

/-- `cleanup` without a connection sends nothing. -/
theorem cleanup_prep : Steps env Prep cleanup := by
  constructor
  intro s
  by_cases hc : s.client.isConnected = false
  · unfold cleanup
    rw [wp_bind, wp_env]
    cases env.depth with
    | zero => exact (Preord.refl (R := Prep) s)
    | succ n =>
      unfold cleanupN
      rw [wp_bind, wp_gets, wp_bind, wp_gets, wp_ite]
      refine ⟨fun h => by simp [hc] at h, fun _ => ?_⟩
      refine Steps.run (R := Prep) (?_ : Steps env Prep closeSession) s
      unfold closeSession freeTls closeSocket sysClose emitBioFree
      steps [Steps.modify, Steps.emit]
      all_goals first
        | exact ⟨rfl, rfl, rfl, rfl, .same rfl⟩
        | exact ⟨by assumption, rfl, rfl, rfl, .same rfl⟩
        | exact ⟨by assumption, rfl, rfl, rfl, .one trivial⟩
  · exact wp_mono (m := cleanup) (Q := fun _ _ => True) (E := fun _ _ => True) (by unfold wp; split <;> trivial)
      (fun _ _ _ h => absurd h hc) (fun _ _ _ h => absurd h hc)

theorem startTLSNegotiation_prep : Steps env Prep startTLSNegotiation := by
  unfold startTLSNegotiation sysTls
  steps [addLog_steps, setErrNo_steps, cleanup_prep, Steps.ask, Steps.modify]
  all_goals first
    | exact ⟨by assumption, rfl, rfl, rfl, .same rfl⟩
    | exact ⟨by assumption, rfl, rfl, rfl, .one trivial⟩

/-- What a successful negotiation saw. -/
structure Negotiated (acc : Bool) (h : Hist) (id : Nat) : Prop where
  handshake : ∃ r, 0 < r ∧ .tls (.handshake id) r ∈ h
  certificate : ∃ r, r ≠ 0 ∧ .tls (.peerCert id) r ∈ h
  chain : .tls (.verifyResult id) 0 ∈ h ∨ (acc = true ∧ .tls (.verifyResult id) 18 ∈ h)

/-- No event is lost, and the connection stays. -/
theorem addLog_deaf {Q : Unit → St → Prop} {E : Stop → St → Prop} {s : St} {i p : Bytes} (hE : ∀ e s, E e s)
    (hq : ∀ s', SameConn s.client s'.client → s'.hist = s.hist → Q () s') : wp env (addLog i p) Q E s := by
  unfold addLog
  rw [wp_bind, wp_gets]
  cases s.client.log with
  | none => exact hE _ _
  | some l =>
    dsimp only
    cases l.add i p with
    | error u => exact hE _ _
    | ok l' => exact hq _ rfl rfl

theorem startTLSNegotiation_ok (s : St) :
    wp env startTLSNegotiation (fun code s' => code = 0 → ∃ b, s'.client.bio = some b ∧ s'.client.sock = s.client.sock ∧
      b.fd = s.client.sock ∧
      ∃ evs, s'.hist = s.hist ++ evs ∧ Negotiated s.client.acceptSelfSigned evs b.id) (fun _ _ => True) s := by
  unfold startTLSNegotiation sysTls
  rw [wp_bind]
  refine addLog_deaf (fun _ _ => trivial) fun s1 c1 h1 => ?_
  rw [wp_bind, wp_ask, wp_ite]
  refine ⟨fun _ => ?_, fun _ => ?_⟩
  · simp [setErrNo]
  rw [wp_bind, wp_modify, wp_bind, wp_histLength]
  dsimp only
  generalize (s1.hist ++ [Ev.tls TlsOp.ctxNew (env.tls s1.hist TlsOp.ctxNew)]).length = id
  rw [wp_bind, wp_ask, wp_ite]
  refine ⟨fun _ => ?_, fun _ => ?_⟩
  · simp
  rw [wp_bind, wp_gets, wp_bind, wp_modify, wp_bind, wp_gets]
  have e1 : s1.client.serverName = s.client.serverName := by unfold SameConn at c1; rw [c1]
  have e2 : s1.client.acceptSelfSigned = s.client.acceptSelfSigned := by unfold SameConn at c1; rw [c1]
  have e3 : s1.client.sock = s.client.sock := by unfold SameConn at c1; rw [c1]
  dsimp only
  cases s1.client.serverName with
  | none => trivial
  | some name =>
    dsimp only
    rw [wp_bind, wp_gets, wp_ite]
    refine ⟨fun _ => trivial, fun _ => ?_⟩
    rw [wp_bind, wp_ask, wp_ite]
    refine ⟨fun _ => by simp, fun _ => ?_⟩
    rw [wp_bind, wp_ask, wp_ite]
    have fails : ∀ (s : St) (m : M Unit) (c : Int), c ≠ 0 → ∀ P : St → Prop,
        wp env (do cleanup; m; pure c) (fun code s' => code = 0 → P s') (fun _ _ => True) s := by
      intro s m c hc P
      rw [wp_bind]
      refine wp_mono (Q := fun _ _ => True) (E := fun _ _ => True) (by unfold wp; split <;> trivial) ?_ (fun _ _ h => h)
      intro _ s' _
      rw [wp_bind]
      exact wp_mono (Q := fun _ _ => True) (E := fun _ _ => True) (by unfold wp; split <;> trivial) (fun _ _ _ h => absurd h hc) (fun _ _ h => h)
    have fails2 : ∀ (s : St) (c : Int), c ≠ 0 → ∀ P : St → Prop,
        wp env (do cleanup; pure c) (fun code s' => code = 0 → P s') (fun _ _ => True) s := by
      intro s c hc P
      rw [wp_bind]
      exact wp_mono (Q := fun _ _ => True) (E := fun _ _ => True) (by unfold wp; split <;> trivial) (fun _ _ _ h => absurd h hc) (fun _ _ h => h)
    have fails3 : ∀ (s : St) (c : Int), c ≠ 0 → ∀ P : St → Prop,
        wp env (do cleanup; setErrNo (← M.ask' (·.tlsErr)); pure c) (fun code s' => code = 0 → P s') (fun _ _ => True) s := by
      intro s c hc P
      rw [wp_bind]
      refine wp_mono (Q := fun _ _ => True) (E := fun _ _ => True) (by unfold wp; split <;> trivial) ?_ (fun _ _ h => h)
      intro _ s' _
      rw [wp_bind]
      exact fun h => absurd h hc
    refine ⟨fun _ => fails3 _ _ (by decide) _, fun _ => ?_⟩
    rw [wp_bind]
    refine addLog_deaf (fun _ _ => trivial) fun s2 c2 h2 => ?_
    rw [wp_bind, wp_ask, wp_ite]
    refine ⟨fun _ => fails3 _ _ (by decide) _, fun hh => ?_⟩
    rw [wp_bind]
    refine addLog_deaf (fun _ _ => trivial) fun s3 c3 h3 => ?_
    rw [wp_bind, wp_ask, wp_ite]
    refine ⟨fun _ => fails2 _ _ (by decide) _, fun hp => ?_⟩
    rw [wp_bind, wp_ask, wp_bind, wp_gets, wp_ite]
    dsimp only at h2 h3 c2 c3 hh hp ⊢
    rw [h1] at h2
    have key : ∀ (s4 : St) (v : Int), SameConn s3.client s4.client →
        s4.hist = s3.hist ++ [.tls (.peerCert id) (env.tls s3.hist (.peerCert id))] ++ [.tls (.verifyResult id) v] →
        (v = 0 ∨ (v = 18 ∧ s3.client.acceptSelfSigned = true)) →
        ∃ b, s4.client.bio = some b ∧ s4.client.sock = s.client.sock ∧ b.fd = s.client.sock ∧
          ∃ evs, s4.hist = s.hist ++ evs ∧ Negotiated s.client.acceptSelfSigned evs b.id := by
      intro s4 v c4 h4 hv
      refine ⟨{ id := id, fd := s1.client.sock }, ?_, ?_, e3, ?_⟩
      · unfold SameConn at c2 c3 c4; rw [c4, c3, c2]
      · unfold SameConn at c2 c3 c4; rw [c4, c3, c2]; exact e3
      · have ha : s3.client.acceptSelfSigned = s.client.acceptSelfSigned := by
          unfold SameConn at c2 c3; rw [c3, c2]; exact e2
        generalize env.tls s3.hist (.peerCert id) = r2 at h4 hp
        generalize env.tls s2.hist (.handshake id) = r1 at h3 hh
        simp only [h3, h2, List.append_assoc] at h4
        refine ⟨_, h4, ?_⟩
        constructor
        · exact ⟨r1, Int.not_le.mp hh, by simp⟩
        · exact ⟨r2, hp, by simp⟩
        · rcases hv with rfl | ⟨rfl, hv⟩
          · exact .inl (by simp)
          · exact .inr ⟨ha.symm.trans hv, by simp⟩
    refine ⟨fun hv => ?_, fun hv => ?_⟩
    · rw [wp_bind]
      refine addLog_deaf (fun _ _ => trivial) fun s4 c4 h4 => ?_
      rw [wp_bind]
      refine addLog_deaf (fun _ _ => trivial) fun s5 c5 h5 => ?_
      intro _
      refine key s5 18 (c4.trans c5) ?_ (.inr ⟨rfl, hv.2⟩)
      rw [h5, h4, ← hv.1]
    · rw [wp_ite]
      refine ⟨fun _ => ?_, fun hz => ?_⟩
      · rw [wp_bind, wp_env, wp_bind]
        exact addLog_deaf (fun _ _ => trivial) fun s4 c4 h4 => fails2 _ _ (by decide) _
      · rw [wp_bind]
        refine addLog_deaf (fun _ _ => trivial) fun s5 c5 h5 => ?_
        intro _
        refine key s5 0 c5 ?_ (.inl rfl)
        rw [h5, ← Decidable.not_not.mp hz]

end Verif.Proofs
