import Verif.Proofs.Sockets
/-!
# Which sockets stay open
-/
namespace Verif.Proofs
open Verif Verif.Model Verif.Spec

variable {α : Type} {env : Env}

/-- Every open socket is the client's own, descriptor 0, or has been overwritten. -/
def Tidy (s : St) : Prop := ∀ fd ∈ openSockets s.hist, fd = s.client.sock ∨ fd = 0 ∨ Overwritten s.hist fd

/-- Every open socket is the client's own, or descriptor 0. -/
def Clean (s : St) : Prop := ∀ fd ∈ openSockets s.hist, fd = s.client.sock ∨ fd = 0

theorem overwritten_append {h k : Hist} {fd : Int} (ho : Overwritten h fd) (hk : .close fd ∉ k) : Overwritten (h ++ k) fd := by
  obtain ⟨a, b, v, h1, h2, h3, r, h4⟩ := ho
  refine ⟨a, b ++ k, v, by rw [h1]; simp, h2, ?_, r, by simp [h4]⟩
  simp only [List.mem_append, not_or]
  exact ⟨h3, hk⟩

/-- An open socket was opened and not closed since. -/
theorem open_since {h : Hist} {fd : Int} (hf : fd ∈ openSockets h) :
    ∃ (a b : Hist) (v : Nat), h = a ++ .socket (.val v) :: b ∧ (v : Int) = fd ∧ .close fd ∉ b := by
  have main : ∀ n (h : Hist), h.length = n → fd ∈ openSockets h →
      ∃ (a b : Hist) (v : Nat), h = a ++ .socket (.val v) :: b ∧ (v : Int) = fd ∧ .close fd ∉ b := by
    intro n
    induction n with
    | zero => intro h hn hf; rw [List.length_eq_zero_iff.mp hn] at hf; cases hf
    | succ n ih =>
      intro h hn hf
      rcases List.eq_nil_or_concat h with h0 | ⟨h', e, h0⟩
      · rw [h0] at hn; cases hn
      · rw [List.concat_eq_append] at h0
        subst h0
        have hn' : h'.length = n := by simpa using hn
        have step : fd ∈ openSockets h' → e ≠ .close fd → ∃ (a b : Hist) (v : Nat), h' ++ [e] = a ++ .socket (.val v) :: b ∧ (v : Int) = fd ∧ .close fd ∉ b := by
          intro h1 h2
          obtain ⟨a, b, v, h3, h4, h5⟩ := ih h' hn' h1
          refine ⟨a, b ++ [e], v, by rw [h3]; simp, h4, ?_⟩
          simp only [List.mem_append, List.mem_singleton, not_or]
          exact ⟨h5, fun h => h2 h.symm⟩
        rw [openSockets_snoc] at hf
        unfold socketStep at hf
        split at hf
        · next v =>
          rcases List.mem_cons.mp hf with hf | hf
          · exact ⟨h', [], v, rfl, hf.symm, by simp⟩
          · exact step hf nofun
        · next fd' =>
          have := List.mem_filter.mp hf
          exact step this.1 (by intro h; injection h with h; have := this.2; simp [h] at this)
        · next h1 h2 =>
          exact step hf (fun h => h2 fd h)
  exact main _ h rfl hf

theorem Tidy.client {s : St} {c : Client} (h : Tidy s) (h1 : c.sock = s.client.sock) : Tidy { s with client := c } := by
  intro fd hf
  show fd = c.sock ∨ _
  rw [h1]; exact h fd hf

theorem Tidy.neutral {s : St} {e : Ev} (h : Tidy s) (he : NeutralEv e) : Tidy (St.snoc s e) := by
  intro fd hf
  have hf : fd ∈ openSockets (s.hist ++ [e]) := hf
  rw [openSockets_neutral he] at hf
  rcases h fd hf with h | h | h
  · exact .inl h
  · exact .inr (.inl h)
  · refine .inr (.inr (overwritten_append h ?_))
    intro hm
    have := List.mem_singleton.mp hm
    subst this
    exact he

theorem closing_open (c : Client) (h : Hist) : ∀ fd ∈ openSockets (h ++ closingEvs c), fd ∈ openSockets h ∧ (c.sock ≠ 0 → fd ≠ c.sock) := by
  intro fd hf
  unfold closingEvs at hf
  rw [← List.append_assoc] at hf
  have step : ∀ h : Hist, fd ∈ openSockets (h ++ if c.sock ≠ 0 then [.close c.sock] else []) → fd ∈ openSockets h ∧ (c.sock ≠ 0 → fd ≠ c.sock) := by
    intro h hf
    split at hf
    · rw [openSockets_close] at hf
      have := List.mem_filter.mp hf
      exact ⟨this.1, fun _ => by simpa using this.2⟩
    · next h0 => exact ⟨by simpa using hf, fun h => absurd h h0⟩
  have := step _ hf
  refine ⟨?_, this.2⟩
  have h1 := this.1
  revert h1
  split
  · simp
  · split
    · rw [openSockets_bioFree]; exact id
    · simp

theorem closing_close {c : Client} {fd : Int} (h : .close fd ∈ closingEvs c) : fd = c.sock ∧ c.sock ≠ 0 := by
  unfold closingEvs at h
  rcases List.mem_append.mp h with h | h
  · exfalso
    revert h
    split
    · simp
    · split <;> simp
  · split at h
    · next h0 =>
      have := List.mem_singleton.mp h
      injection this with this
      exact ⟨this, h0⟩
    · cases h

theorem Tidy.closed {s : St} (h : Tidy s) : Tidy { s with client := closedClient s.client, hist := s.hist ++ closingEvs s.client } := by
  intro fd hf
  obtain ⟨h1, h2⟩ := closing_open s.client s.hist fd hf
  rcases h fd h1 with h3 | h3 | h3
  · by_cases h0 : s.client.sock = 0
    · exact .inr (.inl (by rw [h3, h0]))
    · exact absurd h3 (h2 h0)
  · exact .inr (.inl h3)
  · refine .inr (.inr (overwritten_append h3 fun hm => ?_))
    have := closing_close hm
    exact h2 this.2 this.1

theorem tidy_whole : WholeMail (Pres Tidy) where
  refl := fun _ h => h
  trans := fun h h' x => h' (h x)
  log := fun _ _ _ _ _ _ _ h => h.client rfl
  errno := fun _ _ h => h.client rfl
  resp := fun _ _ h => h.client rfl
  auth := fun _ _ h => h.client rfl
  fcntlGet := fun _ _ _ h => h.neutral trivial
  fcntlSet := fun _ _ _ _ h => h.neutral trivial
  select := fun _ _ _ h => h.neutral trivial
  sockopt := fun _ _ _ h => h.neutral trivial
  resolve := fun _ _ _ h => h.neutral trivial
  connect := fun _ _ _ _ h => h.neutral trivial
  readFile := fun _ _ _ h => h.neutral trivial
  sleep := fun _ h => h.neutral trivial
  recv := fun _ _ _ h => h.neutral trivial
  send := fun _ _ _ _ _ h => h.neutral trivial
  closed := fun _ h => h.closed
  connected := fun _ h => h.client rfl

theorem Tidy.socket {s : St} {r : ValRes} {c : Client} (_ : Tidy s) (hc : ∀ v : Nat, r = .val v → c.sock = v) :
    Tidy { s with client := c, hist := s.hist ++ [.socket r] } := by
  intro fd hf
  have old : fd ∈ openSockets s.hist → fd = c.sock ∨ fd = 0 ∨ Overwritten (s.hist ++ [.socket r]) fd := by
    intro h1
    refine .inr (.inr ?_)
    obtain ⟨a, b, v, h2, h3, h4⟩ := open_since h1
    exact ⟨a, b ++ [.socket r], v, by rw [h2]; simp, h3, by simp [h4], r, by simp⟩
  have hf : fd ∈ openSockets (s.hist ++ [.socket r]) := hf
  cases r with
  | err n => rw [openSockets_fail] at hf; exact old hf
  | val v =>
    rw [openSockets_val] at hf
    rcases List.mem_cons.mp hf with hf | hf
    · exact .inl (by rw [hf]; exact (hc v rfl).symm)
    · exact old hf

theorem tidy_init : Steps env (Pres Tidy) initializeSession := by
  have := tidy_whole
  have posix : Steps env (Pres Tidy) initializePOSIX := by
    constructor
    intro s
    unfold initializePOSIX sysSocket
    rw [wp_bind, wp_ask]
    cases hs : env.socket s.hist with
    | err n =>
      dsimp only
      rw [wp_bind, wp_modify]
      have h1 : Pres Tidy s { s with client := { s.client with sock := -1 }, hist := s.hist ++ [.socket (.err n)] } := fun h => h.socket nofun
      refine Steps.after (R := Pres Tidy) ?_ h1
      steps [logErrno_steps]
    | val v =>
      dsimp only
      rw [wp_bind, wp_modify]
      have h1 : Pres Tidy s { s with client := { s.client with sock := v }, hist := s.hist ++ [.socket (.val v)] } :=
        fun h => h.socket fun w hw => by injection hw with hw; rw [hw]
      refine Steps.after (R := Pres Tidy) ?_ h1
      steps [sysResolve_steps, setNonBlocking_steps, addLog_steps, connectPOSIX_steps]
  unfold initializeSession
  steps [Steps.modifyMem]

theorem tidy_tls : Steps env (Pres Tidy) startTLSNegotiation := by
  have := tidy_whole
  have call : ∀ op, Steps env (Pres Tidy) (sysTls op) := fun op => Steps.ask fun _ _ h => h.neutral trivial
  have ctx : ∀ b, Steps env (Pres Tidy) (M.modify ({ · with ctx := b })) := fun b => Steps.modify fun _ h => h.client rfl
  have bio : ∀ b, Steps env (Pres Tidy) (M.modify ({ · with bio := b })) := fun b => Steps.modify fun _ h => h.client rfl
  unfold startTLSNegotiation
  steps [addLog_steps, setErrNo_steps, wh_cleanup, call, ctx, bio]

theorem tidy_life : WholeLife env (Pres Tidy) :=
  { tidy_whole with
    keep := fun _ h => h.client rfl
    init := tidy_init
    tls := tidy_tls }

theorem tidy_calls : CallInv env (fun _ => True) Tidy Tidy where
  stop := fun _ h => h
  event := fun _ _ _ h => h.neutral trivial
  serverName := fun _ _ h => h.client rfl
  port := fun _ _ h => h.client rfl
  batch := fun _ _ h => h.client rfl
  timeout := fun _ _ h => h.client rfl
  credential := fun _ _ h => h.client rfl
  keep := fun _ _ _ h => h.client rfl
  accept := fun s b h => (h.neutral (e := .call (.setAcceptSelfSignedCert b)) trivial).client rfl
  sendMail := fun s m _ h => by
    have := tidy_life (env := env)
    exact Pres.use (wh_sendMail m) h

/-! ### Lives without a failed call -/

theorem Clean.client {s : St} {c : Client} (h : Clean s) (h1 : c.sock = s.client.sock) : Clean { s with client := c } := by
  intro fd hf
  show fd = c.sock ∨ _
  rw [h1]; exact h fd hf

theorem Clean.neutral {s : St} {e : Ev} (h : Clean s) (he : NeutralEv e) : Clean (St.snoc s e) := by
  intro fd hf
  have hf : fd ∈ openSockets (s.hist ++ [e]) := hf
  rw [openSockets_neutral he] at hf
  exact h fd hf

theorem Clean.closed {s : St} (h : Clean s) : Clean { s with client := closedClient s.client, hist := s.hist ++ closingEvs s.client } := by
  intro fd hf
  obtain ⟨h1, h2⟩ := closing_open s.client s.hist fd hf
  rcases h fd h1 with h3 | h3
  · by_cases h0 : s.client.sock = 0
    · exact .inr (by rw [h3, h0])
    · exact absurd h3 (h2 h0)
  · exact .inr h3

theorem clean_whole : WholeMail (Pres Clean) where
  refl := fun _ h => h
  trans := fun h h' x => h' (h x)
  log := fun _ _ _ _ _ _ _ h => h.client rfl
  errno := fun _ _ h => h.client rfl
  resp := fun _ _ h => h.client rfl
  auth := fun _ _ h => h.client rfl
  fcntlGet := fun _ _ _ h => h.neutral trivial
  fcntlSet := fun _ _ _ _ h => h.neutral trivial
  select := fun _ _ _ h => h.neutral trivial
  sockopt := fun _ _ _ h => h.neutral trivial
  resolve := fun _ _ _ h => h.neutral trivial
  connect := fun _ _ _ _ h => h.neutral trivial
  readFile := fun _ _ _ h => h.neutral trivial
  sleep := fun _ h => h.neutral trivial
  recv := fun _ _ _ h => h.neutral trivial
  send := fun _ _ _ _ _ h => h.neutral trivial
  closed := fun _ h => h.closed
  connected := fun _ h => h.client rfl

/-- Connected, or without a socket. -/
def Settled (s : St) : Prop := s.client.sock = 0 ∨ s.client.isConnected = true

theorem settled_whole : WholeMail (Pres Settled) where
  refl := fun _ h => h
  trans := fun h h' x => h' (h x)
  log := fun _ _ _ _ _ _ _ h => h
  errno := fun _ _ h => h
  resp := fun _ _ h => h
  auth := fun _ _ h => h
  fcntlGet := fun _ _ _ h => h
  fcntlSet := fun _ _ _ _ h => h
  select := fun _ _ _ h => h
  sockopt := fun _ _ _ h => h
  resolve := fun _ _ _ h => h
  connect := fun _ _ _ _ h => h
  readFile := fun _ _ _ h => h
  sleep := fun _ h => h
  recv := fun _ _ _ h => h
  send := fun _ _ _ _ _ h => h
  closed := fun s _ => .inl (by simp only [closedClient]; split <;> rfl)
  connected := fun _ _ => .inr rfl

/-- Establishing without an old socket. -/
theorem establish_clean (s : St) (h : Clean s) (h0 : s.client.sock = 0) : wp env establish (fun _ => Clean) (fun _ => Clean) s := by
  have cw := clean_whole
  have hz : ∀ fd ∈ openSockets s.hist, fd = 0 := fun fd hf => (h fd hf).elim (fun h => h.trans h0) id
  have init : wp env initializeSession (fun _ => Clean) (fun _ => Clean) s := by
    unfold initializeSession initializePOSIX sysSocket
    rw [wp_bind, wp_modifyMem, wp_bind, wp_ask]
    dsimp only
    cases hs : env.socket s.hist with
    | err n =>
      dsimp only
      rw [wp_bind, wp_modify]
      refine Pres.use (I := Clean) ?_ ?_
      · steps [logErrno_steps]
      · intro fd hf
        have hf : fd ∈ openSockets (s.hist ++ [.socket (.err n)]) := hf
        rw [openSockets_fail] at hf
        exact .inr (hz fd hf)
    | val v =>
      dsimp only
      rw [wp_bind, wp_modify]
      refine Pres.use (I := Clean) ?_ ?_
      · steps [sysResolve_steps, setNonBlocking_steps, addLog_steps, connectPOSIX_steps]
      · intro fd hf
        have hf : fd ∈ openSockets (s.hist ++ [.socket (.val v)]) := hf
        rw [openSockets_val] at hf
        rcases List.mem_cons.mp hf with hf | hf
        · exact .inl hf
        · exact .inr (hz fd hf)
  have tls : Steps env (Pres Clean) startTLSNegotiation := by
    have call : ∀ op, Steps env (Pres Clean) (sysTls op) := fun op => Steps.ask fun _ _ h => h.neutral trivial
    have ctx : ∀ b, Steps env (Pres Clean) (M.modify ({ · with ctx := b })) := fun b => Steps.modify fun _ h => h.client rfl
    have bio : ∀ b, Steps env (Pres Clean) (M.modify ({ · with bio := b })) := fun b => Steps.modify fun _ h => h.client rfl
    unfold startTLSNegotiation
    steps [addLog_steps, setErrNo_steps, wh_cleanup, call, ctx, bio]
  have keep : Steps env (Pres Clean) (setKeepUsingBase true) := Steps.modify fun s h => h.client rfl
  unfold establish
  rw [wp_bind]
  refine wp_mono init ?_ (fun _ _ h => h)
  intro code s1 h1
  refine Pres.use (I := Clean) ?_ h1
  unfold establishGreeted establishForced establishOpportunistic upgradeToSecureConnection
    getServerSecureIdentification sendServerIdentification
  steps [addLog_steps, checkServerGreetings_steps, wh_identify, wh_authenticateIfNeeded, wh_sendRawFb]

theorem sendMail_clean (m : Message) (s : St) (h : Clean s) (hs : Settled s) :
    wp env (sendMail m) (fun code s' => Clean s' ∧ (code = 0 → Settled s')) (fun _ _ => True) s := by
  have cw := clean_whole
  have sw := settled_whole
  unfold sendMail
  rw [wp_bind, wp_gets]
  have conn : ∀ s, Clean s → wp env (sendMailConnected m) (fun code s' => Clean s' ∧ (code = 0 → Settled s')) (fun _ _ => True) s := by
    intro s h
    refine wp_mono (wp_and (Pres.use (wh_sendMailConnected m) h) (?_ : wp env (sendMailConnected m) (fun _ => Settled) (fun _ => Settled) s))
      (fun _ _ h => ⟨h.1, fun _ => h.2⟩) (fun _ _ _ => trivial)
    unfold sendMailConnected
    rw [wp_bind, wp_modify]
    refine Pres.use (I := Settled) ?_ (.inr rfl)
    steps [wh_setMailRecipients, wh_sendMailRest]
  rw [wp_ite]
  refine ⟨fun _ => conn s h, fun hc => ?_⟩
  rw [wp_bind]
  refine wp_mono (establish_clean s h (hs.resolve_right hc)) ?_ (fun _ _ _ => trivial)
  intro code s1 h1
  rw [wp_ite]
  exact ⟨fun hn => ⟨h1, fun h0 => absurd h0 hn⟩, fun _ => conn s1 h1⟩

theorem doCall_clean (c : Call) (s : St) (h : Clean s) (hs : Settled s) :
    wp env (doCall c) (fun r s' => Clean s' ∧ ((∀ code, r = .returned code → code = 0) → Settled s')) (fun _ _ => True) s := by
  have ev : Clean (St.snoc s (.call c)) := h.neutral trivial
  unfold Model.doCall
  rw [wp_bind, wp_emit]
  cases c with
  | setServerName p =>
    dsimp only
    unfold setServerName
    cases checkName p with
    | error e => cases e <;> first | exact ⟨ev, fun _ => hs⟩ | trivial
    | ok name => exact ⟨ev.client rfl, fun _ => hs⟩
  | sendMail m =>
    dsimp only
    rw [wp_bind]
    refine wp_mono (sendMail_clean m _ ev hs) ?_ (fun _ _ _ => trivial)
    intro code s1 h1
    exact ⟨h1.1, fun hr => h1.2 (hr code rfl)⟩
  | _ => exact ⟨ev.client rfl, fun _ => hs⟩

theorem runCalls_clean (cs : List Call) (s : St) (h : Clean s) (hs : Settled s) :
    wp env (runCalls cs) (fun rs s' => (∀ code, .returned code ∈ rs → code = 0) → Clean s') (fun _ _ => True) s := by
  induction cs generalizing s with
  | nil => exact fun _ => h
  | cons c cs ih =>
    unfold runCalls
    rw [wp_bind]
    refine wp_mono (doCall_clean c s h hs) ?_ (fun _ _ _ => trivial)
    intro r s1 h1
    rw [wp_bind]
    by_cases hr : ∀ code, r = .returned code → code = 0
    · refine wp_mono (ih s1 h1.1 (h1.2 hr)) ?_ (fun _ _ _ => trivial)
      intro rs s2 h2
      exact fun hall => h2 fun code hc => hall code (by simp [hc])
    · refine wp_mono (m := runCalls cs) (Q := fun _ _ => True) (E := fun _ _ => True) (by unfold wp; split <;> trivial) ?_ (fun _ _ _ => trivial)
      intro rs s2 _
      refine fun hall => absurd (fun code hc => ?_) hr
      exact hall code (by simp [hc])

theorem closedClient_sock' (c : Client) : (closedClient c).sock = 0 := by unfold closedClient; split <;> rfl

/-- `cleanup` leaves no socket. -/
theorem cleanup_noSock (s : St) : wp env cleanup (fun _ s' => s'.client.sock = 0) (fun _ _ => True) s := by
  have close : ∀ s : St, wp env closeSession (fun _ s' => s'.client.sock = 0) (fun _ _ => True) s := by
    intro s
    unfold wp
    rw [closeSession_run]
    exact closedClient_sock' _
  unfold cleanup
  rw [wp_bind, wp_env]
  cases env.depth with
  | zero => trivial
  | succ n =>
    unfold cleanupN
    rw [wp_bind, wp_gets, wp_bind, wp_gets, wp_ite]
    refine ⟨fun _ => ?_, fun _ => close s⟩
    rw [wp_bind]
    refine wp_mono (m := sendQuitWith (cleanupN n)) (Q := fun _ _ => True) (E := fun _ _ => True) (by unfold wp; split <;> trivial) ?_ (fun _ _ _ => trivial)
    intro _ s1 _
    exact close s1

end Verif.Proofs
