import Verif.Proofs.BesideSession
/-!
# A client on Windows beside a client on POSIX
-/
namespace Verif.Proofs
open Verif Verif.Model Verif.Spec

variable {e : Env} {w : WinCalls} {α β : Type} {s s' : St} {N : Nat → Nat → Prop} {k : Prop}

/-- The two programs keep the relation and give results that mean the same. -/
structure SimC (e : Env) (R : St → St → Prop) (m m' : M Int) : Prop where
  run : ∀ s s', R s s' → both e m m' (fun a b t t' => SameCode a b ∧ R t t') Parted s s'

theorem Sim.code {R : St → St → Prop} {m m' : M Int} (h : Sim e R m m') : SimC e R m m' :=
  ⟨fun s s' hr => both_mono (h.run s s' hr) (fun _ _ _ _ q => ⟨.inl q.1, q.2⟩) fun _ _ q => q⟩

theorem sameCode_zero {x y : Int} (h : SameCode x y) : (x ≠ 0) ↔ (y ≠ 0) := by unfold SameCode at h; omega

theorem SimC.after {R : St → St → Prop} {m m' : M α} {f f' : α → M Int} (hm : Sim e R m m') (hf : ∀ a, SimC e R (f a) (f' a)) : SimC e R (m >>= f) (m' >>= f') := ⟨fun s s' h =>
  both_bind (both_mono (hm.run s s' h) (fun a b t t' q => by obtain ⟨rfl, q⟩ := q; exact (hf a).run t t' q) fun _ _ h => h)⟩

theorem guard_both {R R' : Int → St → St → Prop} {m m' rest rest' : M Int} (hm : both e m m' (fun a b t t' => SameCode a b ∧ R a t t') Parted s s')
    (hp : ∀ a t t', a ≠ 0 → R a t t' → R' a t t')
    (hr : ∀ t t', R 0 t t' → both e rest rest' (fun a b t t' => SameCode a b ∧ R' a t t') Parted t t') :
    both e (do let code ← m; if code ≠ 0 then pure code else rest) (do let code ← m'; if code ≠ 0 then pure code else rest') (fun a b t t' => SameCode a b ∧ R' a t t') Parted s s' := by
  refine both_bind (both_mono hm (fun a b t t' q => ?_) fun _ _ q => q)
  by_cases ha : a = 0
  · have hb : b = 0 := by have := sameCode_zero q.1; omega
    subst ha hb
    rw [if_neg (by simp), if_neg (by simp)]
    exact hr t t' q.2
  · rw [if_pos ha, if_pos ((sameCode_zero q.1).mp ha)]
    exact ⟨q.1, hp a t t' ha q.2⟩

theorem SimC.guard {R : St → St → Prop} {m m' rest rest' : M Int} (hm : SimC e R m m') (hr : SimC e R rest rest') :
    SimC e R (do let code ← m; if code ≠ 0 then pure code else rest) (do let code ← m'; if code ≠ 0 then pure code else rest') :=
  ⟨fun s s' h => guard_both (R := fun _ => R) (R' := fun _ => R) (hm.run s s' h) (fun _ _ _ _ q => q) fun t t' h => hr.run t t' h⟩

theorem SimC.ite {R : St → St → Prop} {c : Prop} [Decidable c] {m n m' n' : M Int} (hm : SimC e R m m') (hn : SimC e R n n') :
    SimC e R (if c then m else n) (if c then m' else n') := by
  split
  · exact hm
  · exact hn

theorem Beside.fewer {N' : Nat → Nat → Prop} (h : Beside N k s s') (hn : ∀ i i', N' i i' → N i i') : Beside N' k s s' := { h with nums := fun i i' hi => h.nums i i' (hn i i' hi) }

/-! ### TLS -/

theorem sysTls_sim (o : TlsOp) (ho : ∀ t : Relay, t.op o = o) : Sim e (Beside N k) (sysTls o) (sysTls o) :=
  ⟨fun s s' h => by have := sysTls_both (e := e) o h; rw [ho] at this; exact this⟩

theorem sysTls_num (o : Nat → TlsOp) (ho : ∀ (t : Relay) i, t.op (o i) = o (t.id i)) {i i' : Nat} (hn : N i i') : Sim e (Beside N k) (sysTls (o i)) (sysTls (o i')) :=
  ⟨fun s s' h => by have := sysTls_both (e := e) (o i') h; rw [ho, (h.nums i i' hn).2] at this; exact this⟩

/-- Code of Windows that gives a value. -/
theorem both_asks {f : Hist → α} {g : α → M β} {m' : M β} {Q : β → β → St → St → Prop} {E : St → St → Prop}
    (h : both e (g (f s.hist)) m' Q E s s') : both e ((M.ask' fun _ h => f h) >>= g) m' Q E s s' := h

theorem negotiate_sim (hk : k) : SimC e (Beside N k) ((windows w).tls (Gen.cleanup (windows w))) (posix.tls (Gen.cleanup posix)) := by
  show SimC e _ (winNegotiate w (Gen.cleanup (windows w))) startTLSNegotiation
  unfold winNegotiate startTLSNegotiation
  rw [← gen_cleanup]
  refine SimC.after (addLog_sim hk _ _) fun _ => SimC.after (sysTls_sim .ctxNew fun _ => rfl) fun x => SimC.ite (Sim.code ?_) ?_
  · sim [setCtx_sim, tlsErr_sim, setErrNo_sim]
  refine SimC.after (setCtx_sim true) fun _ => ⟨fun s s' h => both_bind ?_⟩
  rw [both_histLength]
  refine both_bind ?_
  show both e (M.ask _ _) (M.ask _ _) _ _ s s'
  rw [both_ask]
  have hx : e.tls s.hist .bioNew = (asPosix e).tls s'.hist .bioNew := by show _ = e.tls _ _; rw [h.hist.1]; rfl
  rw [← hx]
  have h1 : Beside (fun i i' => N i i' ∨ (i = s.hist.length ∧ i' = s'.hist.length)) k { s with hist := s.hist ++ [.tls .bioNew (e.tls s.hist .bioNew)] }
      { s' with hist := s'.hist ++ [.tls .bioNew (e.tls s.hist .bioNew)] } := by
    have h1 := h.event (.tls .bioNew (e.tls s.hist .bioNew)) trivial
    refine { h1 with nums := ?_ }
    rintro i i' (hi | ⟨rfl, rfl⟩)
    · exact h1.nums i i' hi
    · have := relayed_next s'.hist (.tls .bioNew (e.tls s.hist .bioNew))
      rw [h.hist.1] at this
      exact this
  have hn : ∃ i i', (i = s.hist.length ∧ i' = s'.hist.length) := ⟨_, _, rfl, rfl⟩
  generalize s.hist.length = i at h1 hn ⊢
  generalize s'.hist.length = i' at h1 hn ⊢
  refine both_mono (Q := fun a b t t' => SameCode a b ∧ Beside (fun j j' => N j j' ∨ (j = i ∧ j' = i')) k t t') (SimC.run ?_ _ _ h1) (fun _ _ _ _ q => ⟨q.1, q.2.fewer fun _ _ => .inl⟩) fun _ _ q => q
  generalize e.tls s.hist .bioNew = v
  obtain ⟨N', hM⟩ : ∃ N' : Nat → Nat → Prop, N' = fun j j' => N j j' ∨ (j = i ∧ j' = i') := ⟨_, rfl⟩
  have hN : N' i i' := by rw [hM]; exact .inr ⟨rfl, rfl⟩
  rw [← hM]
  refine SimC.ite (Sim.code (by sim [noBio_sim])) ?_
  refine SimC.after (sock_sim hk) fun sock => ?_
  have hset : Sim e (Beside N' k) (M.modify ({ · with bio := some { id := i, fd := sock } })) (M.modify ({ · with bio := some { id := i', fd := sock } })) :=
    ⟨fun s s' h => ⟨rfl, { h with same := { h.same with }, bio := .inr ⟨i, i', sock, rfl, rfl, h.nums i i' hN⟩ }⟩⟩
  refine SimC.after hset fun _ => SimC.after name_sim fun name => ?_
  cases name with
  | none => exact Sim.code Sim.stop
  | some name =>
  refine SimC.after port_sim fun port => SimC.ite (Sim.code Sim.stop) ?_
  refine SimC.after (sysTls_sim .verifyPaths fun _ => rfl) fun x => SimC.ite ?_ (Sim.code ?_)
  · exact ⟨fun s s' h => both_asks ⟨.inr (.inr ⟨rfl, rfl⟩), { h with same := { h.same with } }⟩⟩
  · sim [sysTls_num .connect (fun _ _ => rfl) hN, sysTls_num .handshake (fun _ _ => rfl) hN, sysTls_num .peerCert (fun _ _ => rfl) hN, sysTls_num .verifyResult (fun _ _ => rfl) hN,
      cleanup_sim hk, tlsErr_sim, setErrNo_sim, addLog_sim hk, accept_sim, x509Text_sim]

/-! ### Opening -/

theorem run_bind {m : M α} {f : α → M β} {env : Env} {a : α} {t : St} (h : m env s = (.ok a, t)) : (m >>= f) env s = f a env t := by
  show M.bind m f env s = _
  unfold M.bind
  rw [h]

theorem both_runs {m m' : M α} {Q : α → α → St → St → Prop} {E : St → St → Prop} {a b : α} {t t' : St} (h : m e s = (.ok a, t)) (h' : m' (asPosix e) s' = (.ok b, t')) (hq : Q a b t t') :
    both e m m' Q E s s' := by
  unfold both
  rw [h, h']
  exact hq

theorem addLogs_ok (env : Env) (ts : List Bytes) (h : Logging s) :
    ∃ l m, LogOk l ∧ addLogs ts env s = (.ok (), { s with client := { s.client with log := some l }, mem := m }) := by
  induction ts generalizing s with
  | nil =>
    obtain ⟨l, h1, h2⟩ := h
    refine ⟨l, s.mem, h2, ?_⟩
    unfold addLogs
    rw [← h1]
    rfl
  | cons t ts ih =>
    obtain ⟨l, m, hl, h1⟩ := addLog_ok env t b!"c" h
    obtain ⟨l', m', hl', h2⟩ := ih (s := { s with client := { s.client with log := some l }, mem := m }) ⟨l, rfl, hl⟩
    refine ⟨l', m', hl', ?_⟩
    unfold addLogs
    rw [run_bind h1, h2]

theorem fcntlSet_run {fd : Int} {nb : Bool} (h : Hist) (c : Client) (m : List SessionOp) (hf : (asPosix e).fcntlSet h fd nb = .ok) :
    sysFcntlSet fd nb (asPosix e) { client := c, hist := h, mem := m } = (.ok .ok, { client := c, hist := h ++ [.fcntlSet fd nb .ok], mem := m }) := by
  show (Res.ok ((asPosix e).fcntlSet h fd nb), _) = _
  simp only [hf]

/-- The opening of POSIX in its world. -/
theorem posix_opens (name : Bytes) (fd : Nat) (hs : s.client.serverName = some name) (hsock : s.client.sock = fd) (hl : Logging s) (ho : (relayed s.hist).opening = true) :
    ∃ l m x, LogOk l ∧ (do match ← sysResolve name with
        | none => pure (-6)
        | some a =>
          if 4 < a.length then M.stop (.ub .outOfBounds)
          else do
            if (← setNonBlocking) ≠ 0 then pure 1
            else do
              addLog (b!"Trying to connect to " ++ name ++ b!" on port " ++ natDec (← M.gets (·.port)))
              connectPOSIX (sinAddr a) : M Int) (asPosix e) s =
      (.ok 0, { s with client := { s.client with log := some l }, hist := s.hist ++ x, mem := m }) ∧
      (relayed (s.hist ++ x)).out = (relayed s.hist).out ∧ (relayed (s.hist ++ x)).opening = false ∧ spoken (s.hist ++ x) = spoken s.hist ∧
      (∀ v, nonblocking v (s.hist ++ x) = if (fd : Int) = v then false else nonblocking v s.hist) ∧
      ∀ i i', (i' < s.hist.length ∧ (relayed s.hist).id i' = i) → i' < (s.hist ++ x).length ∧ (relayed (s.hist ++ x)).id i' = i := by
  obtain ⟨l, m, hl', h1⟩ := addLog_ok (asPosix e) (b!"Trying to connect to " ++ name ++ b!" on port " ++ natDec s.client.port) b!"c"
    (s := { s with hist := s.hist ++ [.resolve name (some [127, 0, 0, 1])] ++ [.fcntlGet s.client.sock .ok] ++ [.fcntlSet s.client.sock true .ok] }) hl
  have ha : ∀ h : Hist, (relayed h).opening = true → ∀ y, (∀ v r, y ≠ .fcntlSet v false r) → (relayed (h ++ [y])).opening = true ∧ (relayed (h ++ [y])).out = (relayed h).out := by
    intro h hh y hy
    rw [relayed_snoc]
    unfold Relay.step
    rw [hh]
    cases y <;> try exact ⟨hh, rfl⟩
    rename_i v b r
    cases b
    · exact (hy v r rfl).elim
    · exact ⟨hh, rfl⟩
  have a1 := ha _ ho (.resolve name (some [127, 0, 0, 1])) (fun _ _ f => nomatch f)
  have a2 := ha _ a1.1 (.fcntlGet s.client.sock .ok) (fun _ _ f => nomatch f)
  have a3 := ha _ a2.1 (.fcntlSet s.client.sock true .ok) (fun _ _ f => by cases f)
  have a4 := ha _ a3.1 (.connect s.client.sock ⟨sinAddr [127, 0, 0, 1], s.client.port % 65536⟩ .ok) (fun _ _ f => nomatch f)
  have a5 := ha _ a4.1 (.fcntlGet s.client.sock .ok) (fun _ _ f => nomatch f)
  refine ⟨l, m, [.resolve name (some [127, 0, 0, 1])] ++ [.fcntlGet s.client.sock .ok] ++ [.fcntlSet s.client.sock true .ok] ++
    [.connect s.client.sock ⟨sinAddr [127, 0, 0, 1], s.client.port % 65536⟩ .ok] ++ [.fcntlGet s.client.sock .ok] ++ [.fcntlSet s.client.sock false .ok], hl', ?_, ?_, ?_, ?_, ?_, ?_⟩
  · have hf1 : (asPosix e).fcntlSet (s.hist ++ [.resolve name (some [127, 0, 0, 1])] ++ [.fcntlGet s.client.sock .ok]) s.client.sock true = .ok := by
      show (if _ then _ else _) = _; rw [a2.1]; rfl
    have hf2 : (asPosix e).fcntlSet (s.hist ++ [.resolve name (some [127, 0, 0, 1])] ++ [.fcntlGet s.client.sock .ok] ++ [.fcntlSet s.client.sock true .ok] ++
        [.connect s.client.sock ⟨sinAddr [127, 0, 0, 1], s.client.port % 65536⟩ .ok] ++ [.fcntlGet s.client.sock .ok]) s.client.sock false = .ok := by
      show (if _ then _ else _) = _; rw [a5.1]; rfl
    have hn : setNonBlocking (asPosix e) { s with hist := s.hist ++ [.resolve name (some [127, 0, 0, 1])] } =
        (.ok 0, { s with hist := s.hist ++ [.resolve name (some [127, 0, 0, 1])] ++ [.fcntlGet s.client.sock .ok] ++ [.fcntlSet s.client.sock true .ok] }) := by
      unfold setNonBlocking
      refine (run_bind (a := s.client.sock) rfl).trans ?_
      refine (run_bind (a := SysRes.ok) rfl).trans ?_
      refine (run_bind (a := ()) rfl).trans ?_
      exact (run_bind (fcntlSet_run _ _ _ hf1)).trans rfl
    refine (run_bind (a := some [127, 0, 0, 1]) rfl).trans ?_
    dsimp only
    rw [if_neg (by decide)]
    refine (run_bind hn).trans ?_
    rw [if_neg (by decide)]
    refine (run_bind (a := s.client.port) rfl).trans ?_
    refine (run_bind h1).trans ?_
    unfold connectPOSIX
    refine (run_bind (a := s.client.sock) rfl).trans ?_
    refine (run_bind (a := s.client.port) rfl).trans ?_
    refine (run_bind (a := SysRes.ok) rfl).trans ?_
    unfold setBlocking
    refine (run_bind (a := s.client.sock) rfl).trans ?_
    refine (run_bind (a := SysRes.ok) rfl).trans ?_
    refine (run_bind (fcntlSet_run _ _ _ hf2)).trans ?_
    simp only [List.append_assoc]
    rfl
  · simp only [← List.append_assoc]
    rw [relayed_snoc]
    unfold Relay.step
    rw [a5.1]
    exact a5.2.trans (a4.2.trans (a3.2.trans (a2.2.trans a1.2)))
  · simp only [← List.append_assoc]
    rw [relayed_snoc]
    unfold Relay.step
    rw [a5.1]
    rfl
  · simp [spoken, spokenEv]
  · intro v
    simp only [← List.append_assoc, mode_snoc, hsock]
    split <;> rfl
  · intro i i' hi
    simp only [← List.append_assoc]
    exact relayed_id _ (relayed_id _ (relayed_id _ (relayed_id _ (relayed_id _ (relayed_id _ hi)))))

theorem Beside.open (h : Beside N k s s') (fd : Nat) :
    (relayed (s'.hist ++ [.socket (.val fd)])).out = s.hist ++ [.socket (.val fd)] ∧ (relayed (s'.hist ++ [.socket (.val fd)])).opening = true := by
  rw [relayed_snoc]
  unfold Relay.step
  rw [h.hist.2, ← h.hist.1]
  exact ⟨rfl, rfl⟩

theorem logging_fresh {c : Client} {h : Hist} {m : List SessionOp} : Logging { client := { c with log := some .fresh }, hist := h, mem := m } := ⟨_, rfl, logOk_fresh⟩

theorem code_same (x : WinStep) : SameCode x.code (-1) := by
  cases x
  · exact .inr (.inl ⟨.inl rfl, rfl⟩)
  · exact .inr (.inl ⟨.inr (.inl rfl), rfl⟩)
  · exact .inl rfl
  · exact .inr (.inl ⟨.inr (.inr rfl), rfl⟩)

theorem code_ne (x : WinStep) : x.code ≠ 0 := by cases x <;> decide

theorem name_both {f f' : Bytes → M α} {x : UB} {s s' : St} (hn : s.client.serverName = s'.client.serverName) (h0 : E s s') (h : ∀ n, s.client.serverName = some n → both e (f n) (f' n) Q E s s') :
    both e (match s.client.serverName with | none => M.stop (.ub x) | some n => f n) (match s'.client.serverName with | none => M.stop (.ub x) | some n => f' n) Q E s s' := by
  rw [← hn]
  cases hc : s.client.serverName with
  | none => exact ⟨rfl, h0⟩
  | some n => exact h n hc

theorem opening_both (h : Beside N k s s') (hc : s.client.isConnected = false) :
    both e (windows w).init posix.init (fun a b t t' => SameCode a b ∧ Beside N (a = 0) t t') Parted s s' := by
  show both e (winInit w) initializeSession _ _ s s'
  unfold winInit initializeSession initializePOSIX
  refine both_bind ?_
  rw [both_modifyMem]
  refine both_asks (both_asks (both_asks ?_))
  refine both_bind ?_
  show both e (M.ask _ _) (M.ask _ _) _ _ _ _
  rw [both_ask]
  have hx : (asPosix e).socket s'.hist = e.socket s.hist := by show e.socket _ = _; rw [h.hist.1]
  simp only [hx]
  cases hv : e.socket s.hist with
  | err n =>
    have h1 := h.event (.socket (.err n)) trivial
    refine both_bind ?_
    rw [both_modify]
    have hl1 : Logging { s with client := { s.client with log := some .fresh, sock := w.sock s.hist, lastErrNo := n }, hist := s.hist ++ [.socket (.err n)], mem := s.mem ++ [.freshLog] } := ⟨_, rfl, logOk_fresh⟩
    have hl2 : Logging { s' with client := { s'.client with log := some .fresh, sock := -1, lastErrNo := n }, hist := s'.hist ++ [.socket (.err n)], mem := s'.mem ++ [.freshLog] } := ⟨_, rfl, logOk_fresh⟩
    obtain ⟨l1, m1, -, r1⟩ := addLogs_ok e (w.texts s.hist) hl1
    obtain ⟨l2, m2, -, r2⟩ := addLog_ok (asPosix e) (e.errText n) b!"c" hl2
    have p2 := (run_bind (m := logErrno n) (f := fun _ => (pure (-1) : M Int)) (s := { s' with client := { s'.client with log := some .fresh, sock := -1 }, hist := s'.hist ++ [.socket (.err n)], mem := s'.mem ++ [.freshLog] }) (a := ()) ((run_bind (a := ()) rfl).trans ((run_bind (a := e.errText n) rfl).trans r2))).trans rfl
    refine both_runs (a := (w.step s.hist).code) (b := -1) ((run_bind (a := ()) rfl).trans (run_bind r1)) p2 ⟨code_same _, ?_⟩
    have hno : ∀ c : Bool, c = false → ¬ ((w.step s.hist).code = 0 ∨ c = true) := by
      intro c hc f
      rcases f with f | f
      · exact code_ne _ f
      · rw [hc] at f; cases f
    exact { h1 with same := { h1.same with }, log := fun f => (hno _ hc f).elim, sock := fun f => (hno _ hc f).elim }
  | val fd =>
    refine both_bind ?_
    rw [both_modify]
    have ho := h.open fd
    have hspoken : spoken (s.hist ++ [.socket (.val fd)]) = spoken (s'.hist ++ [.socket (.val fd)]) := by simp only [spoken_snoc, h.spoken]
    refine both_bind ?_
    rw [both_gets]
    refine name_both (E := Parted) (Q := fun a b t t' => SameCode a b ∧ Beside N (a = 0) t t') h.same.serverName hspoken fun name hn => ?_
    · skip
      have hl1 : Logging { s with client := { s.client with log := some .fresh, sock := (fd : Int) }, hist := s.hist ++ [.socket (.val fd)], mem := s.mem ++ [.freshLog] } := ⟨_, rfl, logOk_fresh⟩
      obtain ⟨l1, m1, o1, r1⟩ := addLog_ok e (b!"Trying to connect to " ++ name ++ b!" on port " ++ natDec s.client.port) b!"c" hl1
      obtain ⟨l2, m2, x, o2, r2, q1, q2, q3, q4, q5⟩ := posix_opens (e := e) name fd
        (s := { s' with client := { s'.client with log := some .fresh, sock := (fd : Int) }, hist := s'.hist ++ [.socket (.val fd)], mem := s'.mem ++ [.freshLog] })
        (h.same.serverName.symm.trans hn) rfl ⟨_, rfl, logOk_fresh⟩ ho.2
      refine both_runs (a := 0) (b := 0) ((run_bind (a := s.client.port) rfl).trans (run_bind r1)) r2 ⟨.inl rfl, ?_⟩
      refine { h with hist := ⟨q1.trans ho.1, q2⟩, spoken := hspoken.trans q3.symm, modes := fun v => ?_, nums := fun i i' hi => q5 i i' (relayed_id _ (h.nums i i' hi)), bio := ?_,
                      same := { h.same with }, log := fun _ => ⟨⟨l1, rfl, o1⟩, ⟨l2, rfl, o2⟩⟩, sock := fun _ => rfl }
      · refine Eq.trans ?_ (q4 v).symm
        show nonblocking v (s.hist ++ [_]) = if _ then _ else nonblocking v (s'.hist ++ [_])
        rw [mode_snoc, mode_snoc, h.modes v]
        dsimp only
        split <;> rfl
      · rcases h.bio with hb | ⟨i, i', f, h1, h2, h3⟩
        · exact .inl hb
        · exact .inr ⟨i, i', f, h1, h2, q5 i i' (relayed_id _ h3)⟩

/-! ### Establishing a session -/

theorem starttls_fits : Fits startTlsCmd := by show _ < _; decide

theorem secured_sim (hk : k) : Sim e (Beside N k) (do let code ← Gen.getServerSecureIdentification (windows w); if code ≠ 250 then pure code else Gen.authenticateIfNeeded (windows w))
    (do let code ← Gen.getServerSecureIdentification posix; if code ≠ 250 then pure code else Gen.authenticateIfNeeded posix) := by
  sim [secureIdent_sim hk, authenticateIfNeeded_sim hk]

theorem opportunistic_sim (hk : k) : SimC e (Beside N k) (Gen.establishOpportunistic (windows w)) (Gen.establishOpportunistic posix) := by
  unfold Gen.establishOpportunistic
  refine SimC.after response_sim fun r => ?_
  split
  · exact Sim.code Sim.stop
  · refine SimC.after (addLog_sim hk _ _) fun _ => SimC.after (m := Gen.upgradeToSecureConnection (windows w)) (m' := Gen.upgradeToSecureConnection posix) ?_ fun code => SimC.ite (Sim.code Sim.pure) ?_
    · unfold Gen.upgradeToSecureConnection
      sim [addLog_sim hk, sendRawFb_sim hk, starttls_fits]
    · exact SimC.guard (negotiate_sim hk) (Sim.code (secured_sim hk))
  · exact Sim.code (by sim [addLog_sim hk, setKeep_sim])

theorem forced_sim (hk : k) : SimC e (Beside N k) (Gen.establishForced (windows w)) (Gen.establishForced posix) := by
  unfold Gen.establishForced
  refine SimC.guard (negotiate_sim hk) (Sim.code ?_)
  sim [checkServerGreetings_sim hk, secured_sim hk]

theorem greeted_sim (hk : k) {rest rest' : M Int} (hr : SimC e (Beside N k) rest rest') : SimC e (Beside N k) (Gen.establishGreeted (windows w) rest) (Gen.establishGreeted posix rest') := by
  unfold Gen.establishGreeted Gen.sendServerIdentification
  exact SimC.after (checkServerGreetings_sim hk) fun _ => SimC.ite (Sim.code Sim.pure) (SimC.after (identify_sim hk _ _) fun _ => SimC.ite (Sim.code Sim.pure) hr)

theorem establish_both (h : Beside N k s s') (hc : s.client.isConnected = false) :
    both e (Gen.establish (windows w)) (Gen.establish posix) (fun a b t t' => SameCode a b ∧ Beside N (a = 0) t t') Parted s s' := by
  unfold Gen.establish
  refine guard_both (R := fun a => Beside N (a = 0)) (R' := fun a => Beside N (a = 0)) (opening_both h hc) (fun _ _ _ _ q => q) fun t t' h => ?_
  have h : Beside N True t t' := { h with log := fun _ => h.log (.inl rfl), sock := fun _ => h.sock (.inl rfl) }
  refine both_mono (SimC.run (R := Beside N True) ?_ _ _ h) (fun a _ t t' q => ⟨q.1, { q.2 with log := fun _ => q.2.log (.inl trivial), sock := fun _ => q.2.sock (.inl trivial) }⟩) fun _ _ q => q
  refine SimC.after kind_sim fun kd => ?_
  cases kd
  · exact greeted_sim trivial (Sim.code (authenticateIfNeeded_sim trivial))
  · exact greeted_sim trivial (opportunistic_sim trivial)
  · exact forced_sim trivial

/-! ### Sending -/

theorem mailFromLoop_sim (hk : k) : ∀ x fs, (∀ f ∈ fs, Fits f) → Sim e (Beside N k) (Gen.mailFromLoop (windows w) x fs) (Gen.mailFromLoop posix x fs)
  | _, [], _ => Sim.pure
  | _, f :: fs, hf => by
    unfold Gen.mailFromLoop
    sim [addLog_sim hk, sendPtrFb_sim hk, hf f (List.mem_cons_self ..), mailFromLoop_sim hk _ fs (fun g hg => hf g (List.mem_cons_of_mem _ hg))]

theorem addMailRecipients_sim (hk : k) : ∀ x as, (∀ a ∈ as, Fits (rcptTo a)) → Sim e (Beside N k) (Gen.addMailRecipients (windows w) x as) (Gen.addMailRecipients posix x as)
  | _, [], _ => Sim.pure
  | _, a :: as, hf => by
    unfold Gen.addMailRecipients
    sim [addLog_sim hk, sendPtrFb_sim hk, hf a (List.mem_cons_self ..), addMailRecipients_sim hk _ as (fun g hg => hf g (List.mem_cons_of_mem _ hg))]

/-- What the elements of an array are. -/
theorem arrElems_beside {x : Arr α} {f f' : List α → M β} (h : ∀ l, (x.ptr = none ∧ l = []) ∨ (∃ as, x.ptr = some as ∧ l = as.take x.count) → Sim e (Beside N k) (f l) (f' l)) :
    Sim e (Beside N k) (arrElems x >>= f) (arrElems x >>= f') := by
  refine ⟨fun s s' hr => both_bind ?_⟩
  unfold arrElems
  cases hp : x.ptr with
  | none => exact both_ite (fun _ => (h [] (.inl ⟨hp, rfl⟩)).run _ _ hr) fun _ => ⟨rfl, hr.spoken⟩
  | some l => exact both_ite (fun _ => (h _ (.inr ⟨l, hp, rfl⟩)).run _ _ hr) fun _ => ⟨rfl, hr.spoken⟩

theorem recipientsLoop_sim (hk : k) : ∀ ls : List (Arr MessageAddress), (∀ l ∈ ls, ∀ as, l.ptr = some as → ∀ a ∈ as, Fits (rcptTo a)) →
    Sim e (Beside N k) (Gen.recipientsLoop (windows w) ls) (Gen.recipientsLoop posix ls)
  | [], _ => Sim.pure
  | l :: ls, hf => by
    unfold Gen.recipientsLoop
    have ih := recipientsLoop_sim hk ls fun g hg => hf g (List.mem_cons_of_mem _ hg)
    refine Sim.ite ih (arrElems_beside fun x hx => ?_)
    have hfit : ∀ a ∈ x, Fits (rcptTo a) := by
      intro a ha
      rcases hx with ⟨-, rfl⟩ | ⟨as, h1, rfl⟩
      · cases ha
      · exact hf l (List.mem_cons_self ..) as h1 a (List.mem_of_mem_take ha)
    sim [addMailRecipients_sim hk _ _ hfit]

theorem setMailRecipients_sim (hk : k) (m : Message) (hf : MessageFits m) : Sim e (Beside N k) (Gen.setMailRecipients (windows w) m) (Gen.setMailRecipients posix m) := by
  unfold Gen.setMailRecipients
  sim [mailFromLoop_sim hk _ _ hf.sender, recipientsLoop_sim hk _ hf.recipients]

theorem addMailHeader_sim (hk : k) (f v : Bytes) (c : Int) (hf : Fits (headerLine f v)) : Sim e (Beside N k) (Gen.addMailHeader (windows w) f v c) (Gen.addMailHeader posix f v c) := by
  unfold Gen.addMailHeader
  sim [addLog_sim hk, sendPtr_sim hk]

theorem addressHeader_sim (hk : k) (f : Bytes) (x : Arr MessageAddress) (hf : ∀ as, x.ptr = some as → Fits (headerLine f (generateHeaderAddressValues (as.take x.count)))) :
    Sim e (Beside N k) (Gen.addressHeader (windows w) f x) (Gen.addressHeader posix f x) := by
  unfold Gen.addressHeader
  by_cases hc : 0 < x.count
  · rw [if_pos hc, if_pos hc]
    refine ⟨fun s s' h => ?_⟩
    cases hp : x.ptr with
    | none =>
      refine both_bind ?_
      unfold arrElems
      rw [hp]
      exact both_ite (fun f => by omega) fun _ => ⟨rfl, h.spoken⟩
    | some as =>
      refine Sim.run (arrElems_beside fun l hl => ?_) s s' h
      rcases hl with ⟨h1, -⟩ | ⟨as', h1, rfl⟩
      · rw [hp] at h1; cases h1
      · sim [addMailHeader_sim hk _ _ _ (hf as' h1)]
  · rw [if_neg hc, if_neg hc]
    exact Sim.pure

theorem data_fits : Fits dataCmd := by show _ < _; decide
theorem contentType_fits : Fits contentTypeLine := by show _ < _; decide

theorem setMailHeaders_sim (hk : k) (m : Message) (hf : MessageFits m) : Sim e (Beside N k) (Gen.setMailHeaders (windows w) m) (Gen.setMailHeaders posix m) := by
  unfold Gen.setMailHeaders
  sim [addLog_sim hk, sendPtrFb_sim hk, data_fits, addMailHeader_sim hk _ _ _ hf.fromLine, addressHeader_sim hk _ _ hf.toLine, addressHeader_sim hk _ _ hf.ccLine, sendPtr_sim hk, hf.subject, contentType_fits]

theorem base64EncodedFile_sim (x : Attachment) : Sim e (Beside N k) (base64EncodedFile x) (base64EncodedFile x) := by
  unfold base64EncodedFile
  sim [sysReadFile_sim]

theorem attachmentsLoop_sim : ∀ as, Sim e (Beside N k) (attachmentsLoop as) (attachmentsLoop as)
  | [] => Sim.pure
  | _ :: as => by
    unfold attachmentsLoop
    sim [base64EncodedFile_sim, attachmentsLoop_sim as]

theorem fullBody_sim (m : Message) : Sim e (Beside N k) (fullBody m) (fullBody m) := by
  unfold fullBody createAttachmentsText
  refine arrElems_beside fun l _ => ?_
  sim [attachmentsLoop_sim]

theorem sendPieces_sim (hk : k) : ∀ ps, (∀ p ∈ ps, Fits p) → Sim e (Beside N k) (Gen.sendPieces (windows w) ps) (Gen.sendPieces posix ps)
  | [], _ => Sim.pure
  | p :: ps, hf => by
    unfold Gen.sendPieces
    sim [sendPtr_sim hk, hf p (List.mem_cons_self ..), sendPieces_sim hk ps (fun g hg => hf g (List.mem_cons_of_mem _ hg))]

theorem pieces_fit (body : Bytes) : ∀ n i, ∀ p ∈ bodyPieces body n i, Fits p
  | 0, _, p, hp => by cases hp
  | n + 1, i, p, hp => by
    unfold bodyPieces at hp
    split at hp
    · rcases List.mem_cons.mp hp with rfl | hp
      · unfold Fits substr
        rw [List.length_take]
        split <;> omega
      · exact pieces_fit body n _ p hp
    · cases hp

theorem sendBodyText_sim (hk : k) (b : Bytes) : Sim e (Beside N k) (Gen.sendBodyText (windows w) b) (Gen.sendBodyText posix b) := by
  unfold Gen.sendBodyText
  by_cases hb : b.length > 512
  · rw [if_pos hb, if_pos hb]
    exact sendPieces_sim hk _ (pieces_fit b _ _)
  · rw [if_neg hb, if_neg hb]
    have hf : Fits b := by unfold Fits; omega
    sim [sendPtr_sim hk]

theorem end_fits : Fits endOfData := by show _ < _; decide

theorem setMailBody_sim (hk : k) (m : Message) : Sim e (Beside N k) (Gen.setMailBody (windows w) m) (Gen.setMailBody posix m) := by
  unfold Gen.setMailBody
  sim [addLog_sim hk, fullBody_sim, sendBodyText_sim hk, sendPtrFb_sim hk, end_fits, batch_sim, sendQuit_sim hk]

theorem sendMailRest_sim (hk : k) (m : Message) (hf : MessageFits m) : Sim e (Beside N k) (Gen.sendMailRest (windows w) m) (Gen.sendMailRest posix m) := by
  unfold Gen.sendMailRest
  sim [setMailHeaders_sim hk m hf, setMailBody_sim hk, batch_sim, cleanup_sim hk]

theorem sendMailConnected_sim (hk : k) (m : Message) (hf : MessageFits m) : Sim e (Beside N k) (Gen.sendMailConnected (windows w) m) (Gen.sendMailConnected posix m) := by
  unfold Gen.sendMailConnected
  sim [setConnected_sim hk, setMailRecipients_sim hk m hf, sendMailRest_sim hk m hf]

theorem connected_both (m : Message) (hf : MessageFits m) (h : Beside N True s s') :
    both e (Gen.sendMailConnected (windows w) m) (Gen.sendMailConnected posix m) (fun a b t t' => SameCode a b ∧ Beside N False t t') Parted s s' :=
  both_mono ((sendMailConnected_sim trivial m hf).run s s' h) (fun _ _ _ _ q => ⟨.inl q.1, { q.2 with log := fun _ => q.2.log (.inl trivial), sock := fun _ => q.2.sock (.inl trivial) }⟩) fun _ _ q => q

theorem sendMail_simC (m : Message) (hf : MessageFits m) : SimC e (Beside N False) (Gen.sendMail (windows w) m) (Gen.sendMail posix m) := by
  unfold Gen.sendMail
  refine ⟨fun s s' h => both_bind ?_⟩
  rw [both_gets, ← h.connected]
  refine both_ite (fun hc => ?_) fun hc => ?_
  · exact connected_both m hf { h with log := fun _ => h.log (.inr hc), sock := fun _ => h.sock (.inr hc) }
  · refine guard_both (R := fun a => Beside N (a = 0)) (R' := fun _ => Beside N False) (establish_both h (by simpa using hc)) (fun a t t' ha q => ?_) fun t t' h => ?_
    · exact { q with log := fun f => q.log (f.imp False.elim id), sock := fun f => q.sock (f.imp False.elim id) }
    · exact connected_both m hf { h with log := fun _ => h.log (.inl rfl), sock := fun _ => h.sock (.inl rfl) }

/-! ### Calls -/

theorem doCall_both (c : Call) (hf : CallFits c) (h : Beside N False s s') :
    both e (Gen.doCall (windows w) c) (Gen.doCall posix c) (fun a b t t' => SameResult a b ∧ Beside N False t t') Parted s s' := by
  unfold Gen.doCall
  refine both_bind ?_
  rw [both_emit]
  have h := h.event (.call c) trivial
  cases c with
  | setServerName p =>
    show both e (setServerName p) (setServerName p) _ _ _ _
    unfold setServerName
    cases checkName p with
    | error x => cases x
                 · exact ⟨.refl _, h⟩
                 · exact ⟨rfl, h.spoken⟩
    | ok n => exact ⟨.refl _, { h with same := { h.same with serverName := rfl } }⟩
  | setServerPort n => exact ⟨.refl _, { h with same := { h.same with port := rfl } }⟩
  | setBatchMode n => exact ⟨.refl _, { h with same := { h.same with batch := rfl } }⟩
  | setCommandTimeout n => exact ⟨.refl _, { h with same := { h.same with timeout := rfl } }⟩
  | setCredentials n => exact ⟨.refl _, { h with same := { h.same with credential := rfl }, login := fun c hc => by cases hc; exact hf }⟩
  | setKeepUsingBaseSendCommands n => exact ⟨.refl _, { h with same := { h.same with keep := rfl, ptrRaw := rfl } }⟩
  | setAcceptSelfSignedCert n => exact ⟨.refl _, { h with same := { h.same with acceptSelfSigned := rfl } }⟩
  | sendMail m => exact both_bind (both_mono ((sendMail_simC m hf).run _ _ h) (fun a b t t' q => ⟨.code q.1, q.2⟩) fun _ _ q => q)

theorem runCalls_both : ∀ (cs : List Call), (∀ c ∈ cs, CallFits c) → ∀ {s s' : St}, Beside N False s s' →
    both e (Gen.runCalls (windows w) cs) (Gen.runCalls posix cs) (fun a b t t' => SameResults a b ∧ Beside N False t t') Parted s s'
  | [], _, _, _, h => ⟨.nil, h⟩
  | c :: cs, hf, s, s', h => by
    unfold Gen.runCalls
    refine both_bind (both_mono (doCall_both c (hf c (List.mem_cons_self ..)) h) (fun a b t t' q => ?_) fun _ _ q => q)
    refine both_bind (both_mono (runCalls_both cs (fun g hg => hf g (List.mem_cons_of_mem _ hg)) q.2) (fun a' b' t t' q' => ?_) fun _ _ q => q)
    exact ⟨.cons q.1 q'.1, q'.2⟩

theorem Beside.new (kd : Kind) (name : Bytes) (port : Nat) :
    Beside (fun _ _ => False) False { client := .init kd name port, hist := [] } { client := .init kd name port, hist := [] } where
  hist := ⟨rfl, rfl⟩
  spoken := rfl
  modes := fun _ => rfl
  nums := fun _ _ f => f.elim
  bio := .inl ⟨rfl, rfl⟩
  same := ⟨rfl, rfl, rfl, rfl, rfl, rfl, rfl, rfl, rfl⟩
  connected := rfl
  response := rfl
  options := rfl
  log := fun f => f.elim False.elim fun f => by cases f
  sock := fun _ => rfl
  login := fun _ f => by cases f

end Verif.Proofs
