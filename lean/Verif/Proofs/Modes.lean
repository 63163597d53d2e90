import Verif.Proofs.Safe
import Verif.Proofs.Sockets
import Verif.Proofs.Served
import Verif.Spec.Modes
/-!
# The mode of the sockets
-/
namespace Verif.Proofs
open Verif Verif.Model Verif.Spec

variable {env : Env} {h : Hist} {e : Ev} {fd v : Int}

/-- The event can change the mode of the socket to non-blocking or end its life. -/
def Touches (fd : Int) : Ev → Prop
  | .fcntlSet fd' true .ok => fd' = fd
  | .close fd' => fd' = fd
  | .socket (.val v) => (v : Int) = fd
  | _ => False

theorem blockingMode_snoc (hb : BlockingMode fd h) (he : ¬ Touches fd e) : BlockingMode fd (h ++ [e]) := by
  obtain ⟨x, e', y, rfl, h1, h2⟩ := hb
  refine ⟨x, e', y ++ [e], by simp, h1, ?_⟩
  rw [List.mem_append, List.mem_singleton]
  rintro (h | rfl)
  · exact h2 h
  · exact he rfl

theorem modeRefused_snoc (hb : ModeRefused fd h) (he : ¬ Touches fd e) : ModeRefused fd (h ++ [e]) := by
  obtain ⟨x, e', y, rfl, h1, h2⟩ := hb
  refine ⟨x, e', y ++ [e], by simp, h1, fun v hv => ?_⟩
  rw [List.mem_append, List.mem_singleton]
  rintro (h | rfl)
  · exact h2 v hv h
  · exact he hv

theorem nonBlockingMode_snoc (hb : NonBlockingMode fd h) (he : ¬ MakesBlocking fd e) : NonBlockingMode fd (h ++ [e]) := by
  obtain ⟨x, y, rfl, h2⟩ := hb
  refine ⟨x, y ++ [e], by simp, fun e' hm => ?_⟩
  rcases List.mem_append.mp hm with hm | hm
  · exact h2 e' hm
  · rw [List.mem_singleton] at hm
    exact hm ▸ he

theorem justOpened_snoc (hb : JustOpened fd h) (he : ∀ k c d r, e ≠ .send k c d r) : JustOpened fd (h ++ [e]) := by
  obtain ⟨x, v, y, rfl, h1, h2⟩ := hb
  refine ⟨x, v, y ++ [e], by simp, h1, fun k c d r => ?_⟩
  rw [List.mem_append, List.mem_singleton]
  rintro (h | h)
  · exact h2 k c d r h
  · exact he k c d r h.symm

/-- The descriptor is 0, or an open socket whose mode is right. -/
def InMode (fd : Int) (h : Hist) : Prop := fd = 0 ∨ ((BlockingMode fd h ∨ ModeRefused fd h) ∧ fd ∈ openSockets h)

theorem open_snoc (hm : fd ∈ openSockets h) (he : ¬ Touches fd e) : fd ∈ openSockets (h ++ [e]) := by
  rw [openSockets_snoc]
  unfold socketStep
  split
  · exact List.mem_cons_of_mem _ hm
  · rename_i fd'
    refine List.mem_filter.mpr ⟨hm, ?_⟩
    have : fd' ≠ fd := he
    simpa using fun h => this h.symm
  · exact hm

theorem InMode.snoc (hr : InMode fd h) (he : ¬ Touches fd e) : InMode fd (h ++ [e]) := by
  rcases hr with h | ⟨h | h, ho⟩
  · exact .inl h
  · exact .inr ⟨.inl (blockingMode_snoc h he), open_snoc ho he⟩
  · exact .inr ⟨.inr (modeRefused_snoc h he), open_snoc ho he⟩

theorem InMode.mode (hr : InMode fd h) : fd = 0 ∨ BlockingMode fd h ∨ ModeRefused fd h := by
  rcases hr with h | ⟨h, -⟩
  · exact .inl h
  · exact .inr h

/-- Everything so far was in the right mode. -/
def ModesOk (h : Hist) : Prop := ∀ pre e post, h = pre ++ e :: post → ModeOk pre e

theorem ModesOk.snoc (hm : ModesOk h) (he : ModeOk h e) : ModesOk (h ++ [e]) := by
  intro pre e' post heq
  rcases snoc_split heq with ⟨rfl, rfl, -⟩ | ⟨b, hb, -⟩
  · exact he
  · exact hm pre e' b hb

/-- What holds while a connection is used. -/
structure Moded (s : St) : Prop where
  ok : ModesOk s.hist
  sock : InMode s.client.sock s.hist
  bio : ∀ b, s.client.bio = some b → InMode b.fd s.hist
  plain : s.client.kind = .smtp → s.client.bio = none

/-- The same without the socket. -/
structure Unmoded (s : St) : Prop where
  ok : ModesOk s.hist
  sock : s.client.isConnected = true → InMode s.client.sock s.hist
  bio : ∀ b, s.client.bio = some b → InMode b.fd s.hist
  plain : s.client.kind = .smtp → s.client.bio = none

theorem Moded.rest {s : St} (h : Moded s) : Unmoded s := ⟨h.ok, fun _ => h.sock, h.bio, h.plain⟩

theorem Moded.event {s : St} (h : Moded s) (he : ModeOk s.hist e) (ht : ∀ fd, ¬ Touches fd e) : Moded (St.snoc s e) :=
  ⟨h.ok.snoc he, h.sock.snoc (ht _), fun b hb => (h.bio b hb).snoc (ht _), h.plain⟩

/-- While the mode of the socket `v` is being changed. `own`: the TLS connection, if any, can be on this socket. -/
structure Changing (own : Prop) (v : Int) (s : St) : Prop where
  ok : ModesOk s.hist
  sock : s.client.sock = v
  opened : v = 0 ∨ v ∈ openSockets s.hist
  bio : ∀ b, s.client.bio = some b → (own ∧ b.fd = v) ∨ (b.fd = 0 ∨ b.fd ≠ v) ∧ InMode b.fd s.hist
  plain : s.client.kind = .smtp → s.client.bio = none

theorem Changing.client {own : Prop} {s : St} (h : Changing own v s) {c : Client} {m : List SessionOp} (hc : SameConn s.client c) :
    Changing own v { s with client := c, mem := m } := by
  unfold SameConn at hc
  rw [hc]
  exact ⟨h.ok, h.sock, h.opened, h.bio, h.plain⟩

theorem InMode.zero (h0 : fd = 0) : InMode fd h := .inl h0

theorem Changing.event {own : Prop} {s : St} (h : Changing own v s) (he : ModeOk s.hist e) (ht : ∀ fd, fd ≠ v → ¬ Touches fd e)
    (ho : NeutralEv e) : Changing own v (St.snoc s e) := by
  refine ⟨h.ok.snoc he, h.sock, ?_, fun b hb => ?_, h.plain⟩
  · show _ ∨ v ∈ openSockets (s.hist ++ [e])
    rw [openSockets_neutral ho]
    exact h.opened
  · rcases h.bio b hb with h1 | ⟨h0 | h1, h2⟩
    · exact .inl h1
    · exact .inr ⟨.inl h0, .zero h0⟩
    · exact .inr ⟨.inr h1, h2.snoc (ht _ h1)⟩

/-- When the mode is right again. -/
theorem Changing.done {own : Prop} {s : St} (h : Changing own v s) (hm : BlockingMode v s.hist ∨ ModeRefused v s.hist) : Moded s := by
  have hv : InMode v s.hist := by
    rcases h.opened with h | h
    · exact .inl h
    · exact .inr ⟨hm, h⟩
  refine ⟨h.ok, h.sock ▸ hv, fun b hb => ?_, h.plain⟩
  rcases h.bio b hb with ⟨-, h1⟩ | ⟨-, h1⟩
  · exact h1 ▸ hv
  · exact h1

theorem Moded.change {s : St} (h : Moded s) : Changing True s.client.sock s := by
  refine ⟨h.ok, rfl, ?_, fun b hb => ?_, h.plain⟩
  · rcases h.sock with h | h
    · exact .inl h
    · exact .inr h.2
  · by_cases hb' : b.fd = s.client.sock
    · exact .inl ⟨trivial, hb'⟩
    · exact .inr ⟨.inr hb', h.bio b hb⟩

/-! ### `fcntl` -/

/-- Kept by logging. -/
structure Notes (P : St → Prop) : Prop where
  client : ∀ s c m, SameConn s.client c → P s → P { s with client := c, mem := m }

theorem Notes.addLog {P : St → Prop} (hP : Notes P) (i p : Bytes) (s : St) (hs : P s) : wp env (addLog i p) (fun _ => P) (fun _ => P) s := by
  refine wp_mono (addLog_keeps i p s) ?_ (fun _ _ h => h ▸ hs)
  rintro _ s' ⟨l, e⟩
  rw [e]
  exact hP.client s _ _ rfl hs

theorem Notes.logErrno {P : St → Prop} (hP : Notes P) (n : Int) (s : St) (hs : P s) : wp env (logErrno n) (fun _ => P) (fun _ => P) s := by
  unfold Verif.Model.logErrno setErrNo
  rw [wp_bind, wp_modify, wp_bind, wp_env]
  exact hP.addLog _ _ _ (hP.client s { s.client with lastErrNo := n } s.mem rfl hs)

theorem Notes.and {P Q : St → Prop} (hP : Notes P) (hQ : Notes Q) : Notes (fun s => P s ∧ Q s) :=
  ⟨fun s c m hc h => ⟨hP.client s c m hc h.1, hQ.client s c m hc h.2⟩⟩

theorem notes_changing {own : Prop} : Notes (Changing own v) := ⟨fun _ _ _ hc h => h.client hc⟩

/-- Facts about the history alone. -/
theorem notes_hist (P : Hist → Prop) : Notes (fun s => P s.hist) := ⟨fun _ _ _ _ h => h⟩

/-- What a fact about the history that concerns one socket survives while its mode is changed. -/
structure Calm (v : Int) (P : Hist → Prop) : Prop where
  get : ∀ h r, P h → P (h ++ [.fcntlGet v r])
  set : ∀ h b r, P h → P (h ++ [.fcntlSet v b r])

theorem setNonBlocking_mode {own : Prop} {P : Hist → Prop} (hP : Calm v P) (s : St) (hs : Changing own v s) (hp : P s.hist) :
    wp env setNonBlocking (fun _ s' => (Changing own v s' ∧ P s'.hist) ∧ (NonBlockingMode v s'.hist ∨ ModeRefused v s'.hist))
      (fun _ s' => Changing own v s' ∧ P s'.hist) s := by
  unfold setNonBlocking logIfErr sysFcntlGet sysFcntlSet
  rw [wp_bind, wp_gets, hs.sock, wp_bind, wp_ask, wp_bind]
  have nt : Notes (fun s => Changing own v s ∧ P s.hist) := notes_changing.and (notes_hist P)
  have h1 : ∀ r, Changing own v (St.snoc s (.fcntlGet v r)) ∧ P (St.snoc s (.fcntlGet v r)).hist :=
    fun r => ⟨hs.event trivial (fun _ _ => id) trivial, hP.get _ _ hp⟩
  have rest : ∀ s1, Changing own v s1 ∧ P s1.hist →
      wp env (do
        match ← M.ask (fun e h => e.fcntlSet h v true) (Ev.fcntlSet v true) with
        | .err e => do Verif.Model.logErrno e; pure (-8)
        | .ok => pure (0 : Int)) (fun _ s' => (Changing own v s' ∧ P s'.hist) ∧ (NonBlockingMode v s'.hist ∨ ModeRefused v s'.hist))
      (fun _ s' => Changing own v s' ∧ P s'.hist) s1 := by
    intro s1 hs1
    rw [wp_bind, wp_ask]
    have h2 : ∀ r, Changing own v (St.snoc s1 (.fcntlSet v true r)) ∧ P (St.snoc s1 (.fcntlSet v true r)).hist := fun r => by
      refine ⟨hs1.1.event trivial (fun fd hfd ht => ?_) trivial, hP.set _ _ _ hs1.2⟩
      cases r with
      | ok => exact hfd ht.symm
      | err n => exact ht
    generalize env.fcntlSet s1.hist v true = r
    cases r with
    | ok => exact ⟨h2 _, .inl ⟨s1.hist, [], rfl, by simp⟩⟩
    | err n =>
      dsimp only
      rw [wp_bind]
      refine wp_mono ((nt.and (notes_hist (fun h => NonBlockingMode v h ∨ ModeRefused v h))).logErrno n _ ⟨h2 (.err n), .inr ⟨s1.hist, _, [], rfl, rfl, by simp⟩⟩) ?_ ?_
      · exact fun _ _ h => h
      · exact fun _ _ h => h.1
  split
  · exact wp_mono (nt.logErrno _ _ (h1 _)) (fun _ s1 h => rest s1 h) (fun _ _ h => h)
  · exact rest _ (h1 _)

theorem setBlocking_mode {own : Prop} {P : Hist → Prop} (hP : Calm v P) (s : St) (hs : Changing own v s) (hp : P s.hist) :
    wp env setBlocking (fun code s' => (Changing own v s' ∧ P s'.hist) ∧ (BlockingMode v s'.hist ∨ ModeRefused v s'.hist) ∧ (code = 0 → BlockingMode v s'.hist))
      (fun _ s' => Changing own v s' ∧ P s'.hist) s := by
  unfold setBlocking sysFcntlGet sysFcntlSet
  rw [wp_bind, wp_gets, hs.sock, wp_bind, wp_ask]
  have nt : Notes (fun s => Changing own v s ∧ P s.hist) := notes_changing.and (notes_hist P)
  have h1 : ∀ r, Changing own v (St.snoc s (.fcntlGet v r)) ∧ P (St.snoc s (.fcntlGet v r)).hist :=
    fun r => ⟨hs.event trivial (fun _ _ => id) trivial, hP.get _ _ hp⟩
  have err : ∀ (n code : Int) s1, code ≠ 0 → (Changing own v s1 ∧ P s1.hist) → ModeRefused v s1.hist →
      wp env (do Verif.Model.logErrno n; pure code)
        (fun code s' => (Changing own v s' ∧ P s'.hist) ∧ (BlockingMode v s'.hist ∨ ModeRefused v s'.hist) ∧ (code = 0 → BlockingMode v s'.hist))
        (fun _ s' => Changing own v s' ∧ P s'.hist) s1 := by
    intro n code s1 hc h1 h2
    rw [wp_bind]
    refine wp_mono ((nt.and (notes_hist (ModeRefused v))).logErrno n _ ⟨h1, h2⟩) ?_ (fun _ _ h => h.1)
    exact fun _ s' h => ⟨h.1, .inr h.2, fun h0 => absurd h0 hc⟩
  generalize env.fcntlGet s.hist v = r
  cases r with
  | err n => exact err n (-7) _ (by decide) (h1 _) ⟨s.hist, _, [], rfl, rfl, by simp⟩
  | ok =>
    dsimp only
    rw [wp_bind, wp_ask]
    have h2 : ∀ r, Changing own v (St.snoc (St.snoc s (.fcntlGet v .ok)) (.fcntlSet v false r)) ∧ P (St.snoc (St.snoc s (.fcntlGet v .ok)) (.fcntlSet v false r)).hist :=
      fun r => ⟨(h1 .ok).1.event trivial (fun _ _ => id) trivial, hP.set _ _ _ (h1 .ok).2⟩
    generalize env.fcntlSet (s.hist ++ [Ev.fcntlGet v .ok]) v false = r
    cases r with
    | err n => exact err n (-8) _ (by decide) (h2 _) ⟨s.hist ++ [.fcntlGet v .ok], .fcntlSet v false (.err n), [], rfl, rfl, by simp⟩
    | ok =>
      have : BlockingMode v (s.hist ++ [.fcntlGet v .ok] ++ [.fcntlSet v false .ok]) := ⟨_, _, [], rfl, rfl, by simp⟩
      exact ⟨h2 .ok, .inl this, fun _ => this⟩

/-! ### The reply -/

/-- While a reply in clear is read. -/
structure Awaits (v : Int) (s : St) : Prop where
  change : Changing True v s
  mode : NonBlockingMode v s.hist ∨ ModeRefused v s.hist

theorem Awaits.event {s : St} (h : Awaits v s) (he : ModeOk s.hist e) (ht : ∀ fd, ¬ Touches fd e) (hb : ¬ MakesBlocking v e) (ho : NeutralEv e) : Awaits v (St.snoc s e) :=
  ⟨h.change.event he (fun fd _ => ht fd) ho, by
    rcases h.mode with h | h
    · exact .inl (nonBlockingMode_snoc h hb)
    · exact .inr (modeRefused_snoc h (ht v))⟩

theorem rawReplyLoop_mode (n w a g) (s : St) (hs : Awaits v s) : wp env (rawReplyLoop n w a g) (fun _ => Awaits v) (fun _ => Awaits v) s := by
  induction n generalizing w a g s with
  | zero => exact hs
  | succ n ih =>
    unfold rawReplyLoop sysRecv
    rw [wp_bind, wp_gets, hs.change.sock, wp_bind, wp_gets, wp_bind, wp_bind, wp_ask, wp_ite]
    have h1 : ∀ r, Awaits v (St.snoc s (.recv (.raw v) r)) := fun r =>
      hs.event (hs.mode.elim .inl fun h => .inr (.inl h)) (fun _ => id) id trivial
    have go : ∀ r s1, Awaits v s1 → wp env (if r = RecvRes.err ∧ g = true then pure (w, a, g) else do
        sysSleep
        if w + 1 < s.client.timeout then rawReplyLoop n (w + 1) a g else pure (w + 1, a, g)) (fun _ => Awaits v) (fun _ => Awaits v) s1 := by
      intro r s1 hs1
      rw [wp_ite]
      refine ⟨fun _ => hs1, fun _ => ?_⟩
      unfold sysSleep
      rw [wp_bind, wp_emit, wp_ite]
      have h2 : Awaits v (St.snoc s1 .sleep) := hs1.event trivial (fun _ => id) id trivial
      exact ⟨fun _ => ih _ _ _ _ h2, fun _ => h2⟩
    refine ⟨fun _ => h1 _, fun _ => ?_⟩
    rw [wp_pure]
    generalize normRecv (nonblocking (Chan.raw v).fd s.hist) (env.recv s.hist (Chan.raw v)) = r
    cases r with
    | data d =>
      dsimp only
      rw [wp_ite, wp_ite]
      exact ⟨fun _ => h1 _, fun _ => ⟨fun _ => ih _ _ _ _ (h1 _), fun _ => h1 _⟩⟩
    | eof => exact go _ _ (h1 _)
    | err => exact go _ _ (h1 _)
    | never => exact go _ _ (h1 _)

theorem notes_moded : Notes Moded := ⟨fun s c m hc h => by
  unfold SameConn at hc
  rw [hc]
  exact ⟨h.ok, h.sock, h.bio, h.plain⟩⟩

theorem calm_true : Calm v (fun _ => True) := ⟨fun _ _ _ => trivial, fun _ _ _ _ => trivial⟩

theorem getRawReply_mode : Safe env Moded (fun s => ModesOk s.hist) getRawReply := by
  constructor
  intro s hs
  unfold getRawReply
  rw [wp_bind]
  refine wp_mono (setNonBlocking_mode calm_true s hs.change trivial) (fun _ s1 h1 => ?_) (fun _ _ h => h.1.ok)
  rw [wp_bind, wp_env, wp_bind]
  refine wp_mono (rawReplyLoop_mode _ _ _ _ s1 ⟨h1.1.1, h1.2⟩) (fun r s2 h2 => ?_) (fun _ _ h => h.change.ok)
  obtain ⟨w, a, g⟩ := r
  dsimp only
  rw [wp_bind]
  refine wp_mono (setBlocking_mode calm_true s2 h2.change trivial) (fun _ s3 h3 => ?_) (fun _ _ h => h.1.ok)
  have h4 : Moded s3 := h3.1.1.done h3.2.1
  rw [wp_bind, wp_gets, wp_ite]
  refine ⟨fun _ => ?_, fun _ => h4⟩
  unfold setLastServerResponse
  rw [wp_bind, wp_modifyMem, wp_bind]
  exact wp_mono (notes_moded.addLog _ _ _ (notes_moded.client s3 { s3.client with lastResponse := some (cstr a) } _ rfl h4)) (fun _ _ h => h) (fun _ _ h => h.ok)

theorem modesOk_close {s : St} (h : ModesOk s.hist) : ModesOk (s.hist ++ closingEvs s.client) := by
  have : ∀ (evs : List Ev) (h : Hist), ModesOk h → (∀ e ∈ evs, ∀ h, ModeOk h e) → ModesOk (h ++ evs) := by
    intro evs
    induction evs with
    | nil => intro h hm _; simpa using hm
    | cons e evs ih =>
      intro h hm he
      have := ih (h ++ [e]) (hm.snoc (he e (by simp) h)) (fun e' he' => he e' (by simp [he']))
      simpa using this
  refine this _ _ h fun e he h => ?_
  unfold closingEvs at he
  rcases List.mem_append.mp he with he | he
  · split at he
    · simp at he
    · split at he
      · rw [List.mem_singleton] at he; rw [he]; trivial
      · simp at he
  · split at he
    · rw [List.mem_singleton] at he; rw [he]; trivial
    · simp at he

instance safe_moded : SafeInv Moded (fun s => ModesOk s.hist) where
  weak := fun _ h => h.ok
  client := notes_moded.client
  sleep := fun s h => h.event trivial (fun _ => id)
  readFile := fun s n r h => h.event trivial (fun _ => id)
  rawReply := fun _ => getRawReply_mode
  recvTls := fun s b r hb h => h.event (h.bio b hb).mode (fun _ => id)
  sendRaw := fun s k d r h => h.event h.sock.mode (fun _ => id)
  sendTls := fun s b k d r hb h => h.event (h.bio b hb).mode (fun _ => id)
  closed := fun s h =>
    ⟨modesOk_close h.ok, .inl (closedClient_sock _),
      fun b hb => by
        have hb : (closedClient s.client).bio = some b := hb
        rw [closedClient_bio' _ h.plain] at hb; exact absurd hb (by simp),
      fun _ => closedClient_bio' _ h.plain⟩
  connected := fun s h => ⟨h.ok, h.sock, h.bio, h.plain⟩

end Verif.Proofs
