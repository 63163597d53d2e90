import Verif.Proofs.Whole
import Verif.Spec.Sockets
/-!
# Who owns which socket
-/
namespace Verif.Proofs
open Verif Verif.Model Verif.Spec

variable {α : Type} {env : Env}

theorem openSockets_snoc (h : Hist) (e : Ev) : openSockets (h ++ [e]) = socketStep (openSockets h) e := by
  simp [openSockets, List.foldl_append]

/-- Events that neither open nor close anything. -/
def NeutralEv : Ev → Prop
  | .socket _ => False
  | .close _ => False
  | .bioFree _ => False
  | _ => True

theorem openSockets_neutral {h : Hist} {e : Ev} (he : NeutralEv e) : openSockets (h ++ [e]) = openSockets h := by
  rw [openSockets_snoc]
  cases e <;> first | rfl | exact absurd he id

theorem openSockets_fail (h : Hist) (n : Int) : openSockets (h ++ [.socket (.err n)]) = openSockets h := openSockets_snoc _ _
theorem openSockets_val (h : Hist) (v : Nat) : openSockets (h ++ [.socket (.val v)]) = (v : Int) :: openSockets h := openSockets_snoc _ _
theorem openSockets_close (h : Hist) (fd : Int) : openSockets (h ++ [.close fd]) = (openSockets h).filter (· ≠ fd) := openSockets_snoc _ _
theorem openSockets_bioFree (h : Hist) (id : Nat) : openSockets (h ++ [.bioFree id]) = openSockets h := openSockets_snoc _ _

theorem openSockets_nonneg (h : Hist) : ∀ fd ∈ openSockets h, 0 ≤ fd := by
  have : ∀ (h : Hist) (l : List Int), (∀ fd ∈ l, 0 ≤ fd) → ∀ fd ∈ h.foldl socketStep l, 0 ≤ fd := by
    intro h
    induction h with
    | nil => intro l hl; exact hl
    | cons e h ih =>
      intro l hl
      refine ih _ ?_
      intro fd hfd
      unfold socketStep at hfd
      split at hfd
      · rcases List.mem_cons.mp hfd with h | h
        · omega
        · exact hl fd h
      · exact hl fd ((List.mem_filter.mp hfd).1)
      · exact hl fd hfd
  exact this h [] (by simp)

/-- A split of a history with one more event. -/
theorem snoc_split {h a b : Hist} {e x : Ev} (he : h ++ [e] = a ++ x :: b) : (h = a ∧ e = x ∧ b = []) ∨ ∃ b', h = a ++ x :: b' ∧ b = b' ++ [e] := by
  rcases List.eq_nil_or_concat b with hb | ⟨b', y, hb⟩
  · subst hb
    obtain ⟨h1, h2⟩ := List.append_inj' he rfl
    injection h2 with h2
    exact .inl ⟨h1, h2, rfl⟩
  · rw [List.concat_eq_append] at hb
    subst hb
    have he' : h ++ [e] = (a ++ x :: b') ++ [y] := by rw [he]; simp
    obtain ⟨h1, h2⟩ := List.append_inj' he' rfl
    injection h2 with h2
    exact .inr ⟨b', h1, by rw [h2]⟩

theorem closesOpen_snoc {h : Hist} {e : Ev} (hc : ClosesOpen h) (he : ∀ fd, e = .close fd → fd ∈ openSockets h ∨ fd = -1) : ClosesOpen (h ++ [e]) := by
  intro a b fd heq
  rcases snoc_split heq with ⟨h1, h2, _⟩ | ⟨b', h1, _⟩
  · rw [← h1]; exact he fd h2
  · exact hc a b' fd h1

theorem freesOnce_snoc {h : Hist} {e : Ev} (hc : FreesOnce h) (he : ∀ id, e = .bioFree id → .bioFree id ∉ h ∧ id < h.length) : FreesOnce (h ++ [e]) := by
  intro a b id heq
  rcases snoc_split heq with ⟨h1, h2, _⟩ | ⟨b', h1, _⟩
  · rw [← h1]; exact he id h2
  · exact hc a b' id h1

theorem freed_bound {h : Hist} (hf : FreesOnce h) {id : Nat} (hi : .bioFree id ∈ h) : id < h.length := by
  obtain ⟨a, b, rfl⟩ := List.append_of_mem hi
  have := (hf a b id rfl).2
  simp
  omega

/-- Openings and closings are balanced. -/
def Booked (h : Hist) : Prop := ∀ fd, 0 ≤ fd → timesOpened fd h = timesClosed fd h + if fd ∈ openSockets h then 1 else 0

/-- What holds for a client in a world where others own the sockets `F` and the TLS connections `G`. -/
structure Mine (F : Int → Prop) (G : Nat → Prop) (s : St) : Prop where
  own : s.client.sock ≠ 0 → s.client.sock ∈ openSockets s.hist ∨ s.client.sock = -1
  closes : ClosesOpen s.hist
  others : ∀ fd, F fd → fd ∈ openSockets s.hist ∧ fd ≠ s.client.sock
  bio : ∀ b, s.client.bio = some b → b.id < s.hist.length ∧ .bioFree b.id ∉ s.hist
  frees : FreesOnce s.hist
  bios : ∀ id, G id → id < s.hist.length ∧ .bioFree id ∉ s.hist ∧ ∀ b, s.client.bio = some b → b.id ≠ id
  books : Booked s.hist

theorem timesOpened_snoc (fd : Int) (h : Hist) (e : Ev) : timesOpened fd (h ++ [e]) = timesOpened fd h + if opensIt fd e then 1 else 0 := by
  unfold timesOpened
  rw [List.countP_append, List.countP_singleton]
theorem timesClosed_snoc (fd : Int) (h : Hist) (e : Ev) : timesClosed fd (h ++ [e]) = timesClosed fd h + if closesIt fd e then 1 else 0 := by
  unfold timesClosed
  rw [List.countP_append, List.countP_singleton]

theorem booked_neutral {h : Hist} {e : Ev} (hb : Booked h) (he : NeutralEv e ∨ (∃ n, e = .socket (.err n)) ∨ ∃ id, e = .bioFree id) : Booked (h ++ [e]) := by
  intro fd hfd
  have h1 : openSockets (h ++ [e]) = openSockets h := by
    rcases he with he | ⟨n, rfl⟩ | ⟨id, rfl⟩
    · exact openSockets_neutral he
    · exact openSockets_fail h n
    · exact openSockets_bioFree h id
  have h2 : opensIt fd e = false ∧ closesIt fd e = false := by
    rcases he with he | ⟨n, rfl⟩ | ⟨id, rfl⟩
    · cases e <;> first | exact ⟨rfl, rfl⟩ | exact absurd he id
    · exact ⟨rfl, rfl⟩
    · exact ⟨rfl, rfl⟩
  rw [timesOpened_snoc, timesClosed_snoc, h1, h2.1, h2.2]
  exact hb fd hfd

theorem booked_val {h : Hist} {v : Nat} (hb : Booked h) (hv : (v : Int) ∉ openSockets h) : Booked (h ++ [.socket (.val v)]) := by
  intro fd hfd
  rw [timesOpened_snoc, timesClosed_snoc, openSockets_val]
  have := hb fd hfd
  simp only [opensIt, closesIt, List.mem_cons, beq_iff_eq, Bool.false_eq_true, if_false, Nat.add_zero]
  by_cases h1 : (v : Int) = fd
  · subst h1
    rw [if_neg hv] at this
    simp [this]
  · rw [if_neg h1, this]
    have h2 : ¬ fd = (v : Int) := fun h => h1 h.symm
    simp [h2]

theorem booked_close {h : Hist} {x : Int} (hb : Booked h) (hx : x ∈ openSockets h ∨ x = -1) : Booked (h ++ [.close x]) := by
  intro fd hfd
  rw [timesOpened_snoc, timesClosed_snoc, openSockets_close]
  have := hb fd hfd
  simp only [opensIt, closesIt, List.mem_filter, beq_iff_eq, Bool.false_eq_true, if_false, Nat.add_zero]
  by_cases h1 : x = fd
  · subst h1
    rcases hx with hx | hx
    · rw [if_pos hx] at this
      simp [this]
    · omega
  · have h2 : ¬ fd = x := fun h => h1 h.symm
    rw [this]
    simp [h1, h2]

section
variable {F : Int → Prop} {G : Nat → Prop}

theorem Mine.client {s : St} {c : Client} {m : List SessionOp} (h : Mine F G s) (h1 : c.sock = s.client.sock) (h2 : c.bio = s.client.bio) :
    Mine F G { s with client := c, mem := m } where
  own := by show c.sock ≠ 0 → _; rw [h1]; exact h.own
  closes := h.closes
  others := by intro fd hf; show _ ∧ fd ≠ c.sock; rw [h1]; exact h.others fd hf
  bio := by intro b hb; exact h.bio b (h2 ▸ hb)
  frees := h.frees
  bios := by intro id hi; exact ⟨(h.bios id hi).1, (h.bios id hi).2.1, fun b hb => (h.bios id hi).2.2 b (h2 ▸ hb)⟩
  books := h.books

theorem mem_snoc_free {h : Hist} {e : Ev} {id : Nat} (he : NeutralEv e ∨ ∃ r, e = .socket r) (hh : .bioFree id ∉ h) : .bioFree id ∉ h ++ [e] := by
  intro hm
  rcases List.mem_append.mp hm with hm | hm
  · exact hh hm
  · have := List.mem_singleton.mp hm
    subst this
    rcases he with he | ⟨_, he⟩
    · exact he
    · cases he

theorem Mine.neutral {s : St} {e : Ev} (h : Mine F G s) (he : NeutralEv e) : Mine F G (St.snoc s e) where
  own := by show _ → _ ∈ openSockets (s.hist ++ [e]) ∨ _; rw [openSockets_neutral he]; exact h.own
  closes := closesOpen_snoc h.closes fun fd hf => by subst hf; exact absurd he id
  others := by intro fd hf; show fd ∈ openSockets (s.hist ++ [e]) ∧ _; rw [openSockets_neutral he]; exact h.others fd hf
  bio := by
    intro b hb
    refine ⟨?_, mem_snoc_free (.inl he) (h.bio b hb).2⟩
    show _ < (s.hist ++ [e]).length
    have := (h.bio b hb).1
    simp; omega
  frees := freesOnce_snoc h.frees fun id hi => by subst hi; exact absurd he (fun h => h)
  bios := by
    intro id hi
    refine ⟨?_, mem_snoc_free (.inl he) (h.bios id hi).2.1, (h.bios id hi).2.2⟩
    show _ < (s.hist ++ [e]).length
    have := (h.bios id hi).1
    simp; omega
  books := booked_neutral h.books (.inl he)

/-- Closing one's own socket. -/
theorem Mine.close {s : St} (hF : ∀ fd, F fd → 0 < fd) (h : Mine F G s) (h0 : s.client.sock ≠ 0) {c : Client} (hc : c.sock = 0) (hb : c.bio = s.client.bio) :
    Mine F G { s with client := c, hist := s.hist ++ [.close s.client.sock] } where
  own := fun hn => absurd hc hn
  closes := closesOpen_snoc h.closes fun fd hf => by injection hf with hf; subst hf; exact h.own h0
  others := by
    intro fd hf
    show fd ∈ openSockets (s.hist ++ [_]) ∧ fd ≠ c.sock
    rw [openSockets_close, hc]
    have h1 := h.others fd hf
    refine ⟨List.mem_filter.mpr ⟨h1.1, by simpa using h1.2⟩, ?_⟩
    have := hF fd hf
    omega
  bio := by
    intro b hb'
    have := h.bio b (hb ▸ hb')
    refine ⟨by simp; omega, ?_⟩
    simpa using this.2
  frees := freesOnce_snoc h.frees nofun
  bios := by
    intro id hi
    have := h.bios id hi
    refine ⟨by simp; omega, by simpa using this.2.1, fun b hb' => this.2.2 b (hb ▸ hb')⟩
  books := booked_close h.books (h.own h0)

/-- Freeing one's own TLS connection. -/
theorem Mine.free {s : St} {b : Bio} (h : Mine F G s) (hb : s.client.bio = some b) {c : Client} (hc : c.sock = s.client.sock) (hn : c.bio = none) :
    Mine F G { s with client := c, hist := s.hist ++ [.bioFree b.id] } where
  own := by show c.sock ≠ 0 → c.sock ∈ openSockets (s.hist ++ [_]) ∨ c.sock = -1; rw [openSockets_bioFree, hc]; exact h.own
  closes := closesOpen_snoc h.closes nofun
  others := by intro fd hf; show fd ∈ openSockets (s.hist ++ [_]) ∧ fd ≠ c.sock; rw [openSockets_bioFree, hc]; exact h.others fd hf
  bio := by intro b hb; have hb : c.bio = some b := hb; rw [hn] at hb; cases hb
  frees := freesOnce_snoc h.frees fun id hi => by injection hi with hi; subst hi; exact ⟨(h.bio b hb).2, (h.bio b hb).1⟩
  bios := by
    intro id hi
    have := h.bios id hi
    refine ⟨by simp; omega, ?_, fun b hb => ?_⟩
    · simp only [List.mem_append, List.mem_singleton, not_or, Ev.bioFree.injEq]
      exact ⟨this.2.1, fun h => this.2.2 b hb h.symm⟩
    · have hb : c.bio = some b := hb
      rw [hn] at hb; cases hb
  books := booked_neutral h.books (.inr (.inr ⟨_, rfl⟩))

theorem Mine.dropBio {s : St} {c : Client} (h : Mine F G s) (h1 : c.sock = s.client.sock) (h2 : c.bio = none) : Mine F G { s with client := c } where
  own := by show c.sock ≠ 0 → _; rw [h1]; exact h.own
  closes := h.closes
  others := by intro fd hf; show _ ∧ fd ≠ c.sock; rw [h1]; exact h.others fd hf
  bio := by intro b hb; have hb : c.bio = some b := hb; rw [h2] at hb; cases hb
  frees := h.frees
  bios := by intro id hi; exact ⟨(h.bios id hi).1, (h.bios id hi).2.1, fun b hb => by have hb : c.bio = some b := hb; rw [h2] at hb; cases hb⟩
  books := h.books

theorem Mine.dropSock {s : St} {c : Client} (hF : ∀ fd, F fd → 0 < fd) (h : Mine F G s) (h1 : c.sock = 0 ∨ c.sock = -1) (h2 : c.bio = s.client.bio) :
    Mine F G { s with client := c } where
  own := by
    show c.sock ≠ 0 → c.sock ∈ _ ∨ c.sock = -1
    intro h0; exact .inr (h1.resolve_left h0)
  closes := h.closes
  others := by
    intro fd hf
    refine ⟨(h.others fd hf).1, ?_⟩
    show fd ≠ c.sock
    have := hF fd hf
    omega
  bio := by intro b hb; exact h.bio b (h2 ▸ hb)
  frees := h.frees
  bios := by intro id hi; exact ⟨(h.bios id hi).1, (h.bios id hi).2.1, fun b hb => (h.bios id hi).2.2 b (h2 ▸ hb)⟩
  books := h.books

theorem Mine.closed {s : St} (hF : ∀ fd, F fd → 0 < fd) (h : Mine F G s) :
    Mine F G { s with client := closedClient s.client, hist := s.hist ++ closingEvs s.client } := by
  have sock : ∀ (s : St) (c : Client), Mine F G s → c.sock = 0 → c.bio = s.client.bio →
      Mine F G { s with client := c, hist := s.hist ++ if s.client.sock ≠ 0 then [.close s.client.sock] else [] } := by
    intro s c h h0 hb
    split
    · next hs => exact h.close hF hs h0 hb
    · simp only [List.append_nil]
      exact h.dropSock hF (.inl h0) hb
  unfold closedClient closingEvs
  by_cases hk : s.client.kind = .smtp
  · simp only [hk, if_true, List.nil_append]
    exact sock s _ h rfl rfl
  · simp only [hk, if_false]
    rw [← List.append_assoc]
    cases hb : s.client.bio with
    | none =>
      simp only [List.append_nil]
      have h1 : Mine F G s := h
      exact sock s _ h1 rfl hb.symm
    | some b =>
      exact sock { s with client := { s.client with bio := none }, hist := s.hist ++ [.bioFree b.id] } _ (h.free hb rfl rfl) rfl rfl

theorem Mine.opened {s : St} {v : Nat} (h : Mine F G s) (hv : (v : Int) ∉ openSockets s.hist) {c : Client} (hc : c.sock = v) (hb : c.bio = s.client.bio) :
    Mine F G { s with client := c, hist := s.hist ++ [.socket (.val v)] } where
  own := by
    show _ → c.sock ∈ openSockets (s.hist ++ [_]) ∨ _
    rw [openSockets_val, hc]
    exact fun _ => .inl (by simp)
  closes := closesOpen_snoc h.closes nofun
  others := by
    intro fd hf
    show fd ∈ openSockets (s.hist ++ [_]) ∧ fd ≠ c.sock
    rw [openSockets_val, hc]
    have h1 := (h.others fd hf).1
    refine ⟨by simp [h1], ?_⟩
    intro h2
    subst h2
    exact hv h1
  bio := by
    intro b hb'
    have := h.bio b (hb ▸ hb')
    exact ⟨by simp; omega, mem_snoc_free (.inr ⟨_, rfl⟩) this.2⟩
  frees := freesOnce_snoc h.frees nofun
  bios := by
    intro id hi
    have := h.bios id hi
    exact ⟨by simp; omega, mem_snoc_free (.inr ⟨_, rfl⟩) this.2.1, fun b hb' => this.2.2 b (hb ▸ hb')⟩
  books := booked_val h.books hv

theorem Mine.failed {s : St} {n : Int} (hF : ∀ fd, F fd → 0 < fd) (h : Mine F G s) {c : Client} (hc : c.sock = -1) (hb : c.bio = s.client.bio) :
    Mine F G { s with client := c, hist := s.hist ++ [.socket (.err n)] } where
  own := fun _ => .inr hc
  closes := closesOpen_snoc h.closes nofun
  others := by
    intro fd hf
    show fd ∈ openSockets (s.hist ++ [_]) ∧ fd ≠ c.sock
    rw [openSockets_fail, hc]
    refine ⟨(h.others fd hf).1, ?_⟩
    have := hF fd hf
    omega
  bio := by
    intro b hb'
    have := h.bio b (hb ▸ hb')
    exact ⟨by simp; omega, mem_snoc_free (.inr ⟨_, rfl⟩) this.2⟩
  frees := freesOnce_snoc h.frees nofun
  bios := by
    intro id hi
    have := h.bios id hi
    exact ⟨by simp; omega, mem_snoc_free (.inr ⟨_, rfl⟩) this.2.1, fun b hb' => this.2.2 b (hb ▸ hb')⟩
  books := booked_neutral h.books (.inr (.inl ⟨_, rfl⟩))

/-- A new TLS connection, numbered by the length of the history. -/
theorem Mine.newBio {s : St} {e : Ev} (h : Mine F G s) (he : NeutralEv e) {c : Client} {b : Bio} (h1 : c.sock = s.client.sock) (h2 : c.bio = some b)
    (hb : b.id = s.hist.length) : Mine F G { s with client := c, hist := s.hist ++ [e] } where
  own := by show c.sock ≠ 0 → c.sock ∈ openSockets (s.hist ++ [_]) ∨ c.sock = -1; rw [openSockets_neutral he, h1]; exact h.own
  closes := (h.neutral he).closes
  others := by intro fd hf; show fd ∈ openSockets (s.hist ++ [_]) ∧ fd ≠ c.sock; rw [openSockets_neutral he, h1]; exact h.others fd hf
  bio := by
    intro b' hb'
    have hb' : c.bio = some b' := hb'
    rw [h2] at hb'
    injection hb' with hb'
    subst hb'
    refine ⟨by rw [hb]; simp, mem_snoc_free (.inl he) ?_⟩
    intro hm
    have := freed_bound h.frees hm
    omega
  frees := (h.neutral he).frees
  bios := by
    intro id hi
    have h3 := (h.neutral he).bios id hi
    refine ⟨h3.1, h3.2.1, ?_⟩
    intro b' hb'
    have hb' : c.bio = some b' := hb'
    rw [h2] at hb'
    injection hb' with hb'
    subst hb'
    have := (h.bios id hi).1
    omega
  books := (h.neutral he).books

theorem mine_whole (hF : ∀ fd, F fd → 0 < fd) : WholeMail (Pres (Mine F G)) where
  refl := fun _ h => h
  trans := fun h h' x => h' (h x)
  log := fun _ _ _ _ _ _ _ h => h.client rfl rfl
  errno := fun _ _ h => h.client rfl rfl
  resp := fun _ _ h => h.client rfl rfl
  auth := fun _ _ h => h.client rfl rfl
  fcntlGet := fun _ _ _ h => h.neutral trivial
  fcntlSet := fun _ _ _ _ h => h.neutral trivial
  select := fun _ _ _ h => h.neutral trivial
  sockopt := fun _ _ _ h => h.neutral trivial
  resolve := fun _ _ _ h => h.neutral trivial
  connect := fun _ _ _ _ h => h.neutral trivial
  readFile := fun _ _ _ h => h.neutral trivial
  sleep := fun _ h => h.neutral trivial
  recv := fun _ _ _ h => h.neutral trivial
  send := fun _ _ _ _ _ h => h.neutral trivial
  closed := fun _ h => h.closed hF
  connected := fun _ h => h.client rfl rfl

theorem mine_init (hF : ∀ fd, F fd → 0 < fd) (hv : FreshSockets env) : Steps env (Pres (Mine F G)) initializeSession := by
  have := mine_whole (G := G) hF
  have posix : Steps env (Pres (Mine F G)) initializePOSIX := by
    constructor
    intro s
    unfold initializePOSIX sysSocket
    rw [wp_bind, wp_ask]
    cases hs : env.socket s.hist with
    | err n =>
      dsimp only
      rw [wp_bind, wp_modify]
      have h1 : Pres (Mine F G) s { s with client := { s.client with sock := -1 }, hist := s.hist ++ [.socket (.err n)] } := fun h => h.failed hF rfl rfl
      refine Steps.after (R := Pres (Mine F G)) ?_ h1
      steps [logErrno_steps]
    | val v =>
      dsimp only
      rw [wp_bind, wp_modify]
      have h1 : Pres (Mine F G) s { s with client := { s.client with sock := v }, hist := s.hist ++ [.socket (.val v)] } := fun h => h.opened (hv _ _ hs) rfl rfl
      refine Steps.after (R := Pres (Mine F G)) ?_ h1
      steps [sysResolve_steps, setNonBlocking_steps, addLog_steps, connectPOSIX_steps]
  unfold initializeSession
  steps [Steps.modifyMem]
  exact Mine.client ‹_› rfl rfl

theorem mine_tls (hF : ∀ fd, F fd → 0 < fd) : Steps env (Pres (Mine F G)) startTLSNegotiation := by
  have := mine_whole (G := G) hF
  have call : ∀ op, Steps env (Pres (Mine F G)) (sysTls op) := fun op => Steps.ask fun _ _ h => h.neutral trivial
  have ctx : ∀ b, Steps env (Pres (Mine F G)) (M.modify ({ · with ctx := b })) := fun b => Steps.modify fun _ h => h.client rfl rfl
  unfold startTLSNegotiation
  refine Steps.bind (addLog_steps _ _) fun _ => Steps.bind (call _) fun _ => Steps.ite (by steps [setErrNo_steps, ctx]) (Steps.bind (ctx _) fun _ => ?_)
  -- from the number of the new connection on
  constructor
  intro s
  rw [wp_bind, wp_histLength]
  unfold sysTls
  rw [wp_bind, wp_ask, wp_ite]
  refine ⟨fun _ => ?_, fun _ => ?_⟩
  · rw [wp_bind, wp_modify]
    exact fun h => (h.neutral (e := .tls .bioNew _) trivial).dropBio rfl rfl
  · rw [wp_bind, wp_gets, wp_bind, wp_modify]
    refine Steps.after (R := Pres (Mine F G)) ?_ (fun h => h.newBio (e := .tls .bioNew _) trivial rfl rfl rfl)
    have call : ∀ op, Steps env (Pres (Mine F G)) (M.ask (fun e h => e.tls h op) (Ev.tls op)) := call
    steps [addLog_steps, setErrNo_steps, call, wh_cleanup]

theorem mine_life (hF : ∀ fd, F fd → 0 < fd) (hv : FreshSockets env) : WholeLife env (Pres (Mine F G)) :=
  { mine_whole hF with
    keep := fun _ h => h.client rfl rfl
    init := mine_init hF hv
    tls := mine_tls hF }

theorem mine_calls (hF : ∀ fd, F fd → 0 < fd) (hv : FreshSockets env) : CallInv env (fun _ => True) (Mine F G) (Mine F G) where
  stop := fun _ h => h
  event := fun _ _ _ h => h.neutral trivial
  serverName := fun _ _ h => h.client rfl rfl
  port := fun _ _ h => h.client rfl rfl
  batch := fun _ _ h => h.client rfl rfl
  timeout := fun _ _ h => h.client rfl rfl
  credential := fun _ _ h => h.client rfl rfl
  keep := fun _ _ _ h => h.client rfl rfl
  accept := fun s b h => (h.neutral (e := .call (.setAcceptSelfSignedCert b)) trivial).client rfl rfl
  sendMail := fun s m _ h => by
    have := mine_life (G := G) hF hv
    exact Pres.use (wh_sendMail m) h

theorem mine_destroy (hF : ∀ fd, F fd → 0 < fd) {s : St} (h : Mine F G s) : Mine F G (destroy env s).2 := by
  have := mine_whole (G := G) hF
  refine state_of (Pres.use (?_ : Steps env (Pres (Mine F G)) destroy) h)
  unfold destroy
  steps [wh_cleanup, Steps.emit]
  exact Mine.neutral ‹_› trivial

end

end Verif.Proofs
