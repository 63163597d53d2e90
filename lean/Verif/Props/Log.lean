import Verif.Proofs.Log
import Verif.Proofs.Values
import Verif.Spec.Script
/-!
# C26, C27: the communication log
-/
namespace Verif.Props
open Verif Verif.Model Verif.Spec

/-- Items appended one after the other; stops at undefined behaviour. -/
def addAll : List (Bytes × Bytes) → Log → Except UB Log
  | [], l => .ok l
  | (item, who) :: rest, l =>
    match l.add item who with
    | .error u => .error u
    | .ok l' => addAll rest l'

theorem addAll_ok (items : List (Bytes × Bytes)) (l : Log) (h : Proofs.LogOk l) (hn : ∀ i ∈ items, 0 ∉ i.1) :
    ∃ l', addAll items l = .ok l' ∧ Proofs.LogOk l' ∧ l'.content = l.content ++ (items.map fun i => logEntry i.1 i.2).flatten := by
  induction items generalizing l with
  | nil => exact ⟨l, rfl, h, by simp⟩
  | cons i items ih =>
    obtain ⟨l1, e1, h1, c1, _⟩ := Proofs.log_add_ok h i.1 i.2
    obtain ⟨l2, e2, h2, c2⟩ := ih l1 h1 (fun i hi => hn i (by simp [hi]))
    refine ⟨l2, by simp [addAll, e1, e2], h2, ?_⟩
    have hc : cstr i.1 = i.1 := ((Proofs.ctext_iff (m := i.1)).mp ⟨hn i (by simp), [], by simp, .inl rfl⟩).symm
    rw [c2, c1]
    simp [logItem, logEntry, hc, Proofs.escapeCRLF_eq]

/-- **C26.** After a session start, any sequence of items of any sizes is appended without ever leaving the buffer, and the text
with its terminator fits into the buffer. -/
theorem C26_log_in_bounds (items : List (Bytes × Bytes)) :
    ∃ l, addAll items .fresh = .ok l ∧ l.content.length < l.cap ∧ l.size = l.cap := by
  have : ∀ (items : List (Bytes × Bytes)) (l : Log), Proofs.LogOk l → ∃ l', addAll items l = .ok l' ∧ Proofs.LogOk l' := by
    intro items
    induction items with
    | nil => exact fun l h => ⟨l, rfl, h⟩
    | cons i items ih =>
      intro l h
      obtain ⟨l1, e1, h1, _, _⟩ := Proofs.log_add_ok h i.1 i.2
      obtain ⟨l2, e2, h2⟩ := ih l1 h1
      exact ⟨l2, by simp [addAll, e1, e2], h2⟩
  obtain ⟨l, e, h⟩ := this items .fresh Proofs.logOk_fresh
  exact ⟨l, e, h.2, h.1⟩

/-- The log of a state is absent or in order. -/
def LogInv (s : St) : Prop := ∀ l, s.client.log = some l → Proofs.LogOk l

instance : Proofs.Lifelong (fun s s' => LogInv s → LogInv s') where
  refl := fun _ h => h
  trans := fun h h' x => h' (h x)
  log := by
    intro s l i p l' hl ha h l'' e
    obtain ⟨l1, e1, h1, _, _⟩ := Proofs.log_add_ok (h l hl) i p
    rw [ha] at e1
    cases e1
    cases e
    exact h1
  freshLog := by
    intro s h l e
    cases e
    exact Proofs.logOk_fresh
  errno := fun _ _ h => h
  resp := fun _ _ h => h
  auth := fun _ _ h => h
  fcntlGet := fun _ _ _ h => h
  fcntlSet := fun _ _ _ _ h => h
  select := fun _ _ _ h => h
  sockopt := fun _ _ _ h => h
  resolve := fun _ _ _ h => h
  connect := fun _ _ _ _ h => h
  readFile := fun _ _ _ h => h
  sleep := fun _ h => h
  recv := fun _ _ _ h => h
  disconnected := fun _ h => h
  ctx := fun _ _ h => h
  noBio := fun _ h => h
  noSock := fun _ h => h
  close := fun _ _ h => h
  bioFree := fun _ _ h => h
  quit := fun _ _ _ h => h
  connected := fun _ h => h
  keep := fun _ h => h
  setKeep := fun _ _ h => h
  bio := fun _ _ h => h
  sock := fun _ _ h => h
  socket := fun _ _ h => h
  tls := fun _ _ _ h => h
  send := fun _ _ _ _ _ h => h
  call := fun _ _ h => h
  destroy := fun _ h => h
  serverName := fun _ _ h => h
  port := fun _ _ h => h
  batch := fun _ _ h => h
  timeout := fun _ _ h => h
  credential := fun _ _ h => h
  accept := fun _ _ h => h

/-- **C26.** Whatever calls the user makes on a new client and whatever the server does, also when the run stops in the middle:
no further item can ever leave the log buffer. -/
theorem C26_session_log_in_bounds (env : Env) (k : Kind) (name : Bytes) (port : Nat) (cs : List Call) (l : Log)
    (e : (life cs env { client := .init k name port, hist := [] }).2.client.log = some l) (item who : Bytes) :
    ∃ l', l.add item who = .ok l' ∧ l'.content.length < l'.cap := by
  have hi := (Proofs.life_steps (env := env) (R := fun s s' => LogInv s → LogInv s') cs).state { client := .init k name port, hist := [] }
    (fun l e => by simp [Client.init] at e)
  obtain ⟨l', h1, h2, _⟩ := Proofs.log_add_ok (hi l e) item who
  exact ⟨l', h1, h2.2⟩

/-- **C27.** After a session start the log is exactly the entries in order. (Items are C strings: they contain no NUL.) -/
theorem C27_log_exact (items : List (Bytes × Bytes)) (hn : ∀ i ∈ items, 0 ∉ i.1) :
    ∃ l, addAll items .fresh = .ok l ∧ l.content = (items.map fun i => logEntry i.1 i.2).flatten := by
  obtain ⟨l, e, _, c⟩ := addAll_ok items .fresh Proofs.logOk_fresh hn
  exact ⟨l, e, by simpa [Log.fresh] using c⟩

/-- **C27.** What the client says is on one line of the log, and can be read back when it contains no backslash. -/
theorem C27_client_items (item : Bytes) :
    lines (showBreaks item) = [showBreaks item] ∧ (92 ∉ item → readBreaks (showBreaks item) = item) := by
  rw [← Proofs.escapeCRLF_eq]
  exact ⟨Proofs.escapeCRLF_oneLine item, Proofs.readBreaks_escape item⟩

/-- **C27.** Two different client items without backslash never look the same. -/
theorem C27_client_items_injective (a b : Bytes) (ha : 92 ∉ a) (hb : 92 ∉ b) (h : showBreaks a = showBreaks b) : a = b := by
  rw [← (C27_client_items a).2 ha, ← (C27_client_items b).2 hb, h]

/-- The log of the second state continues that of the first. -/
def LogGrows (s s' : St) : Prop :=
  ∀ l, s.client.log = some l → Proofs.LogOk l →
    ∃ l', s'.client.log = some l' ∧ Proofs.LogOk l' ∧ l.content <+: l'.content

instance : Proofs.Talking LogGrows where
  refl := fun s l h ho => ⟨l, h, ho, List.prefix_refl _⟩
  trans := by
    intro a b c hab hbc l hl ho
    obtain ⟨l1, h1, o1, p1⟩ := hab l hl ho
    obtain ⟨l2, h2, o2, p2⟩ := hbc l1 h1 o1
    exact ⟨l2, h2, o2, p1.trans p2⟩
  log := by
    intro s l i p l' hl ha l0 h0 ho
    rw [hl] at h0; cases h0
    obtain ⟨l1, e1, h1, c1, _⟩ := Proofs.log_add_ok ho i p
    rw [ha] at e1
    cases e1
    refine ⟨l', rfl, h1, ?_⟩
    rw [c1]
    simp only [List.append_assoc]
    exact List.prefix_append _ _
  errno := fun s _ l h ho => ⟨l, h, ho, List.prefix_refl _⟩
  resp := fun s _ l h ho => ⟨l, h, ho, List.prefix_refl _⟩
  auth := fun s _ l h ho => ⟨l, h, ho, List.prefix_refl _⟩
  fcntlGet := fun s _ _ l h ho => ⟨l, h, ho, List.prefix_refl _⟩
  fcntlSet := fun s _ _ _ l h ho => ⟨l, h, ho, List.prefix_refl _⟩
  select := fun s _ _ l h ho => ⟨l, h, ho, List.prefix_refl _⟩
  sockopt := fun s _ _ l h ho => ⟨l, h, ho, List.prefix_refl _⟩
  resolve := fun s _ _ l h ho => ⟨l, h, ho, List.prefix_refl _⟩
  connect := fun s _ _ _ l h ho => ⟨l, h, ho, List.prefix_refl _⟩
  readFile := fun s _ _ l h ho => ⟨l, h, ho, List.prefix_refl _⟩
  sleep := fun s l h ho => ⟨l, h, ho, List.prefix_refl _⟩
  recv := fun s _ _ l h ho => ⟨l, h, ho, List.prefix_refl _⟩
  disconnected := fun s l h ho => ⟨l, h, ho, List.prefix_refl _⟩
  ctx := fun s _ l h ho => ⟨l, h, ho, List.prefix_refl _⟩
  noBio := fun s l h ho => ⟨l, h, ho, List.prefix_refl _⟩
  noSock := fun s l h ho => ⟨l, h, ho, List.prefix_refl _⟩
  close := fun s _ l h ho => ⟨l, h, ho, List.prefix_refl _⟩
  bioFree := fun s _ l h ho => ⟨l, h, ho, List.prefix_refl _⟩
  quit := fun s _ _ l h ho => ⟨l, h, ho, List.prefix_refl _⟩
  connected := fun s l h ho => ⟨l, h, ho, List.prefix_refl _⟩
  send := fun s _ _ _ _ l h ho => ⟨l, h, ho, List.prefix_refl _⟩

/-- **C27.** A mail sent over an open connection only adds to the log; nothing is removed or changed, however it ends. -/
theorem C27_append_only (env : Env) (m : Message) (s : St) (hc : s.client.isConnected = true) (l : Log)
    (hl : s.client.log = some l) (ho : LogInv s) :
    ∃ l', (sendMail m env s).2.client.log = some l' ∧ l.content <+: l'.content := by
  have key : sendMail m env s = sendMailConnected m env s := by
    unfold sendMail
    simp only [Proofs.bind_run, Proofs.gets_run, hc, if_true]
  rw [key]
  obtain ⟨l', h1, _, h2⟩ := (Proofs.sendMailConnected_steps (env := env) (R := LogGrows) m).state s l hl (ho l hl)
  exact ⟨l', h1, h2⟩

/-- The rest of `sendMail` after the log was made. -/
def withNewLog (m : Message) : M Int := do
  let code ← (do
    let code ← initializePOSIX
    if code ≠ 0 then pure code
    else
      match ← M.gets (·.kind) with
      | .smtp => establishGreeted authenticateIfNeeded
      | .opportunistic => establishGreeted establishOpportunistic
      | .forced => establishForced)
  if code ≠ 0 then pure code else sendMailConnected m

/-- **C27.** A mail that opens a session starts an empty log: whatever was in the log before, or whether there was one, makes no difference
to anything that happens and to the log at the end. -/
theorem C27_new_session_new_log (env : Env) (m : Message) (s : St) (hc : s.client.isConnected = false) (old : Option Log) :
    sendMail m env { s with client := { s.client with log := old } } = sendMail m env s := by
  have key : ∀ s : St, s.client.isConnected = false → sendMail m env s =
      withNewLog m env { s with client := { s.client with log := some .fresh }, mem := s.mem ++ [.freshLog] } := by
    intro s hc
    unfold sendMail
    rw [Proofs.bind_run, Proofs.gets_run]
    dsimp only
    rw [hc, if_neg (by decide)]
    unfold withNewLog establish initializeSession
    simp only [Proofs.bind_run]
    unfold M.modifyMem
    dsimp only
    rw [hc]
    rfl
  rw [key s hc, key { s with client := { s.client with log := old } } hc]

/-- The log of a state, if there is one, consists of entries. -/
def LogEntries (s : St) : Prop :=
  ∀ l, s.client.log = some l → Proofs.LogOk l ∧
    ∃ items : List (Bytes × Bytes), (∀ i ∈ items, 0 ∉ i.1) ∧ l.content = (items.map fun i => logEntry i.1 i.2).flatten

instance : Proofs.Lifelong (fun s s' => LogEntries s → LogEntries s') where
  refl := fun _ h => h
  trans := fun h h' x => h' (h x)
  log := by
    intro s l i p l' hl ha h l'' e
    cases e
    obtain ⟨ho, items, h0, hi⟩ := h l hl
    obtain ⟨l1, e1, h1, c1, _⟩ := Proofs.log_add_ok ho i p
    rw [ha] at e1
    cases e1
    refine ⟨h1, items ++ [(cstr i, p)], ?_, ?_⟩
    · intro x hx
      rw [List.mem_append] at hx
      rcases hx with hx | hx
      · exact h0 x hx
      · simp only [List.mem_singleton] at hx
        subst hx
        intro h0
        have h0 : (0 : UInt8) ∈ i.takeWhile (fun c => decide (c ≠ 0)) := h0
        have hb := List.all_eq_true.mp List.all_takeWhile 0 h0
        simp at hb
    · rw [c1, hi]
      simp [logItem, logEntry, Proofs.escapeCRLF_eq]
  freshLog := by
    intro s h l e
    cases e
    exact ⟨Proofs.logOk_fresh, [], by simp, rfl⟩
  errno := fun _ _ h => h
  resp := fun _ _ h => h
  auth := fun _ _ h => h
  fcntlGet := fun _ _ _ h => h
  fcntlSet := fun _ _ _ _ h => h
  select := fun _ _ _ h => h
  sockopt := fun _ _ _ h => h
  resolve := fun _ _ _ h => h
  connect := fun _ _ _ _ h => h
  readFile := fun _ _ _ h => h
  sleep := fun _ h => h
  recv := fun _ _ _ h => h
  disconnected := fun _ h => h
  ctx := fun _ _ h => h
  noBio := fun _ h => h
  noSock := fun _ h => h
  close := fun _ _ h => h
  bioFree := fun _ _ h => h
  quit := fun _ _ _ h => h
  connected := fun _ h => h
  keep := fun _ h => h
  setKeep := fun _ _ h => h
  bio := fun _ _ h => h
  sock := fun _ _ h => h
  socket := fun _ _ h => h
  tls := fun _ _ _ h => h
  send := fun _ _ _ _ _ h => h
  call := fun _ _ h => h
  destroy := fun _ h => h
  serverName := fun _ _ h => h
  port := fun _ _ h => h
  batch := fun _ _ h => h
  timeout := fun _ _ h => h
  credential := fun _ _ h => h
  accept := fun _ _ h => h

/-- **C27.** At every moment in the life of a client, also when the run stops in the middle, the log is a sequence of entries and nothing else. -/
theorem C27_only_entries (env : Env) (k : Kind) (name : Bytes) (port : Nat) (cs : List Call) (l : Log)
    (e : (life cs env { client := .init k name port, hist := [] }).2.client.log = some l) :
    ∃ items : List (Bytes × Bytes), (∀ i ∈ items, 0 ∉ i.1) ∧ l.content = (items.map fun i => logEntry i.1 i.2).flatten :=
  ((Proofs.life_steps (env := env) (R := fun s s' => LogEntries s → LogEntries s') cs).state { client := .init k name port, hist := [] }
    (fun l e => by simp [Client.init] at e) l e).2

/-- Non-vacuity: a client with a log of an earlier session. -/
example : (sendMail mail (scripted []) { fresh .smtp with client := { (fresh .smtp).client with log := some { content := b!"\nc: QUIT", size := 4096, cap := 4096 } } }) =
    sendMail mail (scripted []) (fresh .smtp) :=
  C27_new_session_new_log (scripted []) mail (fresh .smtp) rfl _

/-- Non-vacuity: any reply of the server, also one larger than the initial buffer, then a client item with a line break. -/
example (x : Bytes) (hx : 0 ∉ x) : (∃ l, addAll [(x, b!"s"), (b!"QUIT\r\n", b!"c")] .fresh = .ok l ∧
      l.content = b!"\ns: " ++ x ++ b!"\nc: QUIT\\r\\n") := by
  obtain ⟨l, h, c⟩ := C27_log_exact [(x, b!"s"), (b!"QUIT\r\n", b!"c")] (by simpa using hx)
  exact ⟨l, h, by rw [c]; simp [logEntry, showBreaks, lines, consFirst, List.intercalate]⟩

end Verif.Props
