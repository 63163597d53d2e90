import Verif.Proofs.ClientHeap
import Verif.Spec.ClientMemory
import Verif.Proofs.Ownership
/-! What programs with client objects do to memory. -/
namespace Verif.Proofs
open Verif Verif.Model Verif.Spec

variable {env : Env}

theorem clientRun_append (s : ClientValues) (ops more : List COp) : clientRun s (ops ++ more) = (clientRun s ops).bind fun s' => clientRun s' more := by
  induction ops generalizing s with
  | nil => rfl
  | cons p ps ih =>
    simp only [List.cons_append, clientRun]
    cases clientStep s p with
    | none => rfl
    | some s1 => exact ih s1

theorem valueOf_get {w : Objects} {i : Nat} {c : Client} (h : w.get i = some c) : memoryOf w i = some (memoryOfClient c) := by
  unfold memoryOf; rw [h]; rfl

/-- The memory of a client changes only by the steps that the session notes. -/
def Uses (s s' : St) : Prop := ∃ l, s'.mem = s.mem ++ l ∧ sessionSteps (memoryOfClient s.client) l = some (memoryOfClient s'.client)

theorem sessionSteps_append (v : ClientValue) (l m : List SessionOp) : sessionSteps v (l ++ m) = (sessionSteps v l).bind fun v' => sessionSteps v' m := by
  induction l generalizing v with
  | nil => rfl
  | cons p ps ih =>
    simp only [List.cons_append, sessionSteps]
    cases sessionStep v p with
    | none => rfl
    | some s1 => exact ih s1

theorem Uses.same {s s' : St} (h : memoryOfClient s'.client = memoryOfClient s.client) (hm : s'.mem = s.mem) : Uses s s' :=
  ⟨[], by rw [hm, List.append_nil], by rw [h]; rfl⟩

theorem cstr_idem (t : Bytes) : cstr (cstr t) = cstr t := by
  unfold cstr
  induction t with
  | nil => rfl
  | cons c t ih =>
    simp only [List.takeWhile_cons]
    split
    · rename_i h; simp only [List.takeWhile_cons, h, if_true, ih]
    · rfl

/-- When the parser finds options. -/
theorem extractAuthOptions_isSome (t : Bytes) : (extractAuthOptions (some t)).isSome = decide (OffersAuth (cstr t)) := by
  unfold extractAuthOptions
  simp only
  generalize cstr t = s
  by_cases h2 : 2 ≤ (lines s).length
  · rcases extractAuthLoop_spec s.length s none (Nat.le_refl _) (.inl rfl) (fun _ _ => .inr h2) with ⟨h, hno⟩ | ⟨pre, l, post, hl, ha, _, h⟩
    · rw [h, decide_eq_false]
      · rfl
      · rintro ⟨_, l, hm, ha⟩
        exact hno l hm ha
    · rw [h, decide_eq_true]
      · rfl
      · exact ⟨h2, l, by rw [hl]; simp, ha⟩
  · rw [decide_eq_false fun h => h2 h.1]
    cases s with
    | nil => rfl
    | cons c s =>
      have : findSub b!"\r\n" (c :: s) = none := by
        cases hf : findSub b!"\r\n" (c :: s) with
        | none => rfl
        | some i =>
          exfalso
          apply h2
          rw [lines_of_findSub hf]
          have := lines_ne_nil ((c :: s).drop (i + 2))
          cases h : lines ((c :: s).drop (i + 2)) with
          | nil => exact absurd h this
          | cons => simp
      simp only [List.length_cons, extractAuthLoop, this]
      rfl

theorem Uses.trans {a b c : St} : Uses a b → Uses b c → Uses a c := by
  rintro ⟨l, g1, h1⟩ ⟨m, g2, h2⟩
  exact ⟨l ++ m, by rw [g2, g1, List.append_assoc], by rw [sessionSteps_append, h1]; exact h2⟩

instance : Anything Uses where
  refl := fun _ => .same rfl rfl
  trans := .trans
  log := fun s l i p l' hl _ => ⟨[.log (l.grows i p) l'.content], rfl, by simp [sessionSteps, sessionStep, memoryOfClient, hl]⟩
  errno := fun _ _ => .same rfl rfl
  resp := fun _ r => ⟨[.response r], rfl, rfl⟩
  auth := fun _ t => ⟨[.options (cstr t)], rfl, by simp [sessionSteps, sessionStep, memoryOfClient, extractAuthOptions_isSome]⟩
  fcntlGet := fun _ _ _ => .same rfl rfl
  fcntlSet := fun _ _ _ _ => .same rfl rfl
  select := fun _ _ _ => .same rfl rfl
  sockopt := fun _ _ _ => .same rfl rfl
  resolve := fun _ _ _ => .same rfl rfl
  connect := fun _ _ _ _ => .same rfl rfl
  readFile := fun _ _ _ => .same rfl rfl
  sleep := fun _ => .same rfl rfl
  recv := fun _ _ _ => .same rfl rfl
  disconnected := fun _ => .same rfl rfl
  ctx := fun _ _ => .same rfl rfl
  noBio := fun _ => .same rfl rfl
  noSock := fun _ => .same rfl rfl
  close := fun _ _ => .same rfl rfl
  bioFree := fun _ _ => .same rfl rfl
  quit := fun _ _ _ => .same rfl rfl
  connected := fun _ => .same rfl rfl
  send := fun _ _ _ _ _ => .same rfl rfl
  freshLog := fun _ => ⟨[.freshLog], rfl, rfl⟩
  keep := fun _ => .same rfl rfl
  bio := fun _ _ => .same rfl rfl
  sock := fun _ _ => .same rfl rfl
  socket := fun _ _ => .same rfl rfl
  tls := fun _ _ _ => .same rfl rfl

theorem bind_same {s : ClientValues} {x : Nat} {v : ClientValue} (h : s x = some v) : bindClient s x (some v) = s := by
  funext y
  unfold bindClient
  split
  · rename_i e; rw [e, h]
  · rfl

theorem bind_bind (s : ClientValues) (x : Nat) (a b : Option ClientValue) : bindClient (bindClient s x a) x b = bindClient s x b := by
  funext y
  unfold bindClient
  split <;> rfl

theorem run_session (s : ClientValues) (x : Nat) (v w : ClientValue) (hx : s x = some v) (l : List SessionOp) (hl : sessionSteps v l = some w) :
    clientRun s (l.map (.session x)) = some (bindClient s x (some w)) := by
  induction l generalizing s v with
  | nil => cases hl; rw [bind_same hx]; rfl
  | cons p ps ih =>
    simp only [sessionSteps, Option.bind_eq_some_iff] at hl
    obtain ⟨v1, h1, h2⟩ := hl
    simp only [List.map_cons, clientRun, clientStep, hx, h1, Option.map_some, Option.bind_some]
    rw [ih (bindClient s x (some v1)) v1 (by simp [bindClient]) h2, bind_bind]

theorem memory_set {w : Objects} {i : Nat} {c : Client} (hi : w.get i = some c) (x : Option Client) (h : Hist) :
    memoryOf { clients := w.clients.set i x, hist := h } = bindClient (memoryOf w) i (x.map memoryOfClient) := by
  have hl := get_length hi
  funext y
  unfold memoryOf bindClient Objects.get
  simp only
  split
  · rename_i e
    subst e
    rw [List.getElem?_set_self hl]
    rfl
  · rename_i e
    rw [List.getElem?_set_ne (Ne.symm e)]

theorem memory_append (w : Objects) (c : Client) :
    memoryOf { w with clients := w.clients ++ [some c] } = bindClient (memoryOf w) w.clients.length (some (memoryOfClient c)) := by
  funext y
  unfold memoryOf bindClient Objects.get
  simp only
  split
  · rename_i e
    subst e
    rw [List.getElem?_append_right (Nat.le_refl _)]
    simp
  · rename_i e
    by_cases hy : y < w.clients.length
    · rw [List.getElem?_append_left hy]
    · rw [List.getElem?_eq_none (by simp; omega), List.getElem?_eq_none (by omega)]

theorem memory_end (w : Objects) : memoryOf w w.clients.length = none := by
  unfold memoryOf Objects.get
  rw [List.getElem?_eq_none (Nat.le_refl _)]
  rfl

theorem memory_copied {c c' : Client} (h : c.copied = .ok c') : memoryOfClient c' = memoryOfClient c ∧ (memoryOfClient c).name ≠ none := by
  unfold Client.copied at h
  split at h
  · cases h
  · rename_i n hn
    cases h
    refine ⟨?_, by simp [memoryOfClient, hn]⟩
    simp only [memoryOfClient, Option.map_map]
    rfl

theorem memory_hist (w : Objects) (h : Hist) : memoryOf { w with hist := h } = memoryOf w := rfl

/-- One operation of a program. -/
theorem objStep_memory (op : ObjOp) (w : Objects) : clientRun (memoryOf w) (memoryOps op env w) = some (memoryOf (objStep op env w).2) := by
  cases op with
  | create k p port =>
    simp only [objStep, memoryOps]
    cases hc : Client.new k p port with
    | error e => cases e <;> rfl
    | ok c =>
      dsimp only
      unfold Client.new at hc
      split at hc
      · cases hc
      · rename_i name hn
        cases hc
        rw [memory_append]
        simp only [clientRun, clientStep, nameText, if_pos (memory_end w), Option.bind_some]
        rfl
  | copy i =>
    simp only [objStep, memoryOps]
    cases hc : w.get i with
    | none => rfl
    | some c =>
      dsimp only
      cases hc' : c.copied with
      | error e =>
        unfold Client.copied at hc'
        split at hc'
        · rename_i h; rw [if_pos h]; rfl
        · cases hc'
      | ok c' =>
        obtain ⟨e, hn⟩ := memory_copied hc'
        rw [if_neg (show ¬ c.serverName = none from hn)]
        simp only
        rw [memory_append, e]
        simp only [clientRun, clientStep, valueOf_get hc, if_pos (And.intro (memory_end w) hn), Option.bind_some]
  | move i =>
    simp only [objStep, memoryOps]
    cases hc : w.get i with
    | none => rfl
    | some c =>
      rw [if_neg nofun]
      simp only [clientRun, clientStep, valueOf_get hc, if_pos (memory_end w), Option.bind_some]
      have h1 := memory_set hc (some c.movedFrom) w.hist
      have h2 := memory_append { clients := w.clients.set i (some c.movedFrom), hist := w.hist } c.moved
      rw [h2, h1]
      simp only [List.length_set]
      rfl
  | assign i j =>
    simp only [objStep, memoryOps]
    cases hd : w.get i with
    | none => rfl
    | some d =>
      cases hc : w.get j with
      | none => rfl
      | some c =>
        dsimp only
        by_cases hij : i = j ∨ d.kind ≠ c.kind
        · rw [if_pos hij, if_pos (hij.imp id .inl)]
          rfl
        rw [if_neg hij]
        cases hc' : c.copied with
        | error e =>
          unfold Client.copied at hc'
          split at hc'
          · rename_i h; rw [if_pos (.inr (.inr h))]; rfl
          · cases hc'
        | ok c' =>
          obtain ⟨e, hn⟩ := memory_copied hc'
          have hne : i ≠ j := fun h => hij (.inl h)
          rw [if_neg (by
            rintro (h | h | h)
            · exact hij (.inl h)
            · exact hij (.inr h)
            · exact hn h)]
          simp only [clientRun, clientStep, valueOf_get hc, valueOf_get hd, if_neg hne, if_pos hn, Option.bind_some]
          rw [memory_set hd (some c') w.hist]
          simp only [Option.map_some, e]
  | moveAssign i j =>
    simp only [objStep, memoryOps]
    cases hd : w.get i with
    | none => rfl
    | some d =>
      cases hc : w.get j with
      | none => rfl
      | some c =>
        dsimp only
        by_cases hij : i = j ∨ d.kind ≠ c.kind
        · rw [if_pos hij, if_pos hij]
          rfl
        rw [if_neg hij, if_neg hij]
        have hne : i ≠ j := fun h => hij (.inl h)
        simp only [clientRun, clientStep, valueOf_get hc, valueOf_get hd, if_neg hne, Option.bind_some]
        have h1 := memory_set hc (some c.movedFrom) w.hist
        have hd' : ({ clients := w.clients.set j (some c.movedFrom), hist := w.hist } : Objects).get i = some d := by
          unfold Objects.get at hd ⊢
          simp only
          rw [List.getElem?_set_ne (Ne.symm hne)]
          exact hd
        have h2 := memory_set hd' (some c.moved) w.hist
        rw [List.set_comm _ _ hne, h2, h1]
        rfl
  | call i call =>
    cases hcl : w.get i with
    | none => simp only [objStep, memoryOps, hcl]; rfl
    | some cl =>
      have key : clientRun (memoryOf w) (memoryOps (.call i call) env w) =
          some (bindClient (memoryOf w) i (some (memoryOfClient (doCall call env { client := cl, hist := w.hist }).2.client))) := by
        have hv := valueOf_get hcl
        have same : ∀ s : St, memoryOfClient s.client = memoryOfClient cl →
            clientRun (memoryOf w) [] = some (bindClient (memoryOf w) i (some (memoryOfClient s.client))) := by
          intro s hs
          rw [hs, bind_same hv]
          rfl
        simp only [memoryOps, hcl]
        cases call with
        | setServerName p =>
          have h0 : (doCall (.setServerName p) env { client := cl, hist := w.hist }).2 = (setServerName p env { client := cl, hist := w.hist ++ [.call (.setServerName p)] }).2 := by
            simp only [doCall, bind_run, M.emit]
          rw [h0]
          unfold setServerName
          dsimp only
          cases checkName p with
          | error e =>
            cases e with
            | invalidArgument => exact same _ rfl
            | ub u => exact same _ rfl
          | ok name =>
            simp only [clientRun, clientStep, hv, nameText, if_neg (nofun : NameArg.text name ≠ .nameOf i), Option.bind_some]; rfl
        | setServerPort n => exact same _ rfl
        | setBatchMode n => exact same _ rfl
        | setCommandTimeout n => exact same _ rfl
        | setCredentials k =>
          simp only [clientRun, clientStep, hv, credentialTexts, if_neg (nofun : CredArg.texts k.username k.password ≠ .of i), Option.bind_some]; rfl
        | setKeepUsingBaseSendCommands n => exact same _ rfl
        | setAcceptSelfSignedCert n => exact same _ rfl
        | sendMail m =>
          have h0 : (doCall (.sendMail m) env { client := cl, hist := w.hist }).2 = (sendMail m env { client := cl, hist := w.hist ++ [.call (.sendMail m)] }).2 := by
            simp only [doCall, bind_run, M.emit]
            cases h : sendMail m env { client := cl, hist := w.hist ++ [Ev.call (.sendMail m)] } with
            | mk r s => cases r <;> rfl
          dsimp only
          rw [h0]
          obtain ⟨l, hm, hl⟩ := (sendMail_steps (env := env) (R := Uses) m).state { client := cl, hist := w.hist ++ [.call (.sendMail m)] }
          rw [hm]
          exact run_session _ _ _ _ hv l hl
      rw [key]
      simp only [objStep, hcl]
      cases h : doCall call env { client := cl, hist := w.hist } with
      | mk r s => cases r <;> (simp only; rw [memory_set hcl]; rfl)
  | destroy i =>
    simp only [objStep, memoryOps]
    cases hcl : w.get i with
    | none => rfl
    | some cl =>
      have hv := valueOf_get hcl
      have h0 : (Model.destroy env { client := cl, hist := w.hist }) = (cleanup env { client := cl, hist := w.hist ++ [.destroy] }) := by
        simp only [Model.destroy, bind_run, M.emit]
      obtain ⟨l, hm, hl⟩ := (cleanup_steps (env := env) (R := Uses)).state { client := cl, hist := w.hist ++ [.destroy] }
      rw [← h0] at hl hm
      dsimp only
      have hrun := run_session _ _ _ _ hv l hl
      have hm : (Model.destroy env { client := cl, hist := w.hist }).2.mem = l := hm
      cases h : Model.destroy env { client := cl, hist := w.hist } with
      | mk r s =>
        rw [h] at hrun hm
        dsimp only at hm
        subst hm
        cases r with
        | ok _ =>
          simp only [clientRun_append, hrun, Option.bind_some, clientRun, clientStep]
          rw [memory_set hcl none]
          rw [show bindClient (memoryOf w) i (some (memoryOfClient s.client)) i = some (memoryOfClient s.client) from if_pos rfl]
          simp only [Option.bind_some, bind_bind, Option.map_none]
        | stop e =>
          dsimp only
          rw [hrun, memory_set hcl]
          rfl

/-- A whole program. -/
theorem objRun_memory (ops : List ObjOp) (w : Objects) : clientRun (memoryOf w) (memoryProgram ops env w) = some (memoryOf (objRun ops env w).2) := by
  induction ops generalizing w with
  | nil => rfl
  | cons op ops ih =>
    unfold objRun memoryProgram
    rw [clientRun_append, objStep_memory, Option.bind_some]
    cases h : objStep op env w with
    | mk r w' =>
      cases r with
      | stop e => rfl
      | ok _ => exact ih w'

end Verif.Proofs
