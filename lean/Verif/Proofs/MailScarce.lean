import Verif.Proofs.ClientScarce
import Verif.Proofs.Mails
import Verif.Model.MailScarce
import Verif.Spec.MailScarce
/-! Messages when memory runs out. -/
namespace Verif.Proofs
open Verif Verif.Model Verif.Spec

variable {ε ε' α β : Type}

/-- If `m` succeeds, `p` does the same; memory only grows. -/
def Grows (m : Attempt ε α) (p : H α) : Prop := ∀ g st,
  match m g st with
  | .error e => p st.2 = .error e
  | .ok (.ok a, st') => p st.2 = .ok (a, st'.2) ∧ Grown st.2 st'.2
  | .ok (.error _, st') => Grown st.2 st'.2

theorem Growing.grows {left : ε} {m : Attempt ε α} {p : H α} (h : Growing left m p) : Grows m p := by
  intro g st
  have := h g st
  cases e : m g st with
  | error x => rw [e] at this; exact this
  | ok r =>
    obtain ⟨q, st'⟩ := r
    rw [e] at this
    cases q with
    | error l => exact this.2
    | ok a => exact this

theorem Grows.shadows {m : Attempt ε α} {p : H α} (h : Grows m p) : Shadows m p := by
  intro g st
  have := h g st
  cases e : m g st with
  | error x => rw [e] at this; exact this
  | ok r =>
    obtain ⟨q, st'⟩ := r
    rw [e] at this
    cases q with
    | error l => trivial
    | ok a => exact this.1

theorem Grows.pure (a : α) : Grows (Pure.pure a : Attempt ε α) (Pure.pure a) := fun _ st => ⟨rfl, Grown.refl st.2⟩

theorem Grows.bind {m : Attempt ε α} {p : H α} {f : α → Attempt ε β} {k : α → H β} (h1 : Grows m p)
    (h2 : ∀ a, Grows (f a) (k a)) : Grows (m >>= f) (p >>= k) := by
  intro g st
  have h := h1 g st
  cases e : m g st with
  | error x =>
    rw [e] at h
    rw [bindA_error e]
    exact bindH_error h
  | ok r =>
    obtain ⟨q, st'⟩ := r
    rw [e] at h
    cases q with
    | error l => rw [bindA_left e]; exact h
    | ok a =>
      rw [bindA_ok e, bind_ok h.1]
      have h3 := h2 a g st'
      cases e3 : f a g st' with
      | error x => rw [e3] at h3; exact h3
      | ok r =>
        obtain ⟨q, st''⟩ := r
        rw [e3] at h3
        cases q with
        | error l => exact h.2.trans h3
        | ok b => exact ⟨h3.1, h.2.trans h3.2⟩

theorem readArray_growing (left : ε) (p : Ptr) : Growing left (calm (readArray p)) (readArray p) :=
  .calm (same_grown fun h a h' e => by
    unfold readArray at e
    split at e
    · cases e
    · split at e <;> cases e <;> rfl)

/-- Whatever is made of the array that was left half filled. -/
theorem tryFill_grows (old : ε) (mk : Ptr → ε) {loop : Attempt (List Ptr) (List Ptr)} {p : H (List Ptr)} (h : Grows loop p) :
    Grows (tryFill old mk loop) (do let qs ← p; let a ← alloc (.arr qs); pure (some a)) := by
  intro g st
  unfold tryFill
  cases hg : g st.1 with
  | false => exact Grown.refl _
  | true =>
    have h1 := h g (st.1 + 1, st.2)
    simp only [if_true]
    cases e : loop g (st.1 + 1, st.2) with
    | error x =>
      rw [e] at h1
      exact bindH_error h1
    | ok r =>
      obtain ⟨q, st'⟩ := r
      rw [e] at h1
      cases q with
      | error done => exact Grown.trans h1 (Grown.alloc (b := .arr done) rfl)
      | ok qs => exact ⟨bind_ok h1.1, h1.2.trans (Grown.alloc (b := .arr qs) rfl)⟩

/-- What `tryFill` leaves behind. -/
theorem tryFill_growing (left : ε) {loop : Attempt (List Ptr) (List Ptr)} {p : H (List Ptr)} (h : Grows loop p) :
    Growing left (tryFill left (fun _ => left) loop) (do let qs ← p; let a ← alloc (.arr qs); pure (some a)) := by
  intro g st
  have h0 := tryFill_grows left (fun _ => left) h g st
  have h2 : ∀ l st', tryFill left (fun _ => left) loop g st = .ok (.error l, st') → l = left := by
    intro l st' e
    unfold tryFill at e
    split at e
    · split at e
      · cases e
      · cases e; rfl
      · cases e
    · cases e; rfl
  cases e : tryFill left (fun _ => left) loop g st with
  | error x => rw [e] at h0; exact h0
  | ok r =>
    obtain ⟨q, st'⟩ := r
    rw [e] at h0
    cases q with
    | error l => exact ⟨h2 l st' e, h0⟩
    | ok a => exact h0

theorem tryCopyObjects_grows (done ps : List Ptr) : Grows (tryCopyObjects done ps) (copyObjects ps) := by
  induction ps generalizing done with
  | nil => exact .pure _
  | cons p ps ih => exact (tryCopyObject_growing done p).grows.bind fun q => (ih _).bind fun _ => .pure _

theorem tryCopyElements_grows (old : ε) (mk : Ptr → ε) (a : MailArr) : Grows (tryCopyElements old mk a) (copyElements a) := by
  refine (readArray_growing old _).grows.bind fun l => ?_
  split
  · exact tryFill_grows old mk (tryCopyObjects_grows _ _)
  · exact (failH_growing old _).grows

theorem tryCopyElements_growing (left : ε) (a : MailArr) : Growing left (tryCopyElements left (fun _ => left) a) (copyElements a) := by
  refine (readArray_growing left _).bind fun l => ?_
  split
  · exact tryFill_growing left (tryCopyObjects_grows _ _)
  · exact failH_growing left _

theorem tryNewObjects_grows (done : List Ptr) (ts : List (List Bytes)) : Grows (tryNewObjects done ts) (newObjects ts) := by
  induction ts generalizing done with
  | nil => exact .pure _
  | cons t ts ih =>
    exact Grows.bind (k := fun _ => newObjects (t :: ts)) (room_growing done).grows fun _ => (tryNewFields_growing done t).grows.bind fun fs =>
      (alloc_growing done _).grows.bind fun a => (ih _).bind fun _ => .pure _

theorem tryNewArray_growing (left : ε) (t : Option (List (List Bytes))) : Growing left (tryNewArray left t) (newArray t) := by
  cases t with
  | none => exact .pure _ _
  | some ts =>
    have := (tryFill_growing left (tryNewObjects_grows [] ts)).bind (k := fun p => (Pure.pure ({ ptr := p, count := ts.length } : MailArr) : H MailArr))
      fun p => Growing.pure left ({ ptr := p, count := ts.length } : MailArr)
    intro g st
    have h1 := this g st
    have e : (newArray (some ts)) st.2 = ((do let qs ← newObjects ts; let a ← alloc (.arr qs); pure (some a)) >>= fun p => (Pure.pure { ptr := p, count := ts.length } : H MailArr)) st.2 := by
      show (newObjects ts >>= fun qs => alloc (.arr qs) >>= fun a => (Pure.pure { ptr := some a, count := ts.length } : H MailArr)) st.2 = _
      cases en : newObjects ts st.2 with
      | error x => rw [bindH_error en, bindH_error (bindH_error en)]
      | ok r =>
        rw [bind_ok (a := r.1) (h' := r.2) en]
        rw [bind_ok (a := some r.2.next) (h' := _) (by rw [bind_ok (a := r.1) (h' := r.2) en]; rfl)]
        rfl
    rw [e]
    exact h1

theorem tryNewArrays_growing (left : ε) (ts : List (Option (List (List Bytes)))) : Growing left (tryNewArrays left ts) (newArrays ts) := by
  induction ts with
  | nil => exact .pure _ _
  | cons t ts ih => exact (tryNewArray_growing left t).bind fun _ => ih.bind fun _ => .pure _ _

theorem tryNewText_growing (left : ε) (t : Option Bytes) : Growing left (tryNewText left t) (newText t) := by
  cases t with
  | none => exact (tryAlloc_growing left _).bind fun _ => .pure _ _
  | some s => exact (tryAlloc_growing left _).bind fun _ => .pure _ _

theorem mail_tryConstruct_growing (left : ε) (t : MailArgs) : Growing left (MailObj.tryConstruct left t) (MailObj.construct t) :=
  (tryNewFields_growing left _).bind fun _ => (tryNewText_growing left _).bind fun _ => (tryNewText_growing left _).bind fun _ =>
    (tryNewArrays_growing left _).bind fun _ => .pure _ _

theorem tryCopyIfAny_growing (left : ε) (a : MailArr) : Growing left (tryCopyIfAny left a) (copyIfAny a) := by
  unfold tryCopyIfAny copyIfAny
  split
  · exact tryCopyElements_growing left a
  · exact .pure _ _

theorem tryCopyArrays_growing (left : ε) (as : List MailArr) : Growing left (tryCopyArrays left as) (copyArrays as) := by
  induction as with
  | nil => exact .pure _ _
  | cons a as ih => exact (tryCopyIfAny_growing left a).bind fun _ => ih.bind fun _ => .pure _ _

theorem mail_tryCopy_growing (left : ε) (m : MailObj) : Growing left (m.tryCopy left) m.copy :=
  (tryCopyFields_growing left _).bind fun _ => (tryCopyText_growing left _).bind fun _ => (tryCopyText_growing left _).bind fun _ =>
    (tryCopyArrays_growing left _).bind fun _ => .pure _ _

theorem tryReplaceIfAny_grows (old : ε) (mk : Ptr → ε) (p : Ptr) (b : MailArr) : Grows (tryReplaceIfAny old mk p b) (replaceIfAny p b) := by
  unfold tryReplaceIfAny replaceIfAny
  split
  · exact tryCopyElements_grows old mk b
  · exact .pure _

/-! ### Success -/

theorem tryAssignArrays_shadows (mk : List MailArr → ε) (as bs : List MailArr) : Shadows (tryAssignArrays mk as bs) (assignArrays as bs) := by
  induction as generalizing mk bs with
  | nil => cases bs <;> exact .pure _
  | cons a as ih =>
    cases bs with
    | nil => exact .pure _
    | cons b bs =>
      exact (Shadows.calm _).bind fun _ => (tryReplaceIfAny_grows _ _ _ _).shadows.bind fun _ => (ih _ _).bind fun _ => .pure _

theorem mail_tryAssign_shadows (v w : MailObj) : Shadows (v.tryAssign w) (v.assign w) :=
  (Shadows.calm _).bind fun _ => (tryCopyText_growing _ _).shadows.bind fun _ => (Shadows.calm _).bind fun _ =>
    (tryCopyText_growing _ _).shadows.bind fun _ => (tryAssignArrays_shadows _ _ _).bind fun _ => .pure _

theorem tryMoveAssign_shadows (left : ε) (v w : MailObj) : Shadows (v.tryMoveAssign left w) (v.moveAssign w) :=
  (Shadows.calm _).bind fun _ => (Shadows.calm _).bind fun _ => (Shadows.calm _).bind fun _ => (Shadows.calm _).bind fun _ =>
    (tryCopyFields_growing _ _).shadows.bind fun _ => .pure _

theorem tryMStep_shadows (o : Mails) (op : MOp) : Shadows (tryMStep o op) (mstep o op) := by
  cases op with
  | construct x t => exact (mail_tryConstruct_growing _ _).shadows.bind fun _ => .pure _
  | copy x y =>
    simp only [tryMStep, mstep]
    cases o y with
    | none => exact .calm _
    | some w => exact (mail_tryCopy_growing _ _).shadows.bind fun _ => .pure _
  | assign x y =>
    simp only [tryMStep, mstep]
    cases o x with
    | none => exact .calm _
    | some v =>
      cases o y with
      | none => exact .calm _
      | some w =>
        simp only
        split
        · exact .pure _
        · exact ((mail_tryAssign_shadows v w).mapLeft _).bind fun _ => .pure _
  | moveAssign x y =>
    simp only [tryMStep, mstep]
    cases o x with
    | none => exact .calm _
    | some v =>
      cases o y with
      | none => exact .calm _
      | some w =>
        simp only
        split
        · exact .pure _
        · exact (tryMoveAssign_shadows _ v w).bind fun _ => .pure _
  | move x y => exact .calm _
  | destroy x => exact .calm _

/-! ### Failure -/

theorem Frail.grows {P : List Cell} {m : Attempt ε α} {p : H α} {f : α → Attempt ε β} {R : List Cell → Prop} (h1 : Grows m p)
    (h2 : ∀ a M, Frail (M ++ P) (f a) R) : Frail P (m >>= f) R := by
  refine Frail.bind (Q := fun X => ∃ M, X = M ++ P) ?_ fun a X hX => ?_
  · intro g st F hE
    have h := h1 g st
    cases e : m g st with
    | error x => trivial
    | ok r =>
      obtain ⟨q, st'⟩ := r
      rw [e] at h
      cases q with
      | error l =>
        obtain ⟨M, hM⟩ := h _ hE
        exact ⟨M ++ P, by rwa [List.append_assoc]⟩
      | ok a =>
        obtain ⟨M, hM⟩ := h.2 _ hE
        exact ⟨_, ⟨M, rfl⟩, by rwa [List.append_assoc]⟩
  · obtain ⟨M, rfl⟩ := hX
    exact h2 a M

/-- The elements that an assignment deletes are the target's own. -/
theorem deleteIfAny_frees {a : MailArr} {p : Part} {cs : List Cell} (h : ArrCells a p cs) : ∃ C P', cs.Perm (C ++ P') ∧ Frees C (deleteIfAny a) := by
  unfold deleteIfAny
  split
  · rename_i ha
    cases h with
    | null => exact absurd ha (by simp)
    | stale => exact absurd ha (by simp)
    | owned hE => exact ⟨_, [], by rw [List.append_nil], deleteElements_frees hE⟩
  · exact ⟨[], cs, .refl _, Triple.pure () rfl⟩

theorem tryAssignArrays_frail {as : List MailArr} {ps : List Part} {cs : List Cell} (h : ArrsCells as ps cs) (mk : List MailArr → ε) (bs : List MailArr)
    (F : List Cell) : Frail (cs ++ F) (tryAssignArrays mk as bs) (fun _ => True) := by
  induction h generalizing mk bs F with
  | nil => cases bs <;> exact Frail.pure _ trivial
  | @cons a as p ps c ds hA _ ih =>
    cases bs with
    | nil => exact Frail.pure _ trivial
    | cons b bs =>
      obtain ⟨C, P', hp, hf⟩ := deleteIfAny_frees hA
      refine Frail.free hf (P' := ds ++ (P' ++ F)) (((hp.append_right ds).append_right F).trans (by permute)) ?_
      refine Frail.grows (tryReplaceIfAny_grows _ _ _ _) fun q M => ?_
      refine Frail.bind (Q := fun _ => True) ?_ fun _ _ _ => Frail.pure _ trivial
      intro g st F' hE
      exact ih _ bs (M ++ (P' ++ F)) g st F' (hE.perm (by permute))

theorem mail_tryAssign_frail {m : MailObj} {v : Mail} {cs : List Cell} (h : MailCells m v cs) (d : MailObj) : Frail cs (m.tryAssign d) (fun _ => True) := by
  obtain ⟨ds, hA, hp⟩ := h.arrays
  obtain ⟨h1, h2⟩ := matches_pair h.texts
  rw [fieldCells_pair] at hp
  refine Frail.free (deleteText_frees h1) (P' := fieldCells m.sender v.sender ++ (fieldCells [m.body] [v.body] ++ ds)) (hp.trans (by permute)) ?_
  refine Frail.grow (tryCopyText_growing _ _) fun q M => ?_
  refine Frail.free (deleteText_frees h2) (P' := ds ++ (fieldCells m.sender v.sender ++ M)) (by permute) ?_
  refine Frail.grow (tryCopyText_growing _ _) fun q M' => ?_
  refine Frail.bind (Q := fun _ => True) ?_ fun _ _ _ => Frail.pure _ trivial
  intro g st F' hE
  exact tryAssignArrays_frail hA _ d.arrays (fieldCells m.sender v.sender ++ M ++ M') g st F' (hE.perm (by permute))

/-! ### Spoilt messages out of sight -/

/-- The messages that have a value. -/
def seenMails (s : MailValues) (o : Mails) : Mails := fun x => if s x = none then none else o x

/-- The messages that must be there. -/
def mailNeeds : MOp → List Nat
  | .construct _ _ => []
  | .copy _ y | .move _ y => [y]
  | .assign x y | .moveAssign x y => [x, y]
  | .destroy x => [x]

/-- The message that is new. -/
def mailBrings : MOp → List Nat
  | .construct x _ | .copy x _ | .move x _ => [x]
  | _ => []

theorem mailNeeds_some {s s' : MailValues} {op : MOp} (h : mailStep s op = some s') : ∀ y ∈ mailNeeds op, s y ≠ none := by
  intro y hy
  cases op with
  | construct x t => cases hy
  | copy x z =>
    cases List.mem_singleton.mp hy
    intro e; simp only [mailStep, e] at h; cases h
  | move x z =>
    cases List.mem_singleton.mp hy
    intro e; simp only [mailStep, e] at h; cases h
  | assign x z =>
    simp only [mailStep] at h
    split at h
    case h_2 => cases h
    rename_i e1 e2
    rcases List.mem_cons.mp hy with rfl | hy
    · rw [e1]; nofun
    · cases List.mem_singleton.mp hy; rw [e2]; nofun
  | moveAssign x z =>
    simp only [mailStep] at h
    split at h
    case h_2 => cases h
    rename_i e1 e2
    rcases List.mem_cons.mp hy with rfl | hy
    · rw [e1]; nofun
    · cases List.mem_singleton.mp hy; rw [e2]; nofun
  | destroy x =>
    cases List.mem_singleton.mp hy
    intro e; simp only [mailStep, e] at h; cases h

theorem bindMail_some {s : MailValues} {x y : Nat} {v : Option Mail} (h : bindMail s x v y ≠ none) : y = x ∨ s y ≠ none := by
  unfold bindMail at h
  split at h
  · rename_i e; exact .inl e
  · exact .inr h

theorem mailBrings_some {s s' : MailValues} {op : MOp} (h : mailStep s op = some s') (y : Nat) (hy : s' y ≠ none) : y ∈ mailBrings op ∨ s y ≠ none := by
  by_cases hd : y ∈ mailNeeds op
  · exact .inr (mailNeeds_some h y hd)
  have one : ∀ x v, s' = bindMail s x v → x ∈ mailNeeds op ∨ x ∈ mailBrings op → y ∈ mailBrings op ∨ s y ≠ none := by
    rintro x v rfl hx
    rcases bindMail_some hy with rfl | h1
    · exact hx.elim (fun h => absurd h hd) .inl
    · exact .inr h1
  have two : ∀ x v z w, s' = bindMail (bindMail s z w) x v → (x ∈ mailNeeds op ∨ x ∈ mailBrings op) → z ∈ mailNeeds op → y ∈ mailBrings op ∨ s y ≠ none := by
    rintro x v z w rfl hx hz
    rcases bindMail_some hy with rfl | h1
    · exact hx.elim (fun h => absurd h hd) .inl
    · rcases bindMail_some h1 with rfl | h2
      · exact absurd hz hd
      · exact .inr h2
  cases op with
  | construct x t =>
    simp only [mailStep] at h
    split at h
    · exact one _ _ (Option.some.inj h).symm (.inr (List.mem_singleton.mpr rfl))
    · cases h
  | copy x z =>
    simp only [mailStep] at h
    split at h
    · split at h
      · exact one _ _ (Option.some.inj h).symm (.inr (List.mem_singleton.mpr rfl))
      · cases h
    · cases h
  | move x z =>
    simp only [mailStep] at h
    split at h
    · split at h
      · exact two _ _ _ _ (Option.some.inj h).symm (.inr (List.mem_singleton.mpr rfl)) (List.mem_singleton.mpr rfl)
      · cases h
    · cases h
  | assign x z =>
    simp only [mailStep] at h
    split at h
    · split at h
      · cases h; exact .inr hy
      · split at h
        · exact one _ _ (Option.some.inj h).symm (.inl (List.mem_cons_self ..))
        · cases h
    · cases h
  | moveAssign x z =>
    simp only [mailStep] at h
    split at h
    · split at h
      · cases h; exact .inr hy
      · split at h
        · exact two _ _ _ _ (Option.some.inj h).symm (.inl (List.mem_cons_self ..)) (by simp [mailNeeds])
        · cases h
    · cases h
  | destroy x =>
    simp only [mailStep] at h
    split at h
    · split at h
      · exact one _ _ (Option.some.inj h).symm (.inl (List.mem_singleton.mpr rfl))
      · cases h
    · cases h

theorem bindH_mails {α : Type} {p : H α} {k : α → Mails} {h h' : Heap} {o : Mails} (e : (do let a ← p; pure (k a)) h = .ok (o, h')) :
    ∃ a, p h = .ok (a, h') ∧ o = k a := by
  cases ep : p h with
  | error x => rw [bindH_error ep] at e; cases e
  | ok r =>
    rw [bind_ok (a := r.1) (h' := r.2) ep] at e
    cases e
    exact ⟨_, rfl, rfl⟩

theorem setMail_agree {o o' : Mails} {x y : Nat} {v : Option MailObj} (h : y = x ∨ o y = o' y) : setMail o x v y = setMail o' x v y := by
  unfold setMail
  split
  · rfl
  · rename_i hy; exact h.resolve_left hy

/-- A step does the same with other messages that it does not need. -/
theorem mstep_agree {o1 o2 o1' : Mails} {op : MOp} {h h' : Heap} (hu : ∀ y ∈ mailNeeds op, o1 y = o2 y) (e : mstep o1 op h = .ok (o1', h')) :
    ∃ o2', mstep o2 op h = .ok (o2', h') ∧ ∀ y, y ∈ mailBrings op ∨ o1 y = o2 y → o1' y = o2' y := by
  cases op with
  | construct x t =>
    obtain ⟨a, e1, rfl⟩ := bindH_mails e
    refine ⟨setMail o2 x (some a), ?_, fun y hy => setMail_agree (hy.imp_left List.mem_singleton.mp)⟩
    simp only [mstep]
    rw [bind_ok e1]
    rfl
  | copy x z =>
    have hz := hu z (List.mem_singleton.mpr rfl)
    simp only [mstep, ← hz] at e ⊢
    cases ho : o1 z with
    | none => rw [ho] at e; cases e
    | some w =>
      rw [ho] at e
      obtain ⟨a, e1, rfl⟩ := bindH_mails e
      refine ⟨setMail o2 x (some a), ?_, fun y hy => setMail_agree (hy.imp_left List.mem_singleton.mp)⟩
      simp only
      rw [bind_ok e1]
      rfl
  | move x z =>
    have hz := hu z (List.mem_singleton.mpr rfl)
    simp only [mstep, ← hz] at e ⊢
    cases ho : o1 z with
    | none => rw [ho] at e; cases e
    | some w =>
      rw [ho] at e
      cases e
      refine ⟨_, rfl, fun y hy => setMail_agree (hy.imp List.mem_singleton.mp fun h => setMail_agree (.inr h))⟩
  | assign x z =>
    have hx := hu x (List.mem_cons_self ..)
    have hz := hu z (by simp [mailNeeds])
    simp only [mstep, ← hz, ← hx] at e ⊢
    cases ho : o1 x with
    | none => rw [ho] at e; cases e
    | some v =>
      cases ho' : o1 z with
      | none => rw [ho, ho'] at e; cases e
      | some w =>
        rw [ho, ho'] at e
        simp only at e ⊢
        split at e
        · cases e
          rename_i hxz
          rw [if_pos hxz]
          exact ⟨o2, rfl, fun y hy => hy.resolve_left nofun⟩
        · rename_i hxz
          rw [if_neg hxz]
          obtain ⟨a, e1, rfl⟩ := bindH_mails e
          refine ⟨setMail o2 x (some a), ?_, fun y hy => setMail_agree (.inr (hy.resolve_left nofun))⟩
          rw [bind_ok e1]
          rfl
  | moveAssign x z =>
    have hx := hu x (List.mem_cons_self ..)
    have hz := hu z (by simp [mailNeeds])
    simp only [mstep, ← hz, ← hx] at e ⊢
    cases ho : o1 x with
    | none => rw [ho] at e; cases e
    | some v =>
      cases ho' : o1 z with
      | none => rw [ho, ho'] at e; cases e
      | some w =>
        rw [ho, ho'] at e
        simp only at e ⊢
        split at e
        · cases e
          rename_i hxz
          rw [if_pos hxz]
          exact ⟨o2, rfl, fun y hy => hy.resolve_left nofun⟩
        · rename_i hxz
          rw [if_neg hxz]
          obtain ⟨a, e1, rfl⟩ := bindH_mails e
          refine ⟨setMail (setMail o2 z (some a.2)) x (some a.1), ?_,
            fun y hy => setMail_agree (.inr (setMail_agree (.inr (hy.resolve_left nofun))))⟩
          rw [bind_ok e1]
          rfl
  | destroy x =>
    have hx := hu x (List.mem_singleton.mpr rfl)
    simp only [mstep, ← hx] at e ⊢
    cases ho : o1 x with
    | none => rw [ho] at e; cases e
    | some v =>
      rw [ho] at e
      obtain ⟨a, e1, rfl⟩ := bindH_mails e
      refine ⟨setMail o2 x none, ?_, fun y hy => setMail_agree (.inr (hy.resolve_left nofun))⟩
      simp only
      rw [bind_ok e1]
      rfl

/-- What can be seen of the messages after a step that succeeds. -/
theorem mstep_seen {o : Mails} {s s' : MailValues} {h : Heap} {k : Nat} (hR : MRel (seenMails s o) s h k) (op : MOp)
    (hs : mailStep s op = some s') : ∃ o' h' k', mstep o op h = .ok (o', h') ∧ MRel (seenMails s' o') s' h' k' := by
  obtain ⟨o1, h', e, hR1⟩ := mstep_refines hR op hs
  obtain ⟨o', e', ha⟩ := mstep_agree (o2 := o) (fun y hy => by unfold seenMails; rw [if_neg (mailNeeds_some hs y hy)]) e
  refine ⟨o', h', Spec.lostIn s op + k, e', ?_⟩
  have : o1 = seenMails s' o' := by
    funext y
    unfold seenMails
    split
    · rename_i hy
      obtain ⟨cs, names, leaked, -, hat, -⟩ := hR1
      have := hat y
      rw [hy] at this
      exact this.absent.1
    · rename_i hy
      exact ha y ((mailBrings_some hs y hy).imp_right fun h1 => by unfold seenMails; rw [if_neg h1])
  exact this ▸ hR1

theorem MRel.grown {o : Mails} {s : MailValues} {h h' : Heap} {k : Nat} (hR : MRel o s h k) (hG : Grown h h') : ∃ k', MRel o s h' k' := by
  obtain ⟨cs, names, leaked, rfl, hat, hn, hnames, hE⟩ := hR
  obtain ⟨M, hM⟩ := hG _ hE
  exact ⟨_, cs, names, M ++ leaked, rfl, hat, hn, hnames, hM.perm (by permute)⟩

/-- A message whose cells are given up. -/
theorem MRel.spoil {o : Mails} {s : MailValues} {h : Heap} {k : Nat} {x : Nat} {v : Mail} (hR : MRel (seenMails s o) s h k)
    (hx : s x = some v) : ∃ m cs R, o x = some m ∧ MailCells m v cs ∧ Exact h (cs ++ R) ∧
      ∀ h' M d, Exact h' (M ++ R) → ∃ k', MRel (seenMails (bindMail s x none) (setMail o x d)) (bindMail s x none) h' k' := by
  obtain ⟨cs, names, leaked, -, hat, hn, hnames, hE⟩ := hR
  have hax := hat x
  rw [hx] at hax
  obtain ⟨c, hc, hcc⟩ := hax.object
  have hxn := hnames x (by rw [hc]; nofun)
  have ho : o x = some c := by
    unfold seenMails at hc
    rwa [if_neg (by rw [hx]; nofun)] at hc
  refine ⟨c, cs x, restCells names cs x ++ leaked, ho, hcc, hE.perm ?_, fun h' M d hM => ?_⟩
  · exact ((flat_focus hn hxn cs).append_right leaked).trans (by permute)
  · have e : seenMails (bindMail s x none) (setMail o x d) = setMail (seenMails s o) x none := by
      funext y
      unfold seenMails bindMail setMail
      by_cases hy : y = x <;> simp [hy]
    rw [e]
    refine ⟨_, updCells cs x [], names, M ++ leaked, rfl, mailAt_update hat .none, hn, setMail_names hnames hxn _, hM.perm ?_⟩
    exact List.Perm.trans (by permute) ((flat_update hn hxn cs []).symm.append_right (M ++ leaked))

theorem left_then {m : Attempt ε α} {f : α → β} {g : Nat → Bool} {st st' : Nat × Heap} {l : ε}
    (e : (m >>= fun a => (Pure.pure (f a) : Attempt ε β)) g st = .ok (.error l, st')) : m g st = .ok (.error l, st') := by
  cases em : m g st with
  | error x => rw [bindA_error em] at e; cases e
  | ok r =>
    obtain ⟨q, st1⟩ := r
    cases q with
    | error c => rw [bindA_left em] at e; cases e; rfl
    | ok a => rw [bindA_ok em] at e; cases e

theorem tryMoveAssign_left {left : ε} {v w : MailObj} {g : Nat → Bool} {st st' : Nat × Heap} {l : ε}
    (e : v.tryMoveAssign left w g st = .ok (.error l, st')) : l = left := by
  have skip : ∀ {α β : Type} {p : H α} {f : α → Attempt ε β} {st st' : Nat × Heap}, (Model.calm p >>= f) g st = .ok (.error l, st') →
      ∃ a st1, f a g st1 = .ok (.error l, st') := by
    intro α β p f st st' e
    cases ec : (Model.calm p : Attempt ε α) g st with
    | error x => rw [bindA_error ec] at e; cases e
    | ok r =>
      obtain ⟨q, st1⟩ := r
      cases q with
      | error c => exact absurd ec (calm_ok p g st st1 c)
      | ok a => rw [bindA_ok ec] at e; exact ⟨a, st1, e⟩
  unfold MailObj.tryMoveAssign at e
  obtain ⟨_, _, e⟩ := skip e
  obtain ⟨_, _, e⟩ := skip e
  obtain ⟨_, _, e⟩ := skip e
  obtain ⟨_, st1, e⟩ := skip e
  have h := tryCopyFields_growing left w.sender g st1
  rw [left_then e] at h
  exact h.1

/-- What can be seen of the messages after a step that fails. -/
theorem tryMStep_failed {o : Mails} {l : Option Mails} {s s' : MailValues} {k : Nat} {g : Nat → Bool} {st st' : Nat × Heap}
    (hR : MRel (seenMails s o) s st.2 k) (op : MOp) (hs : mailStep s op = some s') (he : tryMStep o op g st = .ok (.error l, st')) :
    MailMayRunOut op ∧ (fatal op = true → l = none) ∧
      (fatal op = false → ∃ o' k', l = some o' ∧ MRel (seenMails (mailOutcome s s' op false) o') (mailOutcome s s' op false) st'.2 k') := by
  have there : ∀ z, z ∈ mailNeeds op → ∃ v m, s z = some v ∧ o z = some m := by
    intro z hz
    obtain ⟨v, hv⟩ := Option.ne_none_iff_exists'.mp (mailNeeds_some hs z hz)
    obtain ⟨m, _, _, ho, _⟩ := hR.spoil hv
    exact ⟨v, m, hv, ho⟩
  cases op with
  | construct x t =>
    have h := mail_tryConstruct_growing (some o) t g st
    rw [left_then he] at h
    obtain ⟨rfl, hG⟩ := h
    obtain ⟨k', h'⟩ := hR.grown hG
    exact ⟨trivial, nofun, fun _ => ⟨o, k', rfl, h'⟩⟩
  | copy x y =>
    obtain ⟨w, m, hw, ho⟩ := there y (List.mem_singleton.mpr rfl)
    simp only [tryMStep, ho] at he
    have h := mail_tryCopy_growing (some o) m g st
    rw [left_then he] at h
    obtain ⟨rfl, hG⟩ := h
    obtain ⟨k', h'⟩ := hR.grown hG
    exact ⟨trivial, nofun, fun _ => ⟨o, k', rfl, h'⟩⟩
  | assign x y =>
    obtain ⟨v, m, hv, hox⟩ := there x (List.mem_cons_self ..)
    obtain ⟨w, n, hw, hoy⟩ := there y (by simp [mailNeeds])
    by_cases hxy : x = y
    · simp only [tryMStep, hox, hoy, if_pos hxy] at he
      cases he
    · simp only [tryMStep, hox, hoy, if_neg hxy] at he
      obtain ⟨d, ed, rfl⟩ := mapLeft_left (fun _ _ _ _ h => by cases h) he
      obtain ⟨c, cs, R, ho, hcc, hE, hk⟩ := hR.spoil hv
      rw [hox] at ho
      cases ho
      have := mail_tryAssign_frail hcc n g st R hE
      rw [ed] at this
      obtain ⟨M, hM⟩ := this
      obtain ⟨k', h'⟩ := hk _ M (some d) hM
      exact ⟨hxy, nofun, fun _ => ⟨_, k', rfl, h'⟩⟩
  | moveAssign x y =>
    obtain ⟨v, m, hv, hox⟩ := there x (List.mem_cons_self ..)
    obtain ⟨w, n, hw, hoy⟩ := there y (by simp [mailNeeds])
    by_cases hxy : x = y
    · simp only [tryMStep, hox, hoy, if_pos hxy] at he
      cases he
    · simp only [tryMStep, hox, hoy, if_neg hxy] at he
      exact ⟨hxy, fun _ => tryMoveAssign_left (left_then he), nofun⟩
  | move x y => exact absurd he (calm_ok (mstep _ _) g st st' _)
  | destroy x => exact absurd he (calm_ok (mstep _ _) g st st' _)

theorem tryMRun_refines {g : Nat → Bool} (ops : List MOp) (o : Mails) (s : MailValues) (st : Nat × Heap) (k : Nat)
    (hR : MRel (seenMails s o) s st.2 k) (hc : MailSparing s ops (tryMRun g o st ops).1) :
    ∃ r, (tryMRun g o st ops).2 = .ok r ∧ MailFailedRightly r.isNone ops (tryMRun g o st ops).1 ∧
      ∀ o' h, r = some (o', h) → ∃ k', MRel (seenMails (mailOutcomes s ops (tryMRun g o st ops).1) o') (mailOutcomes s ops (tryMRun g o st ops).1) h k' := by
  induction ops generalizing o s st k with
  | nil =>
    refine ⟨some (o, st.2), rfl, rfl, fun o' h e => ?_⟩
    cases e
    exact ⟨k, hR⟩
  | cons p ps ih =>
    obtain ⟨s', hs, hrest⟩ := hc
    obtain ⟨o1, h1, k1, e1, hR1⟩ := mstep_seen hR p hs
    have hsh := tryMStep_shadows o p g st
    cases e : tryMStep o p g st with
    | error x => rw [e] at hsh; rw [e1] at hsh; cases hsh
    | ok r =>
      obtain ⟨q, st1⟩ := r
      rw [e] at hsh
      cases q with
      | ok o2 =>
        have hsh : mstep o p st.2 = .ok (o2, st1.2) := hsh
        rw [e1] at hsh
        cases hsh
        have er : tryMRun g o st (p :: ps) = (true :: (tryMRun g o1 st1 ps).1, (tryMRun g o1 st1 ps).2) := by simp only [tryMRun, e]
        rw [er] at hrest ⊢
        obtain ⟨r, a1, a2, a3⟩ := ih o1 s' st1 k1 hR1 (hrest.resolve_left (fun h => by cases h.1))
        refine ⟨r, a1, a2, ?_⟩
        simp only [mailOutcomes, hs]
        exact a3
      | error l =>
        obtain ⟨hm, hf1, hf2⟩ := tryMStep_failed hR p hs e
        cases hf : fatal p with
        | true =>
          cases hf1 hf
          have er : tryMRun g o st (p :: ps) = ([false], .ok none) := by simp only [tryMRun, e]
          rw [er]
          refine ⟨none, rfl, ⟨hm, ?_⟩, nofun⟩
          rw [if_pos hf]
          exact ⟨rfl, rfl⟩
        | false =>
          obtain ⟨o2, k2, rfl, hR2⟩ := hf2 hf
          have er : tryMRun g o st (p :: ps) = (false :: (tryMRun g o2 st1 ps).1, (tryMRun g o2 st1 ps).2) := by simp only [tryMRun, e]
          rw [er] at hrest ⊢
          obtain ⟨r, a1, a2, a3⟩ := ih o2 _ st1 k2 hR2 (hrest.resolve_left (fun h => by rw [hf] at h; cases h.2))
          refine ⟨r, a1, ⟨hm, ?_⟩, ?_⟩
          · rw [if_neg (by rw [hf]; nofun)]
            exact a2
          · simp only [mailOutcomes, hs]
            exact a3

/-! ### Plenty of memory -/

theorem tryFill_willing (old : ε) (mk : Ptr → ε) {loop : Attempt (List Ptr) (List Ptr)} (h : Willing loop) : Willing (tryFill old mk loop) := by
  intro st l st' e
  unfold tryFill at e
  simp only [if_true] at e
  cases el : loop (fun _ => true) (st.1 + 1, st.2) with
  | error x => rw [el] at e; cases e
  | ok r =>
    obtain ⟨q, st1⟩ := r
    rw [el] at e
    cases q with
    | error d => exact h _ _ _ el
    | ok qs => cases e

theorem tryCopyObjects_willing (done ps : List Ptr) : Willing (tryCopyObjects done ps) := by
  induction ps generalizing done with
  | nil => exact .pure _
  | cons p ps ih => exact (tryCopyObject_willing done p).bind fun _ => (ih _).bind fun _ => .pure _

theorem tryCopyElements_willing (old : ε) (mk : Ptr → ε) (a : MailArr) : Willing (tryCopyElements old mk a) := by
  refine (Willing.calm _).bind fun l => ?_
  split
  · exact tryFill_willing old mk (tryCopyObjects_willing _ _)
  · exact .calm _

theorem tryNewObjects_willing (done : List Ptr) (ts : List (List Bytes)) : Willing (tryNewObjects done ts) := by
  induction ts generalizing done with
  | nil => exact .pure _
  | cons t ts ih =>
    exact (room_willing done).bind fun _ => (tryNewFields_willing done t).bind fun _ => (Willing.calm _).bind fun _ => (ih _).bind fun _ => .pure _

theorem tryNewArrays_willing (left : ε) (ts : List (Option (List (List Bytes)))) : Willing (tryNewArrays left ts) := by
  induction ts with
  | nil => exact .pure _
  | cons t ts ih =>
    refine Willing.bind ?_ fun _ => ih.bind fun _ => .pure _
    cases t with
    | none => exact .pure _
    | some t => exact (tryFill_willing left _ (tryNewObjects_willing [] t)).bind fun _ => .pure _

theorem tryNewText_willing (left : ε) (t : Option Bytes) : Willing (tryNewText left t) := by
  cases t with
  | none => exact (tryAlloc_willing left _).bind fun _ => .pure _
  | some s => exact (tryAlloc_willing left _).bind fun _ => .pure _

theorem tryCopyArrays_willing (left : ε) (as : List MailArr) : Willing (tryCopyArrays left as) := by
  induction as with
  | nil => exact .pure _
  | cons a as ih =>
    refine Willing.bind ?_ fun _ => ih.bind fun _ => .pure _
    unfold tryCopyIfAny
    split
    · exact tryCopyElements_willing left _ a
    · exact .pure _

theorem tryAssignArrays_willing (mk : List MailArr → ε) (as bs : List MailArr) : Willing (tryAssignArrays mk as bs) := by
  induction as generalizing mk bs with
  | nil => cases bs <;> exact .pure _
  | cons a as ih =>
    cases bs with
    | nil => exact .pure _
    | cons b bs =>
      refine (Willing.calm _).bind fun _ => Willing.bind ?_ fun _ => (ih _ _).bind fun _ => .pure _
      unfold tryReplaceIfAny
      split
      · exact tryCopyElements_willing _ _ b
      · exact .pure _

theorem tryMStep_willing (o : Mails) (op : MOp) : Willing (tryMStep o op) := by
  cases op with
  | construct x t =>
    exact ((tryNewFields_willing _ _).bind fun _ => (tryNewText_willing _ _).bind fun _ => (tryNewText_willing _ _).bind fun _ =>
      (tryNewArrays_willing _ _).bind fun _ => .pure _).bind fun _ => .pure _
  | copy x y =>
    simp only [tryMStep]
    cases o y with
    | none => exact .calm _
    | some w =>
      exact ((tryCopyFields_willing _ _).bind fun _ => (tryCopyText_willing _ _).bind fun _ => (tryCopyText_willing _ _).bind fun _ =>
        (tryCopyArrays_willing _ _).bind fun _ => .pure _).bind fun _ => .pure _
  | assign x y =>
    simp only [tryMStep]
    cases o x with
    | none => exact .calm _
    | some v =>
      cases o y with
      | none => exact .calm _
      | some w =>
        simp only
        split
        · exact .pure _
        · refine (Willing.mapLeft ?_ _).bind fun _ => .pure _
          exact (Willing.calm _).bind fun _ => (tryCopyText_willing _ _).bind fun _ => (Willing.calm _).bind fun _ =>
            (tryCopyText_willing _ _).bind fun _ => (tryAssignArrays_willing _ _ _).bind fun _ => .pure _
  | moveAssign x y =>
    simp only [tryMStep]
    cases o x with
    | none => exact .calm _
    | some v =>
      cases o y with
      | none => exact .calm _
      | some w =>
        simp only
        split
        · exact .pure _
        · refine Willing.bind ?_ fun _ => .pure _
          exact (Willing.calm _).bind fun _ => (Willing.calm _).bind fun _ => (Willing.calm _).bind fun _ => (Willing.calm _).bind fun _ =>
            (tryCopyFields_willing _ _).bind fun _ => .pure _
  | move x y => exact .calm _
  | destroy x => exact .calm _

theorem tryMRun_plenty (ops : List MOp) (o : Mails) (st : Nat × Heap) :
    (tryMRun (fun _ => true) o st ops).2 = (mrun o ops st.2).map some ∧ false ∉ (tryMRun (fun _ => true) o st ops).1 := by
  induction ops generalizing o st with
  | nil => exact ⟨rfl, nofun⟩
  | cons p ps ih =>
    have hs := tryMStep_shadows o p (fun _ => true) st
    simp only [tryMRun, mrun]
    cases e : tryMStep o p (fun _ => true) st with
    | error x => rw [e] at hs; rw [bindH_error hs]; exact ⟨rfl, nofun⟩
    | ok r =>
      obtain ⟨q, st1⟩ := r
      cases q with
      | error l => exact absurd e (tryMStep_willing o p _ _ _)
      | ok o1 =>
        rw [e] at hs
        have hs : mstep o p st.2 = .ok (o1, st1.2) := hs
        rw [bind_ok hs]
        obtain ⟨h1, h2⟩ := ih o1 st1
        exact ⟨h1, by simpa using h2⟩

end Verif.Proofs
