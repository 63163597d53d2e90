import Verif.Model.Scarce
import Verif.Spec.Scarce
import Verif.Proofs.Objects
/-! Objects when memory runs out: an operation that succeeds does what it does with unlimited memory, and one that fails leaves what the specification says. -/
namespace Verif.Proofs
open Verif Verif.Model Verif.Spec

/-- The heap only got more cells. -/
def Grown (h h' : Heap) : Prop := ∀ L, Exact h L → ∃ M, Exact h' (M ++ L)

theorem Grown.refl (h : Heap) : Grown h h := fun _ hE => ⟨[], hE⟩

theorem Grown.trans {h h' h'' : Heap} (h1 : Grown h h') (h2 : Grown h' h'') : Grown h h'' := by
  intro L hE
  obtain ⟨M, hM⟩ := h1 L hE
  obtain ⟨M', hM'⟩ := h2 _ hM
  exact ⟨M' ++ M, by rwa [List.append_assoc]⟩

theorem Grown.alloc {h h' : Heap} {b : Block} {a : Nat} (e : alloc b h = .ok (a, h')) : Grown h h' := by
  intro L hE
  obtain ⟨r, h1, P', e1, hQ, hE'⟩ := Triple.alloc b h L hE
  rw [e] at e1
  cases e1
  exact ⟨P', hE'⟩

theorem tryNew_cases (b : Block) (g : Nat → Bool) (st : Nat × Heap) :
    tryNew b g st = .ok (none, (st.1 + 1, st.2)) ∨ ∃ a h', alloc b st.2 = .ok (a, h') ∧ tryNew b g st = .ok (some a, (st.1 + 1, h')) := by
  unfold tryNew
  split
  · exact .inr ⟨_, _, rfl, rfl⟩
  · exact .inl rfl

theorem bindH_error {α β : Type} {p : H α} {f : α → H β} {h : Heap} {x : MemErr} (e : p h = .error x) : (p >>= f) h = .error x := by
  show (match p h with | .ok (a, h') => f a h' | .error e => .error e) = _
  rw [e]

theorem readText_heap {p : Ptr} {h h' : Heap} {s : Bytes} (e : readText p h = .ok (s, h')) : h' = h := by
  unfold readText at e
  split at e
  · cases e
  · split at e <;> cases e <;> rfl

theorem readArg_heap {o : Objs} {t : Arg} {h h' : Heap} {s : Bytes} (e : readArg o t h = .ok (s, h')) : h' = h := by
  cases t with
  | text c => cases e; rfl
  | field x i =>
    have e' : (getter o x i >>= fun p => readText p) h = .ok (s, h') := e
    cases ho : o x with
    | none =>
      have hg : getter o x i h = .error .deadRead := by unfold getter; rw [ho]; rfl
      rw [bindH_error hg] at e'
      cases e'
    | some v =>
      have hg : getter o x i h = .ok (v.fields.getD i none, h) := by unfold getter; rw [ho]; rfl
      rw [bind_ok hg] at e'
      exact readText_heap e'

theorem bindS_ok {α β : Type} {p : S α} {f : α → S β} {g : Nat → Bool} {st st' : Nat × Heap} {a : α} (e : p g st = .ok (a, st')) :
    (p >>= f) g st = f a g st' := by
  show (match p g st with | .ok (a, st') => f a g st' | .error e => .error e) = _
  rw [e]

theorem bindS_error {α β : Type} {p : S α} {f : α → S β} {g : Nat → Bool} {st : Nat × Heap} {x : MemErr} (e : p g st = .error x) :
    (p >>= f) g st = .error x := by
  show (match p g st with | .ok (a, st') => f a g st' | .error e => .error e) = _
  rw [e]

theorem liftS_ok {α : Type} {p : H α} {g : Nat → Bool} {st : Nat × Heap} {a : α} {h : Heap} (e : p st.2 = .ok (a, h)) : liftS p g st = .ok (a, (st.1, h)) := by
  unfold liftS; rw [e]

theorem liftS_error {α : Type} {p : H α} {g : Nat → Bool} {st : Nat × Heap} {x : MemErr} (e : p st.2 = .error x) : liftS p g st = .error x := by
  unfold liftS; rw [e]

/-- How a part that may fail relates to the one that does not. -/
def Shadow {α : Type} (h : Heap) (r : Except MemErr (Option α × (Nat × Heap))) (q : Except MemErr (α × Heap)) : Prop :=
  match r with
  | .error e => q = .error e
  | .ok (some a, st') => q = .ok (a, st'.2)
  | .ok (none, st') => Grown h st'.2

theorem constructS_shadow (o : Objs) (g : Nat → Bool) (ts : List Arg) (st : Nat × Heap) :
    Shadow st.2 (constructS o ts g st) (constructFields o ts st.2) := by
  induction ts generalizing st with
  | nil => exact rfl
  | cons t ts ih =>
    unfold constructS constructFields
    cases e : readArg o t st.2 with
    | error x => rw [bindS_error (liftS_error e), bindH_error e]; exact rfl
    | ok r =>
      obtain ⟨s, h⟩ := r
      have hh := readArg_heap e
      subst hh
      rw [bindS_ok (liftS_ok e), bind_ok e]
      rcases tryNew_cases (.chars s) g st with e1 | ⟨a, h1, ea, e1⟩
      · rw [bindS_ok e1]
        exact Grown.refl _
      · rw [bindS_ok e1, bind_ok ea]
        dsimp only
        have := ih (st.1 + 1, h1)
        cases e2 : constructS o ts g (st.1 + 1, h1) with
        | error x =>
          rw [e2] at this
          rw [bindS_error e2, bindH_error this]
          exact rfl
        | ok r =>
          obtain ⟨q, st2⟩ := r
          rw [e2] at this
          rw [bindS_ok e2]
          cases q with
          | none => exact (Grown.alloc ea).trans this
          | some qs =>
            rw [bind_ok this]
            exact rfl

theorem copyS_shadow (g : Nat → Bool) (ps : List Ptr) (st : Nat × Heap) : Shadow st.2 (copyS ps g st) (copyFields ps st.2) := by
  induction ps generalizing st with
  | nil => exact rfl
  | cons p ps ih =>
    unfold copyS copyFields
    cases e : readText p st.2 with
    | error x => rw [bindS_error (liftS_error e), bindH_error (by unfold copyText; exact bindH_error e)]; exact rfl
    | ok r =>
      obtain ⟨s, h⟩ := r
      have hh := readText_heap e
      subst hh
      rw [bindS_ok (liftS_ok e)]
      rcases tryNew_cases (.chars s) g st with e1 | ⟨a, h1, ea, e1⟩
      · rw [bindS_ok e1]
        exact Grown.refl _
      · have ec : copyText p st.2 = .ok (some a, h1) := by
          unfold copyText
          rw [bind_ok e, bind_ok ea]
          rfl
        rw [bindS_ok e1, bind_ok ec]
        dsimp only
        have := ih (st.1 + 1, h1)
        cases e2 : copyS ps g (st.1 + 1, h1) with
        | error x =>
          rw [e2] at this
          rw [bindS_error e2, bindH_error this]
          exact rfl
        | ok r =>
          obtain ⟨q, st2⟩ := r
          rw [e2] at this
          rw [bindS_ok e2]
          cases q with
          | none => exact (Grown.alloc ea).trans this
          | some qs =>
            rw [bind_ok this]
            exact rfl

/-- Replace members one after the other. -/
def setFrom : Nat → List Ptr → List Ptr → List Ptr
  | _, [], fs => fs
  | i, q :: qs, fs => setFrom (i + 1) qs (fs.set i q)

theorem setFrom_append (qs pre fs : List Ptr) (h : fs.length = qs.length) : setFrom pre.length qs (pre ++ fs) = pre ++ qs := by
  induction qs generalizing pre fs with
  | nil =>
    have : fs = [] := List.eq_nil_of_length_eq_zero h
    subst this
    rfl
  | cons q qs ih =>
    cases fs with
    | nil => simp at h
    | cons f fs =>
      have := ih (pre ++ [q]) fs (by simpa using h)
      simp only [List.length_append, List.length_singleton, List.append_assoc, List.singleton_append] at this
      simp only [setFrom]
      rw [List.set_append_right _ _ (Nat.le_refl _), Nat.sub_self, List.set_cons_zero]
      exact this

theorem setFrom_all {qs fs : List Ptr} (h : fs.length = qs.length) : setFrom 0 qs fs = qs := setFrom_append qs [] fs h

theorem refill_shadow (g : Nat → Bool) (ps : List Ptr) (i : Nat) (v : Flat) (st : Nat × Heap) :
    match refill i ps v g st with
    | .error e => copyFields ps st.2 = .error e
    | .ok ((v', true), st') => ∃ qs, copyFields ps st.2 = .ok (qs, st'.2) ∧ qs.length = ps.length ∧ v'.fields = setFrom i qs v.fields
    | .ok ((_, false), st') => Grown st.2 st'.2 := by
  induction ps generalizing i v st with
  | nil => exact ⟨[], rfl, rfl, rfl⟩
  | cons p ps ih =>
    unfold refill copyFields
    cases e : readText p st.2 with
    | error x => rw [bindS_error (liftS_error e), bindH_error (by unfold copyText; exact bindH_error e)]
    | ok r =>
      obtain ⟨s, h⟩ := r
      have hh := readText_heap e
      subst hh
      rw [bindS_ok (liftS_ok e)]
      rcases tryNew_cases (.chars s) g st with e1 | ⟨a, h1, ea, e1⟩
      · rw [bindS_ok e1]
        exact Grown.refl _
      · have ec : copyText p st.2 = .ok (some a, h1) := by
          unfold copyText
          rw [bind_ok e, bind_ok ea]
          rfl
        rw [bindS_ok e1, bind_ok ec]
        have := ih (i + 1) { v with fields := v.fields.set i (some a) } (st.1 + 1, h1)
        simp only
        cases e2 : refill (i + 1) ps { v with fields := v.fields.set i (some a) } g (st.1 + 1, h1) with
        | error x =>
          rw [e2] at this
          exact bindH_error this
        | ok r =>
          obtain ⟨⟨v', ok⟩, st2⟩ := r
          rw [e2] at this
          cases ok with
          | false => exact (Grown.alloc ea).trans this
          | true =>
            obtain ⟨qs, h2, h3, h4⟩ := this
            refine ⟨some a :: qs, ?_, by simp [h3], h4⟩
            rw [bind_ok h2]
            rfl

/-- One operation, compared with unlimited memory: it fails, or does the same. -/
theorem sstep_shadow {o : Objs} (op : VOp) (g : Nat → Bool) (st : Nat × Heap)
    (har : ∀ x y v w, op = .assign x y → o x = some v → o y = some w → v.fields.length = w.fields.length) :
    match sstep o op g st with
    | .error e => vstep o op st.2 = .error e
    | .ok ((o', true), st') => vstep o op st.2 = .ok (o', st'.2)
    | .ok ((_, false), _) => Allocates op := by
  cases op with
  | construct x c ts m =>
    simp only [sstep, vstep]
    rw [bindS_ok (show scratch g st = .ok (g st.1, (st.1 + 1, st.2)) from rfl)]
    cases g st.1 with
    | false => exact trivial
    | true =>
      simp only [if_true]
      have := constructS_shadow o g ts (st.1 + 1, st.2)
      cases e : constructS o ts g (st.1 + 1, st.2) with
      | error x => rw [e] at this; rw [bindS_error e]; exact bindH_error this
      | ok r =>
        obtain ⟨q, st2⟩ := r
        rw [e] at this
        rw [bindS_ok e]
        cases q with
        | none => exact trivial
        | some qs => exact bind_ok this
  | copy x y =>
    simp only [sstep, vstep]
    cases ho : o y with
    | none => exact rfl
    | some w =>
      simp only
      have := copyS_shadow g w.fields st
      cases e : copyS w.fields g st with
      | error x => rw [e] at this; rw [bindS_error e]; exact bindH_error (bindH_error this)
      | ok r =>
        obtain ⟨q, st2⟩ := r
        rw [e] at this
        rw [bindS_ok e]
        cases q with
        | none => exact trivial
        | some qs => exact bind_ok (bind_ok this)
  | assign x y =>
    simp only [sstep, vstep]
    cases hx : o x with
    | none => exact rfl
    | some v =>
      cases hy : o y with
      | none => exact rfl
      | some w =>
        simp only
        by_cases hxy : x = y
        · simp only [hxy, if_true]
          exact rfl
        · simp only [hxy, if_false]
          unfold assignS Flat.assign
          cases ed : deleteFields v.fields st.2 with
          | error z =>
            rw [bindS_error (bindS_error (liftS_error ed))]
            exact bindH_error (bindH_error ed)
          | ok r =>
            obtain ⟨u, h1⟩ := r
            have := refill_shadow g w.fields 0 v (st.1, h1)
            cases e : refill 0 w.fields v g (st.1, h1) with
            | error z =>
              rw [e] at this
              rw [bindS_error (by rw [bindS_ok (liftS_ok ed), bindS_error e])]
              exact bindH_error (by rw [bind_ok ed, bindH_error this])
            | ok r =>
              obtain ⟨⟨v', ok⟩, st2⟩ := r
              rw [e] at this
              cases ok with
              | false =>
                rw [bindS_ok (by rw [bindS_ok (liftS_ok ed), bindS_ok e]; rfl)]
                exact hxy
              | true =>
                obtain ⟨qs, h2, h3, h4⟩ := this
                rw [setFrom_all (by rw [h3]; exact har x y v w rfl hx hy)] at h4
                rw [bindS_ok (by rw [bindS_ok (liftS_ok ed), bindS_ok e]; rfl)]
                refine bind_ok (by rw [bind_ok ed, bind_ok h2, h4]; rfl)
  | set x i t =>
    simp only [sstep, vstep]
    cases hx : o x with
    | none => exact rfl
    | some v =>
      simp only
      by_cases hc : v.cls = .credential
      · simp only [hc, if_true]
        unfold setAfterDeleteS setAfterDelete
        cases er : readArg o t st.2 with
        | error z =>
          rw [bindS_error (bindS_error (liftS_error er))]
          exact bindH_error (bindH_error er)
        | ok r =>
          obtain ⟨s, h⟩ := r
          have hh := readArg_heap er
          subst hh
          have main : ∀ n, match (do
                liftS (deleteArray (v.fields.getD i none))
                let s ← liftS (readArg o t)
                match ← tryNew (.chars s) with
                | none => pure (v, false)
                | some a => pure ({ v with fields := v.fields.set i (some a) }, true) : S (Flat × Bool)) g (n, st.2) with
              | .error e => (do
                  deleteArray (v.fields.getD i none)
                  let s ← readArg o t
                  let a ← alloc (.chars s)
                  pure { v with fields := v.fields.set i (some a) } : H Flat) st.2 = .error e
              | .ok ((v', true), st') => (do
                  deleteArray (v.fields.getD i none)
                  let s ← readArg o t
                  let a ← alloc (.chars s)
                  pure { v with fields := v.fields.set i (some a) } : H Flat) st.2 = .ok (v', st'.2)
              | .ok ((_, false), _) => True := by
            intro n
            cases ed : deleteArray (v.fields.getD i none) st.2 with
            | error z => rw [bindS_error (liftS_error (st := (n, st.2)) ed)]; exact bindH_error ed
            | ok r =>
              obtain ⟨u, h1⟩ := r
              rw [bindS_ok (liftS_ok (st := (n, st.2)) ed), bind_ok ed]
              cases e2 : readArg o t h1 with
              | error z => rw [bindS_error (liftS_error (st := (n, h1)) e2)]; exact bindH_error e2
              | ok r =>
                obtain ⟨s2, h2⟩ := r
                rw [bindS_ok (liftS_ok (st := (n, h1)) e2), bind_ok e2]
                rcases tryNew_cases (.chars s2) g (n, h2) with e3 | ⟨a, h3, ea, e3⟩
                · rw [bindS_ok e3]
                  exact trivial
                · rw [bindS_ok e3, bind_ok ea]
                  exact rfl
          have fin : ∀ n (p : S (Flat × Bool)), p g st = (do
                liftS (deleteArray (v.fields.getD i none))
                let s ← liftS (readArg o t)
                match ← tryNew (.chars s) with
                | none => pure (v, false)
                | some a => pure ({ v with fields := v.fields.set i (some a) }, true) : S (Flat × Bool)) g (n, st.2) →
              match (do
                let (v', ok) ← p
                pure (setObj o x (some v'), ok) : S (Objs × Bool)) g st with
              | .error e => (do pure (setObj o x (some (← (do
                  let _ ← readArg o t
                  deleteArray (v.fields.getD i none)
                  let s ← readArg o t
                  let a ← alloc (.chars s)
                  pure { v with fields := v.fields.set i (some a) } : H Flat)))) : H Objs) st.2 = .error e
              | .ok ((o', true), st') => (do pure (setObj o x (some (← (do
                  let _ ← readArg o t
                  deleteArray (v.fields.getD i none)
                  let s ← readArg o t
                  let a ← alloc (.chars s)
                  pure { v with fields := v.fields.set i (some a) } : H Flat)))) : H Objs) st.2 = .ok (o', st'.2)
              | .ok ((_, false), _) => Allocates (.set x i t) := by
            intro n p hp
            have := main n
            rw [← hp] at this
            cases e : p g st with
            | error z =>
              rw [e] at this
              rw [bindS_error e]
              exact bindH_error (by rw [bind_ok er]; exact this)
            | ok r =>
              obtain ⟨⟨v', ok⟩, st2⟩ := r
              rw [e] at this
              rw [bindS_ok e]
              cases ok with
              | false => exact trivial
              | true => exact bind_ok (by rw [bind_ok er]; exact this)
          by_cases hi : i = 0
          · cases hg : g st.1 with
            | false =>
              rw [bindS_ok (a := (v, false)) (st' := (st.1 + 1, st.2)) (by
                rw [bindS_ok (liftS_ok er), if_pos hi]
                rw [bindS_ok (show scratch g (st.1, st.2) = .ok (g st.1, (st.1 + 1, st.2)) from rfl), hg]
                rfl)]
              exact trivial
            | true =>
              refine fin (st.1 + 1) _ ?_
              rw [bindS_ok (liftS_ok er), if_pos hi]
              rw [bindS_ok (show scratch g (st.1, st.2) = .ok (g st.1, (st.1 + 1, st.2)) from rfl), hg]
              rfl
          · refine fin st.1 _ ?_
            rw [bindS_ok (liftS_ok er), if_neg hi]
            rfl
      · simp only [hc, if_false]
        unfold setWithoutDeleteS setWithoutDelete
        cases er : readArg o t st.2 with
        | error z =>
          rw [bindS_error (bindS_error (liftS_error er))]
          exact bindH_error (bindH_error er)
        | ok r =>
          obtain ⟨s, h⟩ := r
          rcases tryNew_cases (.chars s) g (st.1, h) with e3 | ⟨a, h3, ea, e3⟩
          · rw [bindS_ok (by rw [bindS_ok (liftS_ok er), bindS_ok e3]; rfl)]
            exact trivial
          · rw [bindS_ok (by rw [bindS_ok (liftS_ok er), bindS_ok e3]; rfl)]
            exact bind_ok (by rw [bind_ok er, bind_ok ea]; rfl)
  | move x y =>
    simp only [sstep]
    cases e : vstep o (.move x y) st.2 with
    | error z => rw [bindS_error (liftS_error e)]
    | ok r => rw [bindS_ok (liftS_ok (h := r.2) (a := r.1) e)]; exact rfl
  | moveAssign x y =>
    simp only [sstep]
    cases e : vstep o (.moveAssign x y) st.2 with
    | error z => rw [bindS_error (liftS_error e)]
    | ok r => rw [bindS_ok (liftS_ok (h := r.2) (a := r.1) e)]; exact rfl
  | setMethod x y =>
    simp only [sstep]
    cases e : vstep o (.setMethod x y) st.2 with
    | error z => rw [bindS_error (liftS_error e)]
    | ok r => rw [bindS_ok (liftS_ok (h := r.2) (a := r.1) e)]; exact rfl
  | destroy x =>
    simp only [sstep]
    cases e : vstep o (.destroy x) st.2 with
    | error z => rw [bindS_error (liftS_error e)]
    | ok r => rw [bindS_ok (liftS_ok (h := r.2) (a := r.1) e)]; exact rfl

theorem Rel.grown {o : Objs} {s : Values} {h h' : Heap} {L : List Cell} (hR : Rel o s h L) (hG : Grown h h') : ∃ L', Rel o s h' L' := by
  obtain ⟨hsh, names, hn, hnames, hE⟩ := hR
  obtain ⟨M, hM⟩ := hG _ hE
  exact ⟨M ++ L, hsh, names, hn, hnames, hM.perm (by permute)⟩

theorem Rel.drop {o : Objs} {s : Values} {h : Heap} {L : List Cell} (hR : Rel o s h L) (x : Nat) : ∃ L', Rel (setObj o x none) (bindTo s x none) h L' := by
  obtain ⟨hsh, names, hn, hnames, hE⟩ := hR
  by_cases hx : x ∈ names
  · refine ⟨cellsOf (o x) (s x) ++ L, showsAt_remove hsh, names, hn, setObj_names hnames hx _, hE.perm ?_⟩
    have h1 := allCells_focus hn hx o s
    have h2 := allCells_update hn hx o s none none
    refine (h1.append_right _).trans ?_
    refine List.Perm.trans ?_ (h2.symm.append_right _)
    show (cellsOf (o x) (s x) ++ others names o s x ++ L).Perm (others names o s x ++ (cellsOf (o x) (s x) ++ L))
    permute
  · have ho : o x = none := Classical.byContradiction fun h => hx (hnames x h)
    have hs : s x = none := (shows_none hsh x).mp ho
    have e1 : setObj o x none = o := by funext y; unfold setObj; split <;> simp_all
    have e2 : bindTo s x none = s := by funext y; unfold bindTo; split <;> simp_all
    rw [e1, e2]
    exact ⟨L, hsh, names, hn, hnames, hE⟩

theorem setObj_same {o : Objs} {x : Nat} {v : Flat} (h : o x = some v) : setObj o x (some v) = o := by
  funext y; unfold setObj; split
  · rename_i e; rw [e, h]
  · rfl

theorem quiet_succeeds {o o' : Objs} {g : Nat → Bool} {st st' : Nat × Heap} {op : VOp} (hop : ∀ x y, op ≠ .assign x y)
    (he : sstep o op g st = .ok ((o', false), st')) : Allocates op := by
  have := sstep_shadow (o := o) op g st (fun x y _ _ e => absurd e (hop x y))
  rw [he] at this
  exact this

theorem set_failed {o o' : Objs} {s : Values} {L : List Cell} {g : Nat → Bool} {st st' : Nat × Heap} {x i : Nat} {t : Arg} (hR : Rel o s st.2 L)
    (he : sstep o (.set x i t) g st = .ok ((o', false), st')) :
    match broken s (.set x i t) with
    | none => o' = o ∧ ∃ L', Rel o s st'.2 L'
    | some x => ∃ L', Rel (setObj o' x none) (bindTo s x none) st'.2 L' := by
  simp only [sstep] at he
  cases hx : o x with
  | none => rw [hx] at he; cases he
  | some v =>
    rw [hx] at he
    simp only at he
    have hw := hR.1 x
    rw [hx] at hw
    cases hsx : s x with
    | none => rw [hsx] at hw; exact hw.elim
    | some w =>
    rw [hsx] at hw
    have hS : Shows v w := hw
    by_cases hc : v.cls = .credential
    · simp only [broken, hsx, ← hS.cls, hc, if_true]
      simp only [hc, if_true] at he
      unfold setAfterDeleteS at he
      have main : ∀ n (p : S (Flat × Bool)), p g st = (do
              liftS (deleteArray (v.fields.getD i none))
              let s ← liftS (readArg o t)
              match ← tryNew (.chars s) with
              | none => pure (v, false)
              | some a => pure ({ v with fields := v.fields.set i (some a) }, true) : S (Flat × Bool)) g (n, st.2) →
            (do
              let (v', ok) ← p
              pure (setObj o x (some v'), ok) : S (Objs × Bool)) g st = .ok ((o', false), st') →
            ∃ L', Rel (setObj o' x none) (bindTo s x none) st'.2 L' := by
        intro n p hp he
        obtain ⟨hsh, names, hn, hnames, hE⟩ := hR
        have hxn : x ∈ names := hnames x (by rw [hx]; nofun)
        have hfocus : (allCells names o s).Perm (fieldCells v.fields w.texts ++ others names o s x) := by
          refine (allCells_focus hn hxn o s).trans ?_
          rw [hx, hsx]
          exact .refl _
        have hdel : Triple (allCells names o s) (deleteArray (v.fields.getD i none))
            (fun _ X => X = fieldCells (v.fields.set i none) (w.texts.set i none) ++ others names o s x) := by
          refine Triple.perm ?_ hfocus
          rcases fieldCells_split hS.fields i with ⟨e1, e2⟩ | ⟨a, c, e1, e2⟩
          · rw [e1, e2]
            exact Triple.pure _ rfl
          · rw [e1]
            refine Triple.perm (P := [(a, .chars c)] ++ (fieldCells (v.fields.set i none) (w.texts.set i none) ++ others names o s x)) ?_
              (e2.append_right _)
            refine ((Triple.deleteArray a (.chars c) trivial).frame _).post fun _ X hX => ?_
            obtain ⟨Y, rfl, rfl⟩ := hX
            exact ⟨_, .refl _, rfl⟩
        obtain ⟨u, h1, P', ed, rfl, hE'⟩ := hdel st.2 L hE
        have hR' : ∃ L', Rel (setObj o x none) (bindTo s x none) h1 L' := by
          refine ⟨fieldCells (v.fields.set i none) (w.texts.set i none) ++ L, showsAt_remove hsh, names, hn, setObj_names hnames hxn _, hE'.perm ?_⟩
          have h2 := allCells_update hn hxn o s none none
          refine List.Perm.trans ?_ (h2.symm.append_right _)
          show (fieldCells (v.fields.set i none) (w.texts.set i none) ++ others names o s x ++ L).Perm (others names o s x ++ (fieldCells (v.fields.set i none) (w.texts.set i none) ++ L))
          permute
        rw [bindS_ok (liftS_ok (st := (n, st.2)) ed)] at hp
        cases e2 : readArg o t h1 with
        | error z =>
          rw [bindS_error (liftS_error (st := (n, h1)) e2)] at hp
          rw [bindS_error hp] at he
          cases he
        | ok r =>
          obtain ⟨s2, h2⟩ := r
          have := readArg_heap e2
          subst this
          rw [bindS_ok (liftS_ok (st := (n, h2)) e2)] at hp
          rcases tryNew_cases (.chars s2) g (n, h2) with e3 | ⟨a, h3, ea, e3⟩
          · rw [bindS_ok e3] at hp
            rw [bindS_ok hp] at he
            cases he
            rw [setObj_setObj]
            exact hR'
          · rw [bindS_ok e3] at hp
            rw [bindS_ok hp] at he
            cases he
      cases er : readArg o t st.2 with
      | error z => rw [bindS_error (bindS_error (liftS_error er))] at he; cases he
      | ok r =>
        obtain ⟨s1, h⟩ := r
        have hh := readArg_heap er
        subst hh
        by_cases hi : i = 0
        · cases hg : g st.1 with
          | false =>
            rw [bindS_ok (a := (v, false)) (st' := (st.1 + 1, st.2)) (by
              rw [bindS_ok (liftS_ok er), if_pos hi]
              rw [bindS_ok (show scratch g (st.1, st.2) = .ok (g st.1, (st.1 + 1, st.2)) from rfl), hg]
              rfl)] at he
            cases he
            rw [setObj_setObj]
            exact hR.drop x
          | true =>
            refine main (st.1 + 1) _ ?_ he
            rw [bindS_ok (liftS_ok er), if_pos hi]
            rw [bindS_ok (show scratch g (st.1, st.2) = .ok (g st.1, (st.1 + 1, st.2)) from rfl), hg]
            rfl
        · refine main st.1 _ ?_ he
          rw [bindS_ok (liftS_ok er), if_neg hi]
          rfl
    · simp only [broken, hsx, ← hS.cls, hc, if_false]
      simp only [hc, if_false] at he
      unfold setWithoutDeleteS at he
      cases er : readArg o t st.2 with
      | error z => rw [bindS_error (bindS_error (liftS_error er))] at he; cases he
      | ok r =>
        obtain ⟨s1, h⟩ := r
        have hh := readArg_heap er
        subst hh
        rcases tryNew_cases (.chars s1) g (st.1, st.2) with e3 | ⟨a, h3, ea, e3⟩
        · rw [bindS_ok (by rw [bindS_ok (liftS_ok er), bindS_ok e3]; rfl)] at he
          cases he
          exact ⟨setObj_same hx, L, hR⟩
        · rw [bindS_ok (by rw [bindS_ok (liftS_ok er), bindS_ok e3]; rfl)] at he
          cases he

/-- What a failed operation leaves. -/
theorem sstep_failed {o o' : Objs} {s s' : Values} {L : List Cell} {g : Nat → Bool} {st st' : Nat × Heap} (op : VOp) (hR : Rel o s st.2 L)
    (hv : valueStep s op = some s') (he : sstep o op g st = .ok ((o', false), st')) :
    match broken s op with
    | none => o' = o ∧ ∃ L', Rel o s st'.2 L'
    | some x => ∃ L', Rel (setObj o' x none) (bindTo s x none) st'.2 L' := by
  cases op with
  | construct x c ts m =>
    simp only [sstep] at he
    rw [bindS_ok (show scratch g st = .ok (g st.1, (st.1 + 1, st.2)) from rfl)] at he
    simp only [broken]
    cases hg : g st.1 with
    | false =>
      rw [hg] at he
      cases he
      exact ⟨rfl, L, hR⟩
    | true =>
      rw [hg] at he
      simp only [if_true] at he
      have := constructS_shadow o g ts (st.1 + 1, st.2)
      cases e : constructS o ts g (st.1 + 1, st.2) with
      | error x => rw [bindS_error e] at he; cases he
      | ok r =>
        obtain ⟨q, st2⟩ := r
        rw [e] at this
        rw [bindS_ok e] at he
        cases q with
        | none => cases he; exact ⟨rfl, hR.grown this⟩
        | some qs => cases he
  | copy x y =>
    simp only [sstep] at he
    simp only [broken]
    cases ho : o y with
    | none => rw [ho] at he; cases he
    | some w =>
      rw [ho] at he
      simp only at he
      have := copyS_shadow g w.fields st
      cases e : copyS w.fields g st with
      | error x => rw [bindS_error e] at he; cases he
      | ok r =>
        obtain ⟨q, st2⟩ := r
        rw [e] at this
        rw [bindS_ok e] at he
        cases q with
        | none => cases he; exact ⟨rfl, hR.grown this⟩
        | some qs => cases he
  | assign x y =>
    simp only [sstep] at he
    simp only [broken]
    cases hx : o x with
    | none => rw [hx] at he; cases he
    | some v =>
      cases hy : o y with
      | none => rw [hx, hy] at he; cases he
      | some w =>
        rw [hx, hy] at he
        simp only at he
        by_cases hxy : x = y
        · simp only [hxy, if_true] at he
          cases he
        · simp only [hxy, if_false] at he
          unfold assignS at he
          have hw := hR.1 x
          rw [hx] at hw
          cases hsx : s x with
          | none => rw [hsx] at hw; exact hw.elim
          | some wx =>
            rw [hsx] at hw
            obtain ⟨hsh, names, hn, hnames, hE⟩ := hR
            have hxn : x ∈ names := hnames x (by rw [hx]; nofun)
            obtain ⟨u, h1, P', ed, rfl, hE'⟩ := deleteObj_triple hn hxn hx hsx hw st.2 L hE
            have := refill_shadow g w.fields 0 v (st.1, h1)
            cases e : refill 0 w.fields v g (st.1, h1) with
            | error z =>
              rw [bindS_error (by rw [bindS_ok (liftS_ok ed), bindS_error e])] at he
              cases he
            | ok r =>
              obtain ⟨⟨v', ok⟩, st2⟩ := r
              rw [e] at this
              cases ok with
              | true =>
                rw [bindS_ok (by rw [bindS_ok (liftS_ok ed), bindS_ok e]; rfl)] at he
                cases he
              | false =>
                rw [bindS_ok (by rw [bindS_ok (liftS_ok ed), bindS_ok e]; rfl)] at he
                cases he
                rw [setObj_setObj]
                exact Rel.grown (L := L) ⟨showsAt_remove hsh, names, hn, setObj_names hnames hxn _, hE'⟩ this
  | set x i t => exact set_failed hR he
  | move x y => exact (quiet_succeeds (fun _ _ e => by cases e) he).elim
  | moveAssign x y => exact (quiet_succeeds (fun _ _ e => by cases e) he).elim
  | setMethod x m => exact (quiet_succeeds (fun _ _ e => by cases e) he).elim
  | destroy x => exact (quiet_succeeds (fun _ _ e => by cases e) he).elim

/-! ### Broken objects out of sight -/

/-- The objects whose names are not in the list. -/
def hide (B : List Nat) (o : Objs) : Objs := fun x => if x ∈ B then none else o x

theorem hide_nil (o : Objs) : hide [] o = o := by funext x; simp [hide]

theorem hide_at {B : List Nat} {o : Objs} {x : Nat} (h : x ∉ B) : hide B o x = o x := by simp [hide, h]

theorem hide_setObj {B : List Nat} {o : Objs} {x : Nat} (h : x ∉ B) (v : Option Flat) : setObj (hide B o) x v = hide B (setObj o x v) := by
  funext y
  unfold setObj hide
  by_cases hy : y = x
  · subst hy; simp [h]
  · simp [hy]

theorem hide_cons (B : List Nat) (o : Objs) (x : Nat) : setObj (hide B o) x none = hide (x :: B) o := by
  funext y
  unfold setObj hide
  by_cases hy : y = x
  · simp [hy]
  · simp [hy]

theorem hide_readArg {B : List Nat} {o : Objs} {t : Arg} (h : ∀ y ∈ argNames t, y ∉ B) : readArg (hide B o) t = readArg o t := by
  cases t with
  | text c => rfl
  | field x i =>
    have : hide B o x = o x := hide_at (h x (List.mem_singleton.mpr rfl))
    simp only [readArg, getter, this]

theorem hide_constructS {B : List Nat} {o : Objs} (ts : List Arg) (h : ∀ y ∈ ts.flatMap argNames, y ∉ B) : constructS (hide B o) ts = constructS o ts := by
  induction ts with
  | nil => rfl
  | cons t ts ih =>
    rw [List.flatMap_cons] at h
    simp only [constructS]
    rw [hide_readArg (fun y hy => h y (List.mem_append_left _ hy)), ih (fun y hy => h y (List.mem_append_right _ hy))]

/-- The objects afterwards, some out of sight. -/
def hideAfter (B : List Nat) : Except MemErr ((Objs × Bool) × (Nat × Heap)) → Except MemErr ((Objs × Bool) × (Nat × Heap))
  | .ok ((o, ok), st) => .ok ((hide B o, ok), st)
  | .error e => .error e

theorem hideAfter_bind {α : Type} {B : List Nat} {p : S α} {f f' : α → S (Objs × Bool)} {g : Nat → Bool} {st : Nat × Heap}
    (h : ∀ a st, f' a g st = hideAfter B (f a g st)) : (p >>= f') g st = hideAfter B ((p >>= f) g st) := by
  cases e : p g st with
  | error x => rw [bindS_error e, bindS_error e]; rfl
  | ok r => rw [bindS_ok (a := r.1) (st' := r.2) e, bindS_ok (a := r.1) (st' := r.2) e]; exact h _ _

theorem hide_vstep {B : List Nat} {o : Objs} (op : VOp) (hn : ∀ y ∈ namesOf op, y ∉ B) (hop : ¬ Allocates op) (h : Heap) :
    vstep (hide B o) op h = match vstep o op h with
      | .ok (o', h') => .ok (hide B o', h')
      | .error e => .error e := by
  cases op with
  | construct x c ts m => exact (hop trivial).elim
  | copy x y => exact (hop trivial).elim
  | set x i t => exact (hop trivial).elim
  | assign x y =>
    have hxy : x = y := Classical.byContradiction fun h => hop h
    subst hxy
    have hx := hide_at (o := o) (hn x (by simp [namesOf]))
    simp only [vstep, hx, if_true]
    cases ho : o x <;> rfl
  | move x y =>
    have hxB := hn x (by simp [namesOf])
    have hyB := hn y (by simp [namesOf])
    simp only [vstep, hide_at hyB]
    cases ho : o y with
    | none => rfl
    | some w =>
      simp only [hide_setObj hxB, hide_setObj hyB]
      rfl
  | moveAssign x y =>
    have hxB := hn x (by simp [namesOf])
    have hyB := hn y (by simp [namesOf])
    simp only [vstep, hide_at hyB, hide_at hxB]
    cases ho : o x with
    | none => rfl
    | some v =>
      cases ho' : o y with
      | none => rfl
      | some w =>
        simp only
        by_cases hxy : x = y
        · simp only [hxy, if_true]; rfl
        · simp only [hxy, if_false, hide_setObj hxB, hide_setObj hyB]
          unfold Flat.moveAssign
          cases ed : deleteFields v.fields h with
          | error z => rw [bindH_error (bindH_error ed), bindH_error (bindH_error ed)]
          | ok r =>
            rw [bind_ok (by rw [bind_ok (a := r.1) (h' := r.2) ed]; rfl), bind_ok (by rw [bind_ok (a := r.1) (h' := r.2) ed]; rfl)]
            rfl
  | setMethod x m =>
    have hxB := hn x (by simp [namesOf])
    simp only [vstep, hide_at hxB]
    cases ho : o x with
    | none => rfl
    | some v => simp only [hide_setObj hxB]; rfl
  | destroy x =>
    have hxB := hn x (by simp [namesOf])
    simp only [vstep, hide_at hxB]
    cases ho : o x with
    | none => rfl
    | some v =>
      simp only [hide_setObj hxB]
      cases ed : deleteFields v.fields h with
      | error z => rw [bindH_error ed, bindH_error ed]
      | ok r => rw [bind_ok (a := r.1) (h' := r.2) ed, bind_ok (a := r.1) (h' := r.2) ed]; rfl

theorem hide_lift {B : List Nat} {o : Objs} (op : VOp) (hn : ∀ y ∈ namesOf op, y ∉ B) (hop : ¬ Allocates op) (g : Nat → Bool) (st : Nat × Heap) :
    (do let o' ← liftS (vstep (hide B o) op); pure (o', true) : S (Objs × Bool)) g st =
      hideAfter B ((do let o' ← liftS (vstep o op); pure (o', true) : S (Objs × Bool)) g st) := by
  have := hide_vstep (o := o) op hn hop st.2
  cases e : vstep o op st.2 with
  | error z =>
    rw [e] at this
    rw [bindS_error (liftS_error e), bindS_error (liftS_error this)]
    rfl
  | ok r =>
    rw [e] at this
    rw [bindS_ok (liftS_ok (a := r.1) (h := r.2) e), bindS_ok (liftS_ok this)]
    rfl

theorem sstep_hide {B : List Nat} {o : Objs} (op : VOp) (hn : ∀ y ∈ namesOf op, y ∉ B) (g : Nat → Bool) (st : Nat × Heap) :
    sstep (hide B o) op g st = hideAfter B (sstep o op g st) := by
  cases op with
  | construct x c ts m =>
    have hxB := hn x (by simp [namesOf])
    simp only [sstep]
    rw [hide_constructS ts (fun y hy => hn y (List.mem_cons_of_mem _ hy))]
    refine hideAfter_bind fun b st => ?_
    cases b with
    | false => rfl
    | true =>
      refine hideAfter_bind fun r st => ?_
      cases r with
      | none => rfl
      | some ps => dsimp only; rw [hide_setObj hxB]; rfl
  | copy x y =>
    have hxB := hn x (by simp [namesOf])
    simp only [sstep, hide_at (hn y (by simp [namesOf]))]
    cases ho : o y with
    | none => rfl
    | some w =>
      refine hideAfter_bind fun r st => ?_
      cases r with
      | none => rfl
      | some ps => dsimp only; rw [hide_setObj hxB]; rfl
  | assign x y =>
    have hxB := hn x (by simp [namesOf])
    simp only [sstep, hide_at (hn y (by simp [namesOf])), hide_at hxB]
    cases ho : o x with
    | none => rfl
    | some v =>
      cases ho' : o y with
      | none => rfl
      | some w =>
        simp only
        by_cases hxy : x = y
        · simp only [hxy, if_true]; rfl
        · simp only [hxy, if_false]
          refine hideAfter_bind fun r st => ?_
          rw [hide_setObj hxB]; rfl
  | set x i t =>
    have hxB := hn x (by simp [namesOf])
    simp only [sstep, hide_at hxB]
    cases ho : o x with
    | none => rfl
    | some v =>
      have e1 : setAfterDeleteS (hide B o) v i t = setAfterDeleteS o v i t := by
        unfold setAfterDeleteS; rw [hide_readArg (fun y hy => hn y (List.mem_cons_of_mem _ hy))]
      have e2 : setWithoutDeleteS (hide B o) v i t = setWithoutDeleteS o v i t := by
        unfold setWithoutDeleteS; rw [hide_readArg (fun y hy => hn y (List.mem_cons_of_mem _ hy))]
      simp only [e1, e2]
      by_cases hc : v.cls = .credential
      · simp only [hc, if_true]
        refine hideAfter_bind fun r st => ?_
        rw [hide_setObj hxB]; rfl
      · simp only [hc, if_false]
        refine hideAfter_bind fun r st => ?_
        rw [hide_setObj hxB]; rfl
  | move x y => exact hide_lift _ hn (fun h => h) g st
  | moveAssign x y => exact hide_lift _ hn (fun h => h) g st
  | setMethod x m => exact hide_lift _ hn (fun h => h) g st
  | destroy x => exact hide_lift _ hn (fun h => h) g st

/-- One operation of a prudent program. -/
theorem sstep_refines {o : Objs} {s s' : Values} {B : List Nat} {L : List Cell} {g : Nat → Bool} {st : Nat × Heap} (op : VOp)
    (hR : Rel (hide B o) s st.2 L) (hn : ∀ y ∈ namesOf op, y ∉ B) (hv : valueStep s op = some s') :
    ∃ o' ok st' L', sstep o op g st = .ok ((o', ok), st') ∧ (ok = false → Allocates op) ∧
      Rel (hide (afterwards s s' B op ok).2 o') (afterwards s s' B op ok).1 st'.2 L' := by
  obtain ⟨o1, h1, more, ev, hR1, _⟩ := vstep_refines hR op hv
  have hsh := sstep_shadow (o := hide B o) op g st (by
    rintro x y v w rfl hx hy
    simp only [valueStep] at hv
    split at hv
    case h_2 => cases hv
    rename_i wx wy hwx hwy
    split at hv
    case isFalse => cases hv
    rename_i hc
    have h1 := hR.1 x
    have h2 := hR.1 y
    rw [hx, hwx] at h1
    rw [hy, hwy] at h2
    rw [(show Shows v wx from h1).fields.length, (show Shows w wy from h2).fields.length, (show Shows v wx from h1).arity,
      (show Shows w wy from h2).arity, hc.1])
  have hh := sstep_hide (o := o) op hn g st
  cases e : sstep o op g st with
  | error z =>
    rw [e] at hh
    rw [hh] at hsh
    have hsh : vstep (hide B o) op st.2 = .error z := hsh
    rw [ev] at hsh
    cases hsh
  | ok r =>
    obtain ⟨⟨o', ok⟩, st'⟩ := r
    rw [e] at hh
    have hh : sstep (hide B o) op g st = .ok ((hide B o', ok), st') := hh
    rw [hh] at hsh
    cases ok with
    | true =>
      have hsh : vstep (hide B o) op st.2 = .ok (hide B o', st'.2) := hsh
      rw [ev] at hsh
      cases hsh
      exact ⟨o', true, st', _, rfl, nofun, hR1⟩
    | false =>
      have hf := sstep_failed op hR hv hh
      cases hb : broken s op with
      | none =>
        have ea : afterwards s s' B op false = (s, B) := by simp [afterwards, hb]
        rw [hb] at hf
        obtain ⟨ho, L', hL⟩ := hf
        refine ⟨o', false, st', L', rfl, fun _ => hsh, ?_⟩
        rw [ea, ho]
        exact hL
      | some x =>
        have ea : afterwards s s' B op false = (bindTo s x none, x :: B) := by simp [afterwards, hb]
        rw [hb] at hf
        obtain ⟨L', hL⟩ := hf
        refine ⟨o', false, st', L', rfl, fun _ => hsh, ?_⟩
        rw [ea, ← hide_cons]
        exact hL

/-- Only operations that allocate fail. -/
def FailsOnlyToAllocate : List VOp → List Bool → Prop
  | p :: ps, ok :: oks => (ok = false → Allocates p) ∧ FailsOnlyToAllocate ps oks
  | [], [] => True
  | _, _ => False

theorem srun_refines {s : Values} {B : List Nat} {L : List Cell} {g : Nat → Bool} (ops : List VOp) (o : Objs) (st : Nat × Heap)
    (hR : Rel (hide B o) s st.2 L) (hc : Prudent s B ops (srun g o st ops).1) :
    ∃ o' h B' L', (srun g o st ops).2 = .ok (o', h) ∧ FailsOnlyToAllocate ops (srun g o st ops).1 ∧
      Rel (hide B' o') (scarceRun s B ops (srun g o st ops).1) h L' := by
  induction ops generalizing s B L o st with
  | nil => exact ⟨o, st.2, B, L, rfl, trivial, hR⟩
  | cons p ps ih =>
    obtain ⟨hn, s', hv, hrest⟩ := hc
    obtain ⟨o1, ok, st1, L1, e, ha, hR1⟩ := sstep_refines (g := g) p hR hn hv
    have er : srun g o st (p :: ps) = (ok :: (srun g o1 st1 ps).1, (srun g o1 st1 ps).2) := by
      simp only [srun]
      rw [e]
    rw [er] at hrest ⊢
    obtain ⟨o', h, B', L', h1, h2, h3⟩ := ih o1 st1 hR1 hrest
    refine ⟨o', h, B', L', h1, ⟨ha, h2⟩, ?_⟩
    simp only [scarceRun, hv]
    exact h3

end Verif.Proofs
