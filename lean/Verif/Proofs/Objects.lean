import Verif.Proofs.Sep
import Verif.Spec.Objects
/-! Objects on the heap refine objects as values. -/
namespace Verif.Proofs
open Verif Verif.Model Verif.Spec

/-- An object shows a value. -/
structure Shows (v : Flat) (w : Value) : Prop where
  cls : v.cls = w.cls
  method : v.method = w.method
  fields : Matches v.fields w.texts
  arity : w.texts.length = members w.cls

/-- Objects show values, name by name. -/
def ShowsAt : Option Flat → Option Value → Prop
  | some v, some w => Shows v w
  | none, none => True
  | _, _ => False

/-- The cells of an object. -/
def cellsOf : Option Flat → Option Value → List Cell
  | some v, some w => fieldCells v.fields w.texts
  | _, _ => []

/-- The cells of the named objects. -/
def allCells (names : List Nat) (o : Objs) (s : Values) : List Cell := names.flatMap fun x => cellsOf (o x) (s x)

/-- Objects show values, and the heap consists of exactly their cells and the leaked ones. -/
def Rel (o : Objs) (s : Values) (h : Heap) (leaked : List Cell) : Prop :=
  (∀ x, ShowsAt (o x) (s x)) ∧ ∃ names : List Nat, names.Nodup ∧ (∀ x, o x ≠ none → x ∈ names) ∧ Exact h (allCells names o s ++ leaked)

theorem shows_none {o : Objs} {s : Values} (h : ∀ x, ShowsAt (o x) (s x)) (x : Nat) : o x = none ↔ s x = none := by
  have := h x
  cases ho : o x <;> cases hs : s x <;> simp_all [ShowsAt]

/-- The cells of all objects but one. -/
def others (names : List Nat) (o : Objs) (s : Values) (x : Nat) : List Cell := allCells (names.filter (· ≠ x)) o s

theorem allCells_focus {names : List Nat} (hn : names.Nodup) {x : Nat} (hx : x ∈ names) (o : Objs) (s : Values) :
    (allCells names o s).Perm (cellsOf (o x) (s x) ++ others names o s x) := by
  induction names with
  | nil => cases hx
  | cons y ys ih =>
    rw [List.nodup_cons] at hn
    by_cases hxy : y = x
    · subst hxy
      have : (y :: ys).filter (· ≠ y) = ys := by
        rw [List.filter_cons_of_neg (by simp)]
        exact List.filter_eq_self.mpr fun a ha => by
          simp only [ne_eq, decide_not, Bool.not_eq_eq_eq_not, Bool.not_true, decide_eq_false_iff_not]
          rintro rfl; exact hn.1 ha
      unfold others
      rw [this]
      exact .refl _
    · have hx' : x ∈ ys := by
        rcases List.mem_cons.mp hx with e | e
        · exact absurd e.symm hxy
        · exact e
      unfold others
      rw [List.filter_cons_of_pos (by simpa using hxy)]
      show (cellsOf (o y) (s y) ++ allCells ys o s).Perm (cellsOf (o x) (s x) ++ (cellsOf (o y) (s y) ++ _))
      refine ((ih hn.2 hx').append_left _).trans ?_
      rw [← List.append_assoc, ← List.append_assoc]
      exact List.perm_append_comm.append_right _

theorem others_update (names : List Nat) (o : Objs) (s : Values) (x : Nat) (v : Option Flat) (w : Option Value) :
    others names (setObj o x v) (bindTo s x w) x = others names o s x := by
  unfold others allCells
  rw [List.flatMap_def, List.flatMap_def]
  congr 1
  refine List.map_congr_left fun y hy => ?_
  have : y ≠ x := by simpa using (List.mem_filter.mp hy).2
  simp [setObj, bindTo, this]

theorem cellsOf_sub {o : Objs} {s : Values} {names : List Nat} (hn : ∀ x, o x ≠ none → x ∈ names) (x : Nat) :
    ∀ c ∈ cellsOf (o x) (s x), c ∈ allCells names o s := by
  intro c hc
  refine List.mem_flatMap.mpr ⟨x, hn x ?_, hc⟩
  intro e
  rw [e] at hc
  cases hc

theorem Matches.get {ps : List Ptr} {ts : List (Option Bytes)} (h : Matches ps ts) {i : Nat} {t : Bytes} (hi : ts[i]? = some (some t)) :
    ∃ a, ps.getD i none = some a ∧ (a, Block.chars t) ∈ fieldCells ps ts := by
  induction h generalizing i with
  | nil => simp at hi
  | null _ ih =>
    cases i with
    | zero => simp at hi
    | succ i => exact ih (by simpa using hi)
  | @text a s ps ts _ ih =>
    cases i with
    | zero =>
      simp only [List.getElem?_cons_zero, Option.some.injEq] at hi
      subst hi
      exact ⟨a, rfl, by simp [fieldCells_text]⟩
    | succ i =>
      obtain ⟨b, e, hm⟩ := ih (i := i) (by simpa using hi)
      exact ⟨b, e, by rw [fieldCells_text]; exact List.mem_cons_of_mem _ hm⟩

theorem Matches.set_null {ps : List Ptr} {ts : List (Option Bytes)} (h : Matches ps ts) (i : Nat) : Matches (ps.set i none) (ts.set i none) := by
  induction h generalizing i with
  | nil => exact .nil
  | null h ih => cases i with
    | zero => exact .null h
    | succ i => exact .null (ih i)
  | text h ih => cases i with
    | zero => exact .null h
    | succ i => exact .text (ih i)

theorem Matches.set_text {ps : List Ptr} {ts : List (Option Bytes)} (h : Matches ps ts) (i a : Nat) (t : Bytes) :
    Matches (ps.set i (some a)) (ts.set i (some t)) := by
  induction h generalizing i with
  | nil => exact .nil
  | null h ih => cases i with
    | zero => exact .text h
    | succ i => exact .null (ih i)
  | text h ih => cases i with
    | zero => exact .text h
    | succ i => exact .text (ih i)

theorem fieldCells_set {ps : List Ptr} {ts : List (Option Bytes)} (h : Matches ps ts) {i : Nat} (hi : i < ts.length) (a : Nat) (t : Bytes) :
    (fieldCells (ps.set i (some a)) (ts.set i (some t))).Perm ((a, .chars t) :: fieldCells (ps.set i none) (ts.set i none)) := by
  induction h generalizing i with
  | nil => simp at hi
  | null h ih => cases i with
    | zero => exact .refl _
    | succ i => exact ih (i := i) (by simpa using hi)
  | @text b s ps ts h ih => cases i with
    | zero => exact .refl _
    | succ i =>
      show ((b, Block.chars s) :: _ : List Cell).Perm ((a, .chars t) :: (b, .chars s) :: _)
      exact ((ih (i := i) (by simpa using hi)).cons _).trans (.swap ..)

theorem fieldCells_split {ps : List Ptr} {ts : List (Option Bytes)} (h : Matches ps ts) (i : Nat) :
    (ps.getD i none = none ∧ fieldCells ps ts = fieldCells (ps.set i none) (ts.set i none)) ∨
    ∃ a s, ps.getD i none = some a ∧ (fieldCells ps ts).Perm ((a, .chars s) :: fieldCells (ps.set i none) (ts.set i none)) := by
  induction h generalizing i with
  | nil => exact .inl ⟨rfl, rfl⟩
  | null h ih => cases i with
    | zero => exact .inl ⟨rfl, rfl⟩
    | succ i => exact ih i
  | @text b s ps ts h ih => cases i with
    | zero => exact .inr ⟨b, s, rfl, .refl _⟩
    | succ i =>
      rcases ih i with ⟨h1, h2⟩ | ⟨a, t, h1, h2⟩
      · exact .inl ⟨h1, congrArg ((b, Block.chars s) :: ·) h2⟩
      · exact .inr ⟨a, t, h1, by
          show ((b, Block.chars s) :: _ : List Cell).Perm ((a, .chars t) :: (b, .chars s) :: _)
          exact (h2.cons _).trans (.swap ..)⟩

theorem fieldCells_moved (ps : List Ptr) (ts : List (Option Bytes)) : fieldCells (ps.map fun _ => none) (ts.map fun _ => none) = [] := by
  unfold fieldCells
  refine List.filterMap_eq_nil_iff.mpr fun c hc => ?_
  obtain ⟨p, q⟩ := c
  have := List.of_mem_zip hc
  simp only [List.mem_map] at this
  obtain ⟨⟨_, _, e⟩, _⟩ := this
  subst e
  rfl

theorem Matches.moved {ps : List Ptr} {ts : List (Option Bytes)} (h : Matches ps ts) : Matches (ps.map fun _ => none) (ts.map fun _ => none) := by
  induction h with
  | nil => exact .nil
  | null _ ih => exact .null ih
  | text _ ih => exact .null ih

/-! ### Steps on whole states -/

variable {o : Objs} {s : Values} {names : List Nat} {x y : Nat} {v : Flat} {w : Value}

theorem showsAt_update (h : ∀ x, ShowsAt (o x) (s x)) (hv : Shows v w) : ∀ y, ShowsAt (setObj o x (some v) y) (bindTo s x (some w) y) := by
  intro y
  unfold setObj bindTo
  split
  · exact hv
  · exact h y

theorem showsAt_remove (h : ∀ x, ShowsAt (o x) (s x)) : ∀ y, ShowsAt (setObj o x none y) (bindTo s x none y) := by
  intro y
  unfold setObj bindTo
  split
  · trivial
  · exact h y

theorem allCells_update (hn : names.Nodup) (hx : x ∈ names) (o : Objs) (s : Values) (v : Option Flat) (w : Option Value) :
    (allCells names (setObj o x v) (bindTo s x w)).Perm (cellsOf v w ++ others names o s x) := by
  refine (allCells_focus hn hx _ _).trans ?_
  rw [others_update]
  simp [setObj, bindTo]

theorem allCells_place (hn : names.Nodup) (hx : x ∈ names) (ho : o x = none) (v : Flat) (w : Value) :
    (fieldCells v.fields w.texts ++ allCells names o s).Perm (allCells names (setObj o x (some v)) (bindTo s x (some w))) := by
  refine List.Perm.trans ?_ (allCells_update hn hx o s _ _).symm
  refine ((allCells_focus hn hx o s).append_left _).trans ?_
  rw [ho]
  exact .refl _

theorem deleteObj_triple (hn : names.Nodup) (hx : x ∈ names) (ho : o x = some v) (hs : s x = some w) (hv : Shows v w) :
    Triple (allCells names o s) (deleteFields v.fields) (fun _ X => X = allCells names (setObj o x none) (bindTo s x none)) := by
  refine Triple.perm (P := fieldCells v.fields w.texts ++ others names o s x) ?_ ?_
  · refine ((deleteFields_triple hv.fields).frame _).post fun _ X hX => ?_
    obtain ⟨Y, rfl, rfl⟩ := hX
    exact ⟨_, (allCells_update hn hx o s none none).symm, rfl⟩
  · refine (allCells_focus hn hx o s).trans ?_
    rw [ho, hs]
    exact .refl _

/-- What reading an argument needs. -/
theorem argText_cell (hsh : ∀ x, ShowsAt (o x) (s x)) {t : Arg} {b : Bytes} (h : argText s t = some b) :
    t = .text b ∨ ∃ y j v w a, t = .field y j ∧ o y = some v ∧ s y = some w ∧ w.texts[j]? = some (some b) ∧ v.fields.getD j none = some a ∧
      (a, Block.chars b) ∈ fieldCells v.fields w.texts := by
  cases t with
  | text c => simp only [argText, Option.some.injEq] at h; subst h; exact .inl rfl
  | field y j =>
    refine .inr ?_
    simp only [argText, Option.bind_eq_some_iff] at h
    obtain ⟨w, hw, c, hc, e⟩ := h
    simp only [id] at e
    subst e
    have := hsh y
    rw [hw] at this
    cases hv : o y with
    | none => rw [hv] at this; exact this.elim
    | some v =>
      rw [hv] at this
      obtain ⟨a, ha, hm⟩ := Matches.get (show Shows v w from this).fields hc
      exact ⟨y, j, v, w, a, rfl, hv, hw, hc, ha, hm⟩

theorem readArg_triple {P : List Cell} {t : Arg} {b : Bytes}
    (h : t = .text b ∨ ∃ y j v a, t = .field y j ∧ o y = some v ∧ v.fields.getD j none = some a ∧ (a, Block.chars b) ∈ P) :
    Triple P (readArg o t) (fun r X => r = b ∧ X = P) := by
  rcases h with rfl | ⟨y, j, v, a, rfl, hv, ha, hm⟩
  · exact Triple.pure _ ⟨rfl, rfl⟩
  · show Triple P (do readText (← getter o y j)) _
    refine Triple.bind (Q := fun r X => r = some a ∧ X = P) ?_ fun r X hX => ?_
    · unfold getter
      rw [hv]
      exact Triple.pure _ ⟨ha, rfl⟩
    · obtain ⟨rfl, rfl⟩ := hX
      exact Triple.readText hm

theorem cells_in (hn : ∀ x, o x ≠ none → x ∈ names) {c : Cell} (ho : o x = some v) (hs : s x = some w) (hc : c ∈ fieldCells v.fields w.texts) :
    c ∈ allCells names o s := by
  refine cellsOf_sub hn x c ?_
  rw [ho, hs]
  exact hc

theorem constructFields_triple {P : List Cell} (hsh : ∀ x, ShowsAt (o x) (s x)) (hn : ∀ x, o x ≠ none → x ∈ names) (ts : List Arg)
    (ht : ∀ t ∈ ts, (argText s t).isSome) (hsub : ∀ c ∈ allCells names o s, c ∈ P) :
    Triple P (constructFields o ts) (fun qs X => Matches qs (ts.map (argText s)) ∧ X.Perm (fieldCells qs (ts.map (argText s)) ++ P)) := by
  induction ts generalizing P with
  | nil => exact Triple.pure _ ⟨.nil, .refl _⟩
  | cons t ts ih =>
    obtain ⟨b, hb⟩ := Option.isSome_iff_exists.mp (ht t (List.mem_cons_self ..))
    unfold constructFields
    refine Triple.bind (Q := fun r X => r = b ∧ X = P) (readArg_triple ?_) fun r X hX => ?_
    · rcases argText_cell hsh hb with h | ⟨y, j, v, w, a, h1, h2, h3, _, h4, h5⟩
      · exact .inl h
      · exact .inr ⟨y, j, v, a, h1, h2, h4, hsub _ (cells_in hn h2 h3 h5)⟩
    · obtain ⟨rfl, rfl⟩ := hX
      refine ((Triple.alloc (.chars r)).frame X).bind fun n Y hY => ?_
      obtain ⟨_, rfl, rfl⟩ := hY
      refine (ih (P := [(n, .chars r)] ++ X) (fun t h => ht t (List.mem_cons_of_mem _ h)) (fun c hc => List.mem_append_right _ (hsub c hc))).bind
        fun qs Z hZ => ?_
      refine Triple.pure _ ?_
      rw [List.map_cons, hb]
      refine ⟨.text hZ.1, ?_⟩
      rw [fieldCells_text]
      exact hZ.2.trans List.perm_middle

/-- The only operation that forgets a block: giving an attachment a new content id. -/
def Forgets (s : Values) : VOp → Prop
  | .set x _ _ => ∃ v, s x = some v ∧ v.cls = .attachment
  | _ => False

/-- Where a step must end. -/
def Reached (names : List Nat) (s' : Values) (forgets : Prop) (o' : Objs) (X : List Cell) : Prop :=
  (∀ x, ShowsAt (o' x) (s' x)) ∧ (∀ x, o' x ≠ none → x ∈ names) ∧ ∃ M, (¬ forgets → M = []) ∧ X = allCells names o' s' ++ M

theorem setObj_names (hnames : ∀ x, o x ≠ none → x ∈ names) (hx : x ∈ names) (v : Option Flat) : ∀ y, setObj o x v y ≠ none → y ∈ names := by
  intro y hy
  by_cases h : y = x
  · exact h ▸ hx
  · exact hnames y (by simpa [setObj, h] using hy)

theorem setObj_setObj (o : Objs) (x : Nat) (u v : Option Flat) : setObj (setObj o x u) x v = setObj o x v := by
  funext z; unfold setObj; split <;> rfl

theorem bindTo_bindTo (s : Values) (x : Nat) (u v : Option Value) : bindTo (bindTo s x u) x v = bindTo s x v := by
  funext z; unfold bindTo; split <;> rfl

theorem setObj_comm (o : Objs) (hxy : x ≠ y) (u v : Option Flat) : setObj (setObj o x u) y v = setObj (setObj o y v) x u := by
  funext z; unfold setObj; split <;> split <;> simp_all

theorem bindTo_comm (s : Values) (hxy : x ≠ y) (u v : Option Value) : bindTo (bindTo s x u) y v = bindTo (bindTo s y v) x u := by
  funext z; unfold bindTo; split <;> split <;> simp_all

theorem shown (hsh : ∀ x, ShowsAt (o x) (s x)) (hs : s x = some w) : ∃ v, o x = some v ∧ Shows v w := by
  have := hsh x
  rw [hs] at this
  cases hv : o x with
  | none => rw [hv] at this; exact this.elim
  | some v => rw [hv] at this; exact ⟨v, rfl, this⟩

/-- Taking over the members of another object. -/
theorem allCells_move (hn : names.Nodup) (hx : x ∈ names) (hy : y ∈ names) (hxy : x ≠ y) (ho : o x = none) (hv : o y = some v) (hw : s y = some w) :
    (allCells names o s).Perm (allCells names (setObj (setObj o y (some v.movedFrom)) x (some v))
      (bindTo (bindTo s y (some { w with texts := w.texts.map fun _ => none })) x (some w))) := by
  have h1 := allCells_update hn hy o s (some v.movedFrom) (some { w with texts := w.texts.map fun _ => none })
  have e : cellsOf (some v.movedFrom) (some { w with texts := w.texts.map fun _ => none }) = [] := fieldCells_moved v.fields w.texts
  rw [e, List.nil_append] at h1
  have h2 := allCells_place (s := bindTo s y (some { w with texts := w.texts.map fun _ => none })) hn hx
    (show setObj o y (some v.movedFrom) x = none by simp [setObj, hxy, ho]) v w
  refine List.Perm.trans ?_ h2
  refine (allCells_focus hn hy o s).trans ?_
  rw [hv, hw]
  exact (h1.symm).append_left _

theorem vstep_triple {s' : Values} (hsh : ∀ x, ShowsAt (o x) (s x)) (hn : names.Nodup) (hnames : ∀ x, o x ≠ none → x ∈ names) (op : VOp)
    (htarget : ∀ x, (∃ y, op = .copy x y ∨ op = .move x y) ∨ (∃ c ts m, op = .construct x c ts m) → x ∈ names)
    (h : valueStep s op = some s') : Triple (allCells names o s) (vstep o op) (Reached names s' (Forgets s op)) := by
  have inNames : ∀ {x v}, o x = some v → x ∈ names := fun h => hnames _ (by rw [h]; nofun)
  cases op with
  | construct x c ts m =>
    simp only [valueStep] at h
    split at h
    case isFalse => cases h
    rename_i hc
    cases h
    have hx := htarget x (.inr ⟨_, _, _, rfl⟩)
    have hox : o x = none := (shows_none hsh x).mpr hc.1
    refine (constructFields_triple hsh hnames ts hc.2.2 (fun _ h => h)).bind fun qs X hX => ?_
    have hS : Shows { cls := c, fields := qs, method := m } { cls := c, texts := ts.map (argText s), method := m } :=
      ⟨rfl, rfl, hX.1, by simpa using hc.2.1⟩
    refine Triple.perm (Triple.pure _ ⟨showsAt_update hsh hS, setObj_names hnames hx _, [], fun _ => rfl, rfl⟩) ?_
    rw [List.append_nil]
    exact hX.2.trans (allCells_place hn hx hox { cls := c, fields := qs, method := m } { cls := c, texts := ts.map (argText s), method := m })
  | copy x y =>
    simp only [valueStep] at h
    split at h
    case h_2 => cases h
    rename_i w hw
    split at h
    case isFalse => cases h
    rename_i hc
    cases h
    obtain ⟨v, hv, hS⟩ := shown hsh hw
    have hx := htarget x (.inl ⟨y, .inl rfl⟩)
    have hox : o x = none := (shows_none hsh x).mpr hc.1
    simp only [vstep, hv]
    refine Triple.bind (Triple.bind (copyFields_triple hS.fields hc.2 (fun c hc => cells_in hnames hv hw hc)) fun qs X hX => Triple.pure (Q := fun r Y =>
      ∃ qs, r = { v with fields := qs } ∧ Matches qs w.texts ∧ Y.Perm (fieldCells qs w.texts ++ allCells names o s)) _ ⟨qs, rfl, hX⟩) fun r X hX => ?_
    obtain ⟨qs, rfl, hM, hp⟩ := hX
    have hS' : Shows { v with fields := qs } w := ⟨hS.cls, hS.method, hM, hS.arity⟩
    refine Triple.perm (Triple.pure _ ⟨showsAt_update hsh hS', setObj_names hnames hx _, [], fun _ => rfl, rfl⟩) ?_
    rw [List.append_nil]
    exact hp.trans (allCells_place hn hx hox { v with fields := qs } w)
  | assign x y =>
    simp only [valueStep] at h
    split at h
    case h_2 => cases h
    rename_i wx w hwx hw
    split at h
    case isFalse => cases h
    rename_i hc
    cases h
    obtain ⟨vx, hvx, hSx⟩ := shown hsh hwx
    obtain ⟨v, hv, hS⟩ := shown hsh hw
    have hx := inNames hvx
    simp only [vstep, hv, hvx]
    by_cases hxy : x = y
    · subst hxy
      simp only [if_true]
      have : bindTo s x (some w) = s := by
        funext z; unfold bindTo; split
        · rename_i e; rw [e, hw]
        · rfl
      rw [this]
      exact Triple.pure _ ⟨hsh, hnames, [], fun _ => rfl, by simp⟩
    · simp only [hxy, if_false]
      have hwhole : Whole w := hc.2.resolve_left hxy
      have hvy : setObj o x none y = some v := by simp [setObj, Ne.symm hxy, hv]
      have hwy : bindTo s x none y = some w := by simp [bindTo, Ne.symm hxy, hw]
      refine Triple.bind (Q := fun r Y => ∃ qs, r = { v with fields := qs } ∧ Matches qs w.texts ∧
        Y.Perm (fieldCells qs w.texts ++ allCells names (setObj o x none) (bindTo s x none))) ?_ fun r X hX => ?_
      · refine (deleteObj_triple hn hx hvx hwx hSx).bind fun _ X hX => ?_
        subst hX
        exact (copyFields_triple hS.fields hwhole (fun c hc => cells_in (setObj_names hnames hx _) hvy hwy hc)).bind
          fun qs X hX => Triple.pure _ ⟨qs, rfl, hX⟩
      · obtain ⟨qs, rfl, hM, hp⟩ := hX
        have hS' : Shows { v with fields := qs } w := ⟨hS.cls, hS.method, hM, hS.arity⟩
        refine Triple.perm (Triple.pure _ ⟨showsAt_update hsh hS', setObj_names hnames hx _, [], fun _ => rfl, rfl⟩) ?_
        rw [List.append_nil]
        have := allCells_place (o := setObj o x none) (s := bindTo s x none) hn hx (by simp [setObj]) { v with fields := qs } w
        rw [setObj_setObj, bindTo_bindTo] at this
        exact hp.trans this
  | move x y =>
    simp only [valueStep] at h
    split at h
    case h_2 => cases h
    rename_i w hw
    split at h
    case isFalse => cases h
    rename_i hc
    cases h
    obtain ⟨v, hv, hS⟩ := shown hsh hw
    have hx := htarget x (.inl ⟨y, .inr rfl⟩)
    have hox : o x = none := (shows_none hsh x).mpr hc
    have hxy : x ≠ y := by rintro rfl; rw [hv] at hox; cases hox
    simp only [vstep, hv]
    have hM : Shows v.movedFrom { w with texts := w.texts.map fun _ => none } :=
      ⟨hS.cls, hS.method, hS.fields.moved, by simpa using hS.arity⟩
    refine Triple.perm (Triple.pure _ ⟨showsAt_update (showsAt_update hsh hM) hS, setObj_names (setObj_names hnames (inNames hv) _) hx _, [], fun _ => rfl, rfl⟩) ?_
    rw [List.append_nil]
    exact allCells_move hn hx (inNames hv) hxy hox hv hw
  | moveAssign x y =>
    simp only [valueStep] at h
    split at h
    case h_2 => cases h
    rename_i wx w hwx hw
    split at h
    case isFalse => cases h
    rename_i hc
    obtain ⟨vx, hvx, hSx⟩ := shown hsh hwx
    obtain ⟨v, hv, hS⟩ := shown hsh hw
    have hx := inNames hvx
    simp only [vstep, hv, hvx]
    by_cases hxy : x = y
    · rw [if_pos hxy] at h
      cases h
      simp only [hxy, if_true]
      exact Triple.pure _ ⟨hsh, hnames, [], fun _ => rfl, by simp⟩
    · rw [if_neg hxy] at h
      cases h
      simp only [hxy, if_false]
      have hvy : setObj o x none y = some v := by simp [setObj, Ne.symm hxy, hv]
      have hwy : bindTo s x none y = some w := by simp [bindTo, Ne.symm hxy, hw]
      have hM : Shows v.movedFrom { w with texts := w.texts.map fun _ => none } :=
        ⟨hS.cls, hS.method, hS.fields.moved, by simpa using hS.arity⟩
      refine Triple.bind (Q := fun r Y => r = (v, v.movedFrom) ∧ Y = allCells names (setObj o x none) (bindTo s x none)) ?_ fun r X hX => ?_
      · exact (deleteObj_triple hn hx hvx hwx hSx).bind fun _ X hX => Triple.pure _ ⟨rfl, hX⟩
      · obtain ⟨rfl, rfl⟩ := hX
        refine Triple.perm (Triple.pure _ ⟨showsAt_update (showsAt_update hsh hM) hS, setObj_names (setObj_names hnames (inNames hv) _) hx _, [], fun _ => rfl, rfl⟩) ?_
        rw [List.append_nil]
        have := allCells_move hn hx (inNames hv) hxy (show setObj o x none x = none by simp [setObj]) hvy hwy
        rw [setObj_comm _ hxy, setObj_setObj, bindTo_comm _ hxy, bindTo_bindTo] at this
        exact this
  | set x i t =>
    simp only [valueStep] at h
    split at h
    case h_2 => cases h
    rename_i w b hw hb
    split at h
    case isFalse => cases h
    rename_i hc
    cases h
    obtain ⟨v, hv, hS⟩ := shown hsh hw
    have hx := inNames hv
    simp only [vstep, hv]
    have hfocus : (allCells names o s).Perm (fieldCells v.fields w.texts ++ others names o s x) := by
      refine (allCells_focus hn hx o s).trans ?_
      rw [hv, hw]
      exact .refl _
    have hi : i < w.texts.length := by
      rw [hS.arity]
      have := hc.1
      cases hcls : w.cls <;> rw [hcls] at this <;> simp only [Settable] at this <;> simp only [members]
      · exact this
      · omega
    have hS' : ∀ a, Shows { v with fields := v.fields.set i (some a) } { w with texts := w.texts.set i (some b) } := fun a =>
      ⟨hS.cls, hS.method, hS.fields.set_text i a b, by simpa using hS.arity⟩
    have hfin : ∀ a, ((a, Block.chars b) :: (fieldCells (v.fields.set i none) (w.texts.set i none) ++ others names o s x)).Perm
        (allCells names (setObj o x (some { v with fields := v.fields.set i (some a) })) (bindTo s x (some { w with texts := w.texts.set i (some b) }))) := by
      intro a
      refine List.Perm.trans ?_ (allCells_update hn hx o s _ _).symm
      exact ((fieldCells_set hS.fields hi a b).symm).append_right _
    by_cases hcred : v.cls = .credential
    · simp only [hcred, if_true]
      have halias : t ≠ .field x i := fun e => hc.2 ⟨hS.cls ▸ hcred, e⟩
      refine Triple.bind (Q := fun r Y => ∃ a, r = { v with fields := v.fields.set i (some a) } ∧ Y = (a, Block.chars b) ::
        (fieldCells (v.fields.set i none) (w.texts.set i none) ++ others names o s x)) ?_ fun r X hX => ?_
      · unfold setAfterDelete
        have harg := argText_cell hsh hb
        refine Triple.bind (Q := fun r X => r = b ∧ X = allCells names o s) (readArg_triple ?_) fun r X hX => ?_
        · rcases harg with h | ⟨y, j, v, w, a, h1, h2, h3, _, h4, h5⟩
          · exact .inl h
          · exact .inr ⟨y, j, v, a, h1, h2, h4, cells_in hnames h2 h3 h5⟩
        obtain ⟨rfl, rfl⟩ := hX
        refine Triple.bind (Q := fun _ X => X = fieldCells (v.fields.set i none) (w.texts.set i none) ++ others names o s x) ?_ fun _ X hX => ?_
        · refine Triple.perm ?_ hfocus
          rcases fieldCells_split hS.fields i with ⟨e1, e2⟩ | ⟨a, c, e1, e2⟩
          · rw [e1, e2]
            exact Triple.pure _ rfl
          · rw [e1]
            refine Triple.perm (P := [(a, .chars c)] ++ (fieldCells (v.fields.set i none) (w.texts.set i none) ++ others names o s x)) ?_
              (e2.append_right _)
            refine ((Triple.deleteArray a (.chars c) trivial).frame _).post fun _ X hX => ?_
            obtain ⟨Y, rfl, rfl⟩ := hX
            exact ⟨_, .refl _, rfl⟩
        subst hX
        refine Triple.bind (readArg_triple (b := r) ?_) fun r' X hX => ?_
        · rcases harg with h | ⟨y, j, v', w', a, h1, h2, h3, h3', h4, h5⟩
          · exact .inl h
          · refine .inr ⟨y, j, v', a, h1, h2, h4, ?_⟩
            by_cases hyx : y = x
            · subst hyx
              have hji : j ≠ i := by rintro rfl; exact halias h1
              rw [hv] at h2
              cases h2
              rw [hw] at h3
              cases h3
              obtain ⟨a', e1, hm⟩ := Matches.get (hS.fields.set_null i) (i := j) (t := r) (by rw [List.getElem?_set_ne (Ne.symm hji)]; exact h3')
              have : (v.fields.set i none).getD j none = v.fields.getD j none := by
                rw [List.getD_eq_getElem?_getD, List.getElem?_set_ne (Ne.symm hji), ← List.getD_eq_getElem?_getD]
              rw [this, h4] at e1
              cases e1
              exact List.mem_append_left _ hm
            · refine List.mem_append_right _ (List.mem_flatMap.mpr ⟨y, List.mem_filter.mpr ⟨inNames h2, by simpa using hyx⟩, ?_⟩)
              rw [h2, h3]
              exact h5
        obtain ⟨rfl, rfl⟩ := hX
        refine ((Triple.alloc (.chars r')).frame _).bind fun n Y hY => ?_
        obtain ⟨_, rfl, rfl⟩ := hY
        exact Triple.pure _ ⟨n, rfl, rfl⟩
      · obtain ⟨a, rfl, rfl⟩ := hX
        refine Triple.perm (Triple.pure _ ⟨showsAt_update hsh (hS' a), setObj_names hnames hx _, [], fun _ => rfl, rfl⟩) ?_
        rw [List.append_nil]
        exact hfin a
    · simp only [hcred, if_false]
      have hatt : w.cls = .attachment := by
        have := hc.1
        rw [hS.cls] at hcred
        cases hcls : w.cls
        · rw [hcls] at this; exact this.elim
        · exact absurd hcls hcred
        · rfl
        · rw [hcls] at this; exact this.elim
      refine Triple.bind (Q := fun r Y => ∃ a, r = { v with fields := v.fields.set i (some a) } ∧ Y = (a, Block.chars b) :: allCells names o s) ?_ fun r X hX => ?_
      · unfold setWithoutDelete
        refine Triple.bind (Q := fun r X => r = b ∧ X = allCells names o s) (readArg_triple ?_) fun r X hX => ?_
        · rcases argText_cell hsh hb with h | ⟨y, j, v, w, a, h1, h2, h3, _, h4, h5⟩
          · exact .inl h
          · exact .inr ⟨y, j, v, a, h1, h2, h4, cells_in hnames h2 h3 h5⟩
        obtain ⟨rfl, rfl⟩ := hX
        refine ((Triple.alloc (.chars r)).frame _).bind fun n Y hY => ?_
        obtain ⟨_, rfl, rfl⟩ := hY
        exact Triple.pure _ ⟨n, rfl, rfl⟩
      · obtain ⟨a, rfl, rfl⟩ := hX
        rcases fieldCells_split hS.fields i with ⟨_, e2⟩ | ⟨a', c, _, e2⟩
        · refine Triple.perm (Triple.pure _ ⟨showsAt_update hsh (hS' a), setObj_names hnames hx _, [], fun _ => rfl, rfl⟩) ?_
          rw [List.append_nil]
          rw [e2] at hfocus
          exact (hfocus.cons _).trans (hfin a)
        · refine Triple.perm (Triple.pure _ ⟨showsAt_update hsh (hS' a), setObj_names hnames hx _, [(a', .chars c)],
            fun hF => absurd (show Forgets s (.set x i t) from ⟨w, hw, hatt⟩) hF, rfl⟩) ?_
          refine List.Perm.trans ?_ ((hfin a).append_right _)
          refine (hfocus.trans (e2.append_right _)).cons _ |>.trans ?_
          show ((a, Block.chars b) :: (a', .chars c) :: _ : List Cell).Perm ((a, Block.chars b) :: (_ ++ [(a', .chars c)]))
          exact (List.perm_append_singleton ..).symm.cons _
  | setMethod x m =>
    simp only [valueStep] at h
    split at h
    case h_2 => cases h
    rename_i w hw
    split at h
    case isFalse => cases h
    cases h
    obtain ⟨v, hv, hS⟩ := shown hsh hw
    have hx := inNames hv
    simp only [vstep, hv]
    have hS' : Shows { v with method := m } { w with method := m } := ⟨hS.cls, rfl, hS.fields, hS.arity⟩
    refine Triple.perm (Triple.pure _ ⟨showsAt_update hsh hS', setObj_names hnames hx _, [], fun _ => rfl, rfl⟩) ?_
    rw [List.append_nil]
    refine List.Perm.trans ?_ (allCells_update hn hx o s _ _).symm
    refine (allCells_focus hn hx o s).trans ?_
    rw [hv, hw]
    exact .refl _
  | destroy x =>
    simp only [valueStep] at h
    split at h
    case h_2 => cases h
    rename_i w hw
    cases h
    obtain ⟨v, hv, hS⟩ := shown hsh hw
    have hx := inNames hv
    simp only [vstep, hv]
    refine (deleteObj_triple hn hx hv hw hS).bind fun _ X hX => ?_
    subst hX
    exact Triple.pure _ ⟨showsAt_remove hsh, setObj_names hnames hx _, [], fun _ => rfl, by simp⟩

/-- One more name. -/
theorem Rel.name {h : Heap} {leaked : List Cell} (hR : Rel o s h leaked) (x : Nat) :
    ∃ names : List Nat, names.Nodup ∧ x ∈ names ∧ (∀ x, o x ≠ none → x ∈ names) ∧ Exact h (allCells names o s ++ leaked) := by
  obtain ⟨hsh, names, hn, hnames, hE⟩ := hR
  by_cases hx : x ∈ names
  · exact ⟨names, hn, hx, hnames, hE⟩
  · refine ⟨x :: names, List.nodup_cons.mpr ⟨hx, hn⟩, List.mem_cons_self .., fun y hy => List.mem_cons_of_mem _ (hnames y hy), ?_⟩
    have : o x = none := Classical.byContradiction fun h => hx (hnames x h)
    show Exact h ((cellsOf (o x) (s x) ++ allCells names o s) ++ leaked)
    rw [this]
    exact hE

theorem vstep_refines {h : Heap} {leaked : List Cell} {s' : Values} (hR : Rel o s h leaked) (op : VOp) (hs : valueStep s op = some s') :
    ∃ o' h' more, vstep o op h = .ok (o', h') ∧ Rel o' s' h' (more ++ leaked) ∧ (¬ Forgets s op → more = []) := by
  have key : ∃ x, ∀ z, (∃ y, op = .copy z y ∨ op = .move z y) ∨ (∃ c ts m, op = .construct z c ts m) → z = x := by
    cases op with
    | construct x c ts m => exact ⟨x, by rintro z (⟨y, h | h⟩ | ⟨_, _, _, h⟩) <;> cases h; rfl⟩
    | copy x y => exact ⟨x, by rintro z (⟨y, h | h⟩ | ⟨_, _, _, h⟩) <;> cases h; rfl⟩
    | move x y => exact ⟨x, by rintro z (⟨y, h | h⟩ | ⟨_, _, _, h⟩) <;> cases h; rfl⟩
    | _ => exact ⟨0, by rintro z (⟨y, h | h⟩ | ⟨_, _, _, h⟩) <;> cases h⟩
  obtain ⟨x, hx⟩ := key
  obtain ⟨names, hn, hxn, hnames, hE⟩ := hR.name x
  obtain ⟨o', h', X, e, ⟨h1, h2, M, h3, rfl⟩, hE'⟩ := vstep_triple hR.1 hn hnames op (fun z hz => hx z hz ▸ hxn) hs h leaked hE
  exact ⟨o', h', M, e, ⟨h1, names, hn, h2, by rwa [List.append_assoc] at hE'⟩, h3⟩

/-- Some operation forgets a block. -/
def ForgetsIn (s : Values) : List VOp → Prop
  | [] => False
  | p :: ps => Forgets s p ∨ ∃ s', valueStep s p = some s' ∧ ForgetsIn s' ps

theorem vrun_refines {h : Heap} {leaked : List Cell} {s' : Values} (hR : Rel o s h leaked) (ops : List VOp) (hs : valueRun s ops = some s') :
    ∃ o' h' more, vrun o ops h = .ok (o', h') ∧ Rel o' s' h' (more ++ leaked) ∧ (¬ ForgetsIn s ops → more = []) := by
  induction ops generalizing o s h leaked with
  | nil =>
    cases hs
    exact ⟨o, h, [], rfl, hR, fun _ => rfl⟩
  | cons p ps ih =>
    simp only [valueRun, Option.bind_eq_some_iff] at hs
    obtain ⟨s1, h1, h2⟩ := hs
    obtain ⟨o1, g1, m1, e1, hR1, hm1⟩ := vstep_refines hR p h1
    obtain ⟨o2, g2, m2, e2, hR2, hm2⟩ := ih hR1 h2
    refine ⟨o2, g2, m2 ++ m1, ?_, by rwa [List.append_assoc], ?_⟩
    · rw [vrun, bind_ok e1]
      exact e2
    · intro hF
      rw [hm1 (fun h => hF (.inl h)), hm2 (fun h => hF (.inr ⟨s1, h1, h⟩))]
      rfl

theorem Rel.empty : Rel (fun _ => none) (fun _ => none) Heap.empty [] :=
  ⟨fun _ => trivial, [], List.nodup_nil, fun _ h => absurd rfl h, by
    refine ⟨List.nodup_nil, fun a b => ⟨nofun, nofun⟩, nofun⟩⟩

end Verif.Proofs
