import Verif.Model.Heap
/-! A small separation logic: assertions are lists of cells, and the heap is exactly the cells. -/
namespace Verif.Proofs
open Verif Verif.Model

/-- A live block at its address. -/
abbrev Cell := Nat × Block

/-- The heap consists of exactly these cells. -/
structure Exact (h : Heap) (L : List Cell) : Prop where
  nodup : (L.map (·.1)).Nodup
  mem : ∀ a b, h.mem a = some b ↔ (a, b) ∈ L
  fresh : ∀ c ∈ L, c.1 < h.next

theorem Exact.perm {h : Heap} {L L' : List Cell} (hE : Exact h L) (hp : L.Perm L') : Exact h L' :=
  ⟨(hp.map _).nodup_iff.mp hE.nodup, fun a b => (hE.mem a b).trans hp.mem_iff, fun c hc => hE.fresh c (hp.mem_iff.mpr hc)⟩

/-- Permutations of concatenated lists, by counting. -/
macro "permute" : tactic => `(tactic|
  (rw [List.perm_iff_count]; intro c; simp only [List.count_append, List.count_cons, List.count_nil]; omega))

/-- From a heap that has the cells `P` (and others, which stay) the program ends without error in one that has the cells of the postcondition. -/
def Triple {α : Type} (P : List Cell) (p : H α) (Q : α → List Cell → Prop) : Prop :=
  ∀ h F, Exact h (P ++ F) → ∃ r h' P', p h = .ok (r, h') ∧ Q r P' ∧ Exact h' (P' ++ F)

variable {α β : Type} {P P' F : List Cell} {p : H α} {Q : α → List Cell → Prop}

theorem Triple.pure (a : α) (h : Q a P) : Triple P (Pure.pure a) Q := fun hp _ hE => ⟨a, hp, P, rfl, h, hE⟩

theorem bind_ok {p : H α} {f : α → H β} {h h' : Heap} {a : α} (e : p h = .ok (a, h')) : (p >>= f) h = f a h' := by
  show (match p h with | .ok (a, h') => f a h' | .error e => .error e) = _
  rw [e]

theorem Triple.bind {f : α → H β} {R : β → List Cell → Prop} (h1 : Triple P p Q) (h2 : ∀ a P', Q a P' → Triple P' (f a) R) :
    Triple P (p >>= f) R := by
  intro h F hE
  obtain ⟨a, h', P', e, hQ, hE'⟩ := h1 h F hE
  obtain ⟨b, h'', P'', e', hR, hE''⟩ := h2 a P' hQ h' F hE'
  refine ⟨b, h'', P'', ?_, hR, hE''⟩
  show (match p h with | .ok (a, h') => f a h' | .error e => .error e) = _
  rw [e]
  exact e'

theorem Triple.perm (h : Triple P p Q) (hp : P'.Perm P) : Triple P' p Q :=
  fun hh F hE => h hh F (hE.perm (hp.append_right F))

theorem Triple.post {R : α → List Cell → Prop} (h : Triple P p Q) (hq : ∀ a X, Q a X → ∃ Y, X.Perm Y ∧ R a Y) : Triple P p R := by
  intro hh F hE
  obtain ⟨a, h', P', e, hQ, hE'⟩ := h hh F hE
  obtain ⟨Y, hp, hR⟩ := hq a P' hQ
  exact ⟨a, h', Y, e, hR, hE'.perm (hp.append_right F)⟩

theorem Triple.frame (h : Triple P p Q) (F : List Cell) : Triple (P ++ F) p (fun a X => ∃ Y, X = Y ++ F ∧ Q a Y) := by
  intro hh G hE
  rw [List.append_assoc] at hE
  obtain ⟨a, h', P', e, hQ, hE'⟩ := h hh (F ++ G) hE
  exact ⟨a, h', P' ++ F, e, ⟨P', rfl, hQ⟩, by rwa [List.append_assoc]⟩

theorem Triple.alloc (b : Block) : Triple [] (Model.alloc b) (fun a X => X = [(a, b)]) := by
  intro h F hE
  rw [List.nil_append] at hE
  refine ⟨_, _, [(h.next, b)], rfl, rfl, ?_, ?_, ?_⟩
  · rw [List.singleton_append, List.map_cons, List.nodup_cons]
    refine ⟨fun hm => ?_, hE.nodup⟩
    obtain ⟨c, hc, e⟩ := List.mem_map.mp hm
    have := hE.fresh c hc
    simp only at e
    omega
  · intro a b'
    simp only [List.singleton_append, List.mem_cons]
    by_cases ha : a = h.next
    · subst ha
      simp only [if_true, Option.some.injEq, Prod.mk.injEq, true_and]
      constructor
      · intro e; exact .inl e.symm
      · rintro (e | hm)
        · exact e.symm
        · have := hE.fresh _ hm
          simp at this
    · simp only [ha, if_false, Prod.mk.injEq, false_and, false_or]
      exact hE.mem a b'
  · intro c hc
    simp only [List.singleton_append, List.mem_cons] at hc
    rcases hc with rfl | hc
    · exact Nat.lt_succ_self _
    · exact Nat.lt_succ_of_lt (hE.fresh c hc)

theorem Triple.release (a : Nat) (b : Block) : Triple [(a, b)] (Model.release a) (fun _ X => X = []) := by
  intro h F hE
  refine ⟨_, _, [], rfl, rfl, ?_, ?_, ?_⟩
  · have := hE.nodup
    rw [List.singleton_append, List.map_cons, List.nodup_cons] at this
    exact this.2
  · intro x b'
    have hn := hE.nodup
    rw [List.singleton_append, List.map_cons, List.nodup_cons] at hn
    simp only [List.nil_append]
    by_cases hx : x = a
    · subst hx
      simp only [if_true]
      refine ⟨nofun, fun hm => absurd (List.mem_map.mpr ⟨_, hm, rfl⟩) hn.1⟩
    · simp only [hx, if_false]
      rw [hE.mem]
      simp [hx]
  · intro c hc
    exact hE.fresh c (by simp only [List.nil_append] at hc; simp [hc])

/-- Blocks that `delete[]` may be given. -/
def Deletable : Block → Prop
  | .chars _ => True
  | .arr _ => True
  | _ => False

theorem Triple.deleteArray (a : Nat) (b : Block) (hb : Deletable b) : Triple [(a, b)] (Model.deleteArray (some a)) (fun _ X => X = []) := by
  intro h F hE
  have hm : h.mem a = some b := (hE.mem a b).mpr (by simp)
  obtain ⟨r, h', P', e, hQ, hE'⟩ := Triple.release a b h F hE
  refine ⟨r, h', P', ?_, hQ, hE'⟩
  show (match h.mem a with
    | some (.chars _) => Model.release a h
    | some (.arr _) => Model.release a h
    | some _ => Except.error MemErr.mismatch
    | none => Except.error MemErr.doubleFree) = _
  rw [hm]
  cases b with
  | chars s => exact e
  | arr l => exact e
  | scalar => cases hb
  | obj l => cases hb

theorem Triple.deleteNull : Triple [] (Model.deleteArray none) (fun _ X => X = []) := Triple.pure () rfl

theorem Triple.readText {a : Nat} {s : Bytes} (hm : (a, Block.chars s) ∈ P) : Triple P (Model.readText (some a)) (fun r X => r = s ∧ X = P) := by
  intro h F hE
  have : h.mem a = some (.chars s) := (hE.mem a _).mpr (List.mem_append_left _ hm)
  refine ⟨s, h, P, ?_, ⟨rfl, rfl⟩, hE⟩
  show (match h.mem a with
    | some (.chars s) => Except.ok (s, h)
    | some .scalar => Except.ok ([], h)
    | some _ => Except.error MemErr.mismatch
    | none => Except.error MemErr.deadRead) = _
  rw [this]

theorem Triple.copyText {a : Nat} {s : Bytes} (hm : (a, Block.chars s) ∈ P) :
    Triple P (Model.copyText (some a)) (fun r X => ∃ n, r = some n ∧ X = (n, .chars s) :: P) := by
  refine (Triple.readText hm).bind fun r P' ⟨h1, h2⟩ => ?_
  subst h1 h2
  refine ((Triple.alloc (.chars r)).frame P').bind fun n X h => ?_
  obtain ⟨Y, rfl, rfl⟩ := h
  exact Triple.pure _ ⟨n, rfl, rfl⟩

/-! ### Members of an object -/

/-- The cell of a member, if it has text. -/
def fieldCell : Ptr × Option Bytes → Option Cell
  | (some a, some s) => some (a, .chars s)
  | _ => none

/-- The cells of the members. -/
def fieldCells (ps : List Ptr) (ts : List (Option Bytes)) : List Cell := (ps.zip ts).filterMap fieldCell

/-- Members are null exactly when there is no text. -/
inductive Matches : List Ptr → List (Option Bytes) → Prop
  | nil : Matches [] []
  | null {ps ts} : Matches ps ts → Matches (none :: ps) (none :: ts)
  | text {a s ps ts} : Matches ps ts → Matches (some a :: ps) (some s :: ts)

theorem fieldCells_null {ps ts} : fieldCells (none :: ps) (none :: ts) = fieldCells ps ts := rfl

theorem fieldCells_text {a s ps ts} : fieldCells (some a :: ps) (some s :: ts) = (a, .chars s) :: fieldCells ps ts := rfl

theorem Matches.length {ps ts} (h : Matches ps ts) : ps.length = ts.length := by
  induction h <;> simp_all

theorem deleteFields_triple {ps : List Ptr} {ts : List (Option Bytes)} (h : Matches ps ts) :
    Triple (fieldCells ps ts) (deleteFields ps) (fun _ X => X = []) := by
  induction h with
  | nil => exact Triple.pure () rfl
  | null _ ih =>
    refine (Triple.deleteNull.frame _).bind fun _ X hX => ?_
    obtain ⟨Y, rfl, rfl⟩ := hX
    exact ih
  | @text a s ps ts _ ih =>
    refine (Triple.frame (Triple.deleteArray a (.chars s) trivial) (fieldCells ps ts)).bind fun _ X hX => ?_
    obtain ⟨Y, rfl, rfl⟩ := hX
    exact ih

theorem copyFields_triple {ps : List Ptr} {ts : List (Option Bytes)} (h : Matches ps ts) (hw : none ∉ ts)
    (hsub : ∀ c ∈ fieldCells ps ts, c ∈ P) :
    Triple P (copyFields ps) (fun qs X => Matches qs ts ∧ X.Perm (fieldCells qs ts ++ P)) := by
  induction h generalizing P with
  | nil => exact Triple.pure _ ⟨.nil, .refl _⟩
  | null _ _ => simp at hw
  | @text a s ps ts _ ih =>
    unfold copyFields
    refine (Triple.copyText (hsub (a, .chars s) (by simp [fieldCells_text]))).bind fun r X hX => ?_
    obtain ⟨n, rfl, rfl⟩ := hX
    refine (ih (P := (n, .chars s) :: P) (fun hm => hw (List.mem_cons_of_mem _ hm))
      (fun c hc => List.mem_cons_of_mem _ (hsub c (by rw [fieldCells_text]; exact List.mem_cons_of_mem _ hc)))).bind fun qs X hX => ?_
    refine Triple.pure _ ⟨.text hX.1, ?_⟩
    rw [fieldCells_text]
    refine hX.2.trans ?_
    exact List.perm_middle

end Verif.Proofs
