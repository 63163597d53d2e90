import Verif.Proofs.Sep
import Verif.Spec.Mails
/-! Messages on the heap refine messages as values. -/
namespace Verif.Proofs
open Verif Verif.Model Verif.Spec

/-- The block of an address or attachment, and its texts. -/
inductive ElemCells : List Ptr → List (List Bytes) → List Cell → Prop
  | nil : ElemCells [] [] []
  | cons {e fs es ts vs cs} : Matches fs (ts.map some) → ElemCells es vs cs →
      ElemCells (some e :: es) (ts :: vs) ((e, .obj fs) :: (fieldCells fs (ts.map some) ++ cs))

/-- The cells of an array and its elements. -/
inductive ArrCells : MailArr → Part → List Cell → Prop
  | null : ArrCells ⟨none, 0⟩ ⟨false, [], false⟩ []
  | stale {a} : ArrCells ⟨some a, 0⟩ ⟨true, [], true⟩ []
  | owned {a es vs cs} : ElemCells es vs cs → ArrCells ⟨some a, vs.length⟩ ⟨false, vs, true⟩ ((a, .arr es) :: cs)

/-- The cells of all arrays. -/
inductive ArrsCells : List MailArr → List Part → List Cell → Prop
  | nil : ArrsCells [] [] []
  | cons {a as p ps cs ds} : ArrCells a p cs → ArrsCells as ps ds → ArrsCells (a :: as) (p :: ps) (cs ++ ds)

theorem ElemCells.length {es vs cs} (h : ElemCells es vs cs) : es.length = vs.length := by
  induction h <;> simp_all

theorem ArrsCells.length {as ps cs} (h : ArrsCells as ps cs) : as.length = ps.length := by
  induction h <;> simp_all

theorem Triple.readObject {P : List Cell} {a : Nat} {fs : List Ptr} (hm : (a, Block.obj fs) ∈ P) :
    Triple P (Model.readObject (some a)) (fun r X => r = fs ∧ X = P) := by
  intro h F hE
  have : h.mem a = some (.obj fs) := (hE.mem a _).mpr (List.mem_append_left _ hm)
  refine ⟨fs, h, P, ?_, ⟨rfl, rfl⟩, hE⟩
  show (match h.mem a with
    | some (.obj l) => Except.ok (l, h)
    | some _ => Except.error MemErr.mismatch
    | none => Except.error MemErr.deadRead) = _
  rw [this]

theorem Triple.readArray {P : List Cell} {a : Nat} {es : List Ptr} (hm : (a, Block.arr es) ∈ P) :
    Triple P (Model.readArray (some a)) (fun r X => r = es ∧ X = P) := by
  intro h F hE
  have : h.mem a = some (.arr es) := (hE.mem a _).mpr (List.mem_append_left _ hm)
  refine ⟨es, h, P, ?_, ⟨rfl, rfl⟩, hE⟩
  show (match h.mem a with
    | some (.arr l) => Except.ok (l, h)
    | some _ => Except.error MemErr.mismatch
    | none => Except.error MemErr.deadRead) = _
  rw [this]

/-- A program that gives back exactly these cells. -/
def Frees (P : List Cell) (p : H Unit) : Prop := Triple P p (fun _ X => X = [])

theorem Frees.keep {P : List Cell} {p : H Unit} (h : Frees P p) (F : List Cell) : Triple (P ++ F) p (fun _ X => X = F) :=
  (Triple.frame h F).post fun _ X hX => by
    obtain ⟨Y, rfl, rfl⟩ := hX
    exact ⟨_, .refl _, rfl⟩

theorem Frees.then {P P' : List Cell} {p q : H Unit} (h : Frees P p) (h' : Frees P' q) : Frees (P ++ P') (do p; q) :=
  (h.keep P').bind fun _ X hX => by subst hX; exact h'

theorem deleteObjects_frees {es vs cs} (h : ElemCells es vs cs) : Frees cs (deleteObjects es) := by
  induction h with
  | nil => exact Triple.pure () rfl
  | @cons e fs es ts vs cs hM _ ih =>
    have h1 : Frees ((e, .obj fs) :: fieldCells fs (ts.map some)) (deleteObject (some e)) := by
      unfold deleteObject
      refine Triple.bind (Triple.readObject (List.mem_cons_self ..)) fun r X hX => ?_
      obtain ⟨rfl, rfl⟩ := hX
      refine Triple.perm (P := fieldCells r (ts.map some) ++ [(e, .obj r)]) ?_ (List.perm_append_singleton ..).symm
      exact Frees.then (deleteFields_triple hM) (Triple.release e (.obj r))
    exact Frees.then h1 ih

theorem deleteElements_frees {a es vs cs} (h : ElemCells es vs cs) : Frees ((a, .arr es) :: cs) (deleteElements ⟨some a, vs.length⟩) := by
  unfold deleteElements
  by_cases hv : vs.length = 0
  · simp only [hv, if_true]
    have : vs = [] := List.length_eq_zero_iff.mp hv
    subst this
    cases h
    exact Triple.deleteArray a (.arr []) trivial
  · simp only [hv, if_false]
    refine Triple.bind (Triple.readArray (List.mem_cons_self ..)) fun r X hX => ?_
    obtain ⟨rfl, rfl⟩ := hX
    have hl := h.length
    rw [if_pos (by omega), ← hl, List.take_length]
    refine Triple.perm (P := cs ++ [(a, .arr r)]) ?_ (List.perm_append_singleton ..).symm
    exact Frees.then (deleteObjects_frees h) (Triple.deleteArray a (.arr r) trivial)

/-- A program that adds cells of this kind to those that are there. -/
def Makes {α : Type} (P : List Cell) (p : H α) (R : α → List Cell → Prop) : Prop :=
  Triple P p (fun r X => ∃ ds, R r ds ∧ X = ds ++ P)

theorem Makes.intro {α : Type} {P : List Cell} {p : H α} {R : α → List Cell → Prop}
    (h : Triple P p (fun r X => ∃ ds, R r ds ∧ X.Perm (ds ++ P))) : Makes P p R :=
  h.post fun _ _ ⟨ds, h1, h2⟩ => ⟨_, h2, ds, h1, rfl⟩

theorem Makes.bind {α β : Type} {P : List Cell} {p : H α} {f : α → H β} {R : α → List Cell → Prop} {S : β → List Cell → Prop}
    (h : Makes P p R) (h2 : ∀ r ds, R r ds → Makes (ds ++ P) (f r) (fun b es => ∃ zs, zs.Perm (es ++ ds) ∧ S b zs)) : Makes P (p >>= f) S := by
  refine Makes.intro (Triple.bind h fun r X hX => ?_)
  obtain ⟨ds, hR, rfl⟩ := hX
  refine (h2 r ds hR).post fun b X hX => ?_
  obtain ⟨es, ⟨zs, hp, hS⟩, rfl⟩ := hX
  refine ⟨_, .refl _, zs, hS, ?_⟩
  rw [← List.append_assoc]
  exact hp.symm.append_right P

theorem Makes.pure {α : Type} {P : List Cell} {R : α → List Cell → Prop} (a : α) (h : R a []) : Makes P (Pure.pure a) R :=
  Triple.pure _ ⟨[], h, rfl⟩

theorem Makes.alloc {P : List Cell} (b : Block) : Makes P (Model.alloc b) (fun a ds => ds = [(a, b)]) :=
  ((Triple.alloc b).frame P).post fun a X hX => by
    obtain ⟨Y, rfl, rfl⟩ := hX
    exact ⟨_, .refl _, _, rfl, rfl⟩

theorem Makes.mono {α : Type} {P : List Cell} {p : H α} {R S : α → List Cell → Prop} (h : Makes P p R) (hRS : ∀ a ds, R a ds → S a ds) : Makes P p S :=
  Triple.post h fun _ _ ⟨ds, h1, h2⟩ => ⟨_, .refl _, ds, hRS _ _ h1, h2⟩

theorem copyFields_makes {P : List Cell} {ps ts} (h : Matches ps ts) (hw : none ∉ ts) (hsub : ∀ c ∈ fieldCells ps ts, c ∈ P) :
    Makes P (copyFields ps) (fun qs ds => Matches qs ts ∧ ds = fieldCells qs ts) :=
  Makes.intro ((copyFields_triple h hw hsub).post fun _ _ ⟨h1, h2⟩ => ⟨_, .refl _, _, ⟨h1, rfl⟩, h2⟩)

theorem none_not_map (ts : List Bytes) : none ∉ ts.map some := by simp

theorem copyObjects_makes {P : List Cell} {es vs cs} (h : ElemCells es vs cs) (hsub : ∀ c ∈ cs, c ∈ P) :
    Makes P (copyObjects es) (fun qs ds => ElemCells qs vs ds) := by
  induction h generalizing P with
  | nil => exact Makes.pure _ .nil
  | @cons e fs es ts vs cs hM _ ih =>
    unfold copyObjects
    have h1 : Makes P (copyObject (some e)) (fun q ds => ∃ n gs, q = some n ∧ Matches gs (ts.map some) ∧
        ds = (n, .obj gs) :: fieldCells gs (ts.map some)) := by
      unfold copyObject
      refine Triple.bind (Triple.readObject (hsub _ (List.mem_cons_self ..))) fun r X hX => ?_
      obtain ⟨rfl, rfl⟩ := hX
      refine Makes.bind (copyFields_makes hM (none_not_map ts)
        fun c hc => hsub c (List.mem_cons_of_mem _ (List.mem_append_left _ hc))) fun gs ds hds => ?_
      obtain ⟨hg, rfl⟩ := hds
      refine Makes.bind (Makes.alloc _) fun n zs hz => ?_
      subst hz
      exact Makes.pure _ ⟨_, .refl _, _, .refl _, n, gs, rfl, hg, rfl⟩
    refine Makes.bind h1 fun q ds hq => ?_
    obtain ⟨n, gs, rfl, hg, rfl⟩ := hq
    refine Makes.bind (ih fun c hc => List.mem_append_right _ (hsub c (List.mem_cons_of_mem _ (List.mem_append_right _ hc)))) fun qs zs hz => ?_
    refine Makes.pure _ ⟨_, .refl _, _, ?_, .cons hg hz⟩
    show ((n, Block.obj gs) :: (fieldCells gs (ts.map some) ++ zs) : List Cell).Perm (zs ++ ((n, Block.obj gs) :: fieldCells gs (ts.map some)))
    exact List.perm_append_comm (l₁ := (n, Block.obj gs) :: fieldCells gs (ts.map some))

theorem copyElements_makes {P : List Cell} {a es vs cs} (h : ElemCells es vs cs) (hsub : ∀ c ∈ ((a, .arr es) :: cs : List Cell), c ∈ P) :
    Makes P (copyElements ⟨some a, vs.length⟩) (fun p ds => ∃ n qs es', p = some n ∧ ElemCells qs vs es' ∧ ds = (n, .arr qs) :: es') := by
  unfold copyElements
  refine Triple.bind (Triple.readArray (hsub _ (List.mem_cons_self ..))) fun r X hX => ?_
  obtain ⟨rfl, rfl⟩ := hX
  have hl := h.length
  simp only
  rw [if_pos (by omega), ← hl, List.take_length]
  refine Makes.bind (copyObjects_makes h fun c hc => hsub c (List.mem_cons_of_mem _ hc)) fun qs ds hd => ?_
  refine Makes.bind (Makes.alloc _) fun n zs hz => ?_
  subst hz
  exact Makes.pure _ ⟨_, .refl _, _, .refl _, n, qs, ds, rfl, hd, rfl⟩

theorem newFields_makes {P : List Cell} (ts : List Bytes) :
    Makes P (newFields ts) (fun qs ds => Matches qs (ts.map some) ∧ ds.Perm (fieldCells qs (ts.map some))) := by
  induction ts generalizing P with
  | nil => exact Makes.pure _ ⟨.nil, .refl _⟩
  | cons s ss ih =>
    unfold newFields
    refine Makes.bind (Makes.alloc _) fun a ds hd => ?_
    subst hd
    refine Makes.bind ih fun qs ds hd => ?_
    refine Makes.pure _ ⟨_, .refl _, _, .refl _, .text hd.1, ?_⟩
    rw [List.map_cons, fieldCells_text]
    exact (List.perm_append_singleton ..).trans (hd.2.cons _)

theorem newObjects_makes {P : List Cell} (vs : List (List Bytes)) : Makes P (newObjects vs) (fun qs ds => ∃ es, ds.Perm es ∧ ElemCells qs vs es) := by
  induction vs generalizing P with
  | nil => exact Makes.pure _ ⟨[], .refl _, .nil⟩
  | cons t ts ih =>
    unfold newObjects
    refine Makes.bind (newFields_makes t) fun fs ds hd => ?_
    refine Makes.bind (Makes.alloc _) fun a zs hz => ?_
    subst hz
    refine Makes.bind ih fun qs ys hy => ?_
    obtain ⟨es, hp, hes⟩ := hy
    refine Makes.pure _ ⟨_, .refl _, _, .refl _, _, .refl _, _, ?_, .cons hd.1 hes⟩
    simp only [List.nil_append, List.append_assoc]
    refine (hp.append_right _).trans ?_
    refine List.perm_append_comm.trans ?_
    show ((a, Block.obj fs) :: (ds ++ es)).Perm _
    exact (hd.2.append_right es).cons _

theorem newArrays_makes {P : List Cell} (ts : List (Option (List (List Bytes)))) :
    Makes P (newArrays ts) (fun as ds => ∃ es, ds.Perm es ∧ ArrsCells as (ts.map fun a => { stale := false, elems := a.getD [], array := a.isSome }) es) := by
  induction ts generalizing P with
  | nil => exact Makes.pure _ ⟨[], .refl _, .nil⟩
  | cons t ts ih =>
    unfold newArrays
    have h1 : Makes P (newArray t) (fun a ds => ∃ es, ds.Perm es ∧ ArrCells a { stale := false, elems := t.getD [], array := t.isSome } es) := by
      cases t with
      | none => exact Makes.pure _ ⟨_, .refl _, .null⟩
      | some vs =>
        unfold newArray
        refine Makes.bind (newObjects_makes vs) fun qs ds hd => ?_
        obtain ⟨es, hp, hes⟩ := hd
        refine Makes.bind (Makes.alloc _) fun n zs hz => ?_
        subst hz
        exact Makes.pure _ ⟨_, .refl _, _, .refl _, _, hp.cons _, .owned hes⟩
    refine Makes.bind h1 fun a ds hd => ?_
    obtain ⟨es, hp, hes⟩ := hd
    refine Makes.bind ih fun as zs hz => ?_
    obtain ⟨es', hp', hes'⟩ := hz
    refine Makes.pure _ ⟨_, .refl _, _, .refl _, _, ?_, .cons hes hes'⟩
    simp only [List.nil_append]
    exact (hp'.append hp).trans List.perm_append_comm

theorem copyArrays_makes {P : List Cell} {as ps cs} (h : ArrsCells as ps cs) (hsub : ∀ c ∈ cs, c ∈ P) :
    Makes P (copyArrays as) (fun bs ds => ArrsCells bs (ps.map copiedPart) ds) := by
  induction h generalizing P with
  | nil => exact Makes.pure _ .nil
  | @cons a as p ps cs ds hA _ ih =>
    unfold copyArrays
    have h1 : Makes P (copyIfAny a) (fun q zs => ArrCells ⟨q, a.count⟩ (copiedPart p) zs) := by
      cases hA with
      | null => exact Makes.pure _ .null
      | stale => exact Makes.pure _ .null
      | @owned n es vs cs hE =>
        cases vs with
        | nil => exact Makes.pure _ .null
        | cons v vs =>
          unfold copyIfAny
          rw [if_pos (by simp)]
          refine (copyElements_makes hE fun c hc => hsub c (List.mem_append_left _ hc)).mono fun q zs hz => ?_
          obtain ⟨n', qs, es', rfl, he, rfl⟩ := hz
          have : copiedPart ⟨false, v :: vs, true⟩ = ⟨false, v :: vs, true⟩ := by simp [copiedPart]
          rw [this]
          exact .owned he
    refine Makes.bind h1 fun q zs hz => ?_
    refine Makes.bind (ih fun c hc => List.mem_append_right _ (hsub c (List.mem_append_right _ hc))) fun bs ys hy => ?_
    exact Makes.pure _ ⟨_, .refl _, _, List.perm_append_comm, .cons hz hy⟩

theorem destroyArrays_frees {as ps cs} (h : ArrsCells as ps cs) (hs : ∀ p ∈ ps, p.stale = false) : Frees cs (destroyArrays as) := by
  induction h with
  | nil => exact Triple.pure () rfl
  | @cons a as p ps cs ds hA _ ih =>
    unfold destroyArrays
    refine Frees.then ?_ (ih fun p hp => hs p (List.mem_cons_of_mem _ hp))
    cases hA with
    | null => exact Triple.pure () rfl
    | stale => have := hs _ (List.mem_cons_self ..); cases this
    | owned hE => exact deleteElements_frees hE

theorem assignHead {O : List Cell} {a b : MailArr} {p q : Part} {c d : List Cell} (hA : ArrCells a p c) (hB : ArrCells b q d) (hsub : ∀ x ∈ d, x ∈ O)
    {β : Type} {f : Ptr → H β} {R : β → List Cell → Prop}
    (hf : ∀ ptr n M, M.length = lostPart p q → ArrCells ⟨ptr, b.count⟩ (assignedPart p q) n → Triple (n ++ (M ++ O)) (f ptr) R) :
    Triple (c ++ O) (do
      deleteIfAny a
      let ptr ← replaceIfAny a.ptr b
      f ptr) R := by
  unfold deleteIfAny replaceIfAny
  have copy : ∀ {P : List Cell}, b.count > 0 → (∀ x ∈ O, x ∈ P) → q.elems ≠ [] ∧ Makes P (copyElements b) (fun ptr ds => ArrCells ⟨ptr, b.count⟩ ⟨false, q.elems, true⟩ ds) := by
    intro P hb hO
    cases hB with
    | null => simp at hb
    | stale => simp at hb
    | @owned n es vs cs hE =>
      refine ⟨by simpa [List.length_pos_iff] using hb, ?_⟩
      refine (copyElements_makes hE fun c hc => hO c (hsub c hc)).mono fun r zs hz => ?_
      obtain ⟨n', qs, es', rfl, he, rfl⟩ := hz
      exact .owned he
  have empty : ¬ b.count > 0 → q.elems = [] ∧ b.count = 0 := by
    intro hb
    cases hB with
    | null => exact ⟨rfl, rfl⟩
    | stale => exact ⟨rfl, rfl⟩
    | owned hE => exact ⟨List.length_eq_zero_iff.mp (Nat.eq_zero_of_not_pos hb), Nat.eq_zero_of_not_pos hb⟩
  have hfresh : q.elems ≠ [] → assignedPart p q = ⟨false, q.elems, true⟩ := by
    intro h; simp [assignedPart, h]
  by_cases ha : a.count > 0
  · -- the old elements go
    rw [if_pos ha]
    have h1 : Triple (c ++ O) (deleteElements a) (fun _ X => X = O) ∧ p.elems ≠ [] ∧ a.ptr ≠ none ∧ p.array = true := by
      cases hA with
      | null => simp at ha
      | stale => simp at ha
      | owned hE => exact ⟨(deleteElements_frees hE).keep O, by simpa [List.length_pos_iff] using ha, nofun, rfl⟩
    obtain ⟨h1, hp, hptr, harr⟩ := h1
    refine Triple.bind h1 fun _ X hX => ?_
    subst hX
    by_cases hb : b.count > 0
    · rw [if_pos hb]
      obtain ⟨hq, hc⟩ := copy hb (fun _ h => h)
      refine Triple.bind hc fun ptr X hX => ?_
      obtain ⟨ds, hd, rfl⟩ := hX
      refine hf ptr ds [] (by simp [lostPart, hp]) ?_
      rw [hfresh hq]
      exact hd
    · rw [if_neg hb]
      obtain ⟨hq, hb0⟩ := empty hb
      refine Triple.bind (Q := fun ptr Y => ptr = a.ptr ∧ Y = X) (Triple.pure _ ⟨rfl, rfl⟩) fun ptr X hX => ?_
      obtain ⟨rfl, rfl⟩ := hX
      refine hf a.ptr [] [] (by simp [lostPart, hp]) ?_
      have : assignedPart p q = ⟨true, [], true⟩ := by simp [assignedPart, hq, hp, harr]
      rw [this, hb0]
      obtain ⟨n, hn⟩ := Option.ne_none_iff_exists'.mp hptr
      rw [hn]
      exact .stale
  · rw [if_neg ha]
    refine Triple.bind (Q := fun _ X => X = c ++ O) (Triple.pure _ rfl) fun _ X hX => ?_
    subst hX
    have hpe : p.elems = [] ∧ a.count = 0 := by
      cases hA with
      | null => exact ⟨rfl, rfl⟩
      | stale => exact ⟨rfl, rfl⟩
      | owned hE => exact ⟨List.length_eq_zero_iff.mp (Nat.eq_zero_of_not_pos ha), Nat.eq_zero_of_not_pos ha⟩
    by_cases hb : b.count > 0
    · rw [if_pos hb]
      obtain ⟨hq, hc⟩ := copy (P := c ++ O) hb (fun _ h => List.mem_append_right _ h)
      refine Triple.bind hc fun ptr X hX => ?_
      obtain ⟨ds, hd, rfl⟩ := hX
      have hl : c.length = lostPart p q := by
        cases hA with
        | null => simp [lostPart]
        | stale => simp [lostPart]
        | owned hE =>
          have hv := hpe.1
          simp only at hv
          subst hv
          cases hE
          simp [lostPart, hq]
      refine hf ptr ds c hl ?_
      rw [hfresh hq]
      exact hd
    · rw [if_neg hb]
      obtain ⟨hq, hb0⟩ := empty hb
      refine Triple.bind (Q := fun ptr Y => ptr = a.ptr ∧ Y = c ++ O) (Triple.pure _ ⟨rfl, rfl⟩) fun ptr X hX => ?_
      obtain ⟨rfl, rfl⟩ := hX
      refine hf a.ptr c [] (by simp [lostPart, hq]) ?_
      have : assignedPart p q = p := by
        obtain ⟨st, el, ar⟩ := p
        simp only at hpe
        simp [assignedPart, hq, hpe.1]
      rw [this, hb0, ← hpe.2]
      exact hA

theorem assignArrays_triple {O : List Cell} {as bs ps qs cs ds} (hA : ArrsCells as ps cs) (hB : ArrsCells bs qs ds) (hsub : ∀ c ∈ ds, c ∈ O)
    (hlen : ps.length = qs.length) :
    Triple (cs ++ O) (assignArrays as bs) (fun rs X => ∃ es M, M.length = (List.zipWith lostPart ps qs).sum ∧ ArrsCells rs (List.zipWith assignedPart ps qs) es ∧ X = es ++ (M ++ O)) := by
  induction hA generalizing O bs qs ds with
  | nil => unfold assignArrays; exact Triple.pure _ ⟨[], [], by simp, .nil, rfl⟩
  | @cons a as p ps c cs hA hAs ih =>
    cases hB with
    | nil => simp at hlen
    | @cons b bs q qs d ds hB hBs =>
      unfold assignArrays
      rw [List.append_assoc]
      refine assignHead hA hB (fun x hx => List.mem_append_right _ (hsub x (List.mem_append_left _ hx))) fun ptr n M hM hn => ?_
      refine Triple.perm (P := (cs ++ O) ++ (n ++ M)) ?_ ?_
      · refine ((ih hBs (fun x hx => hsub x (List.mem_append_right _ hx)) (by simpa using hlen)).frame (n ++ M)).bind fun rs X hX => ?_
        obtain ⟨Y, rfl, es, M', hM', he, rfl⟩ := hX
        refine Triple.perm (P := n ++ es ++ (M ++ M' ++ O)) (Triple.pure _ ⟨n ++ es, M ++ M', by simp [hM, hM'], .cons hn he, rfl⟩) ?_
        permute
      · permute

/-- The cells of a message. -/
structure MailCells (m : MailObj) (v : Mail) (cs : List Cell) : Prop where
  sender : Matches m.sender v.sender
  texts : Matches [m.subject, m.body] [v.subject, v.body]
  arrays : ∃ ds, ArrsCells m.arrays v.parts ds ∧ cs.Perm (fieldCells m.sender v.sender ++ (fieldCells [m.subject, m.body] [v.subject, v.body] ++ ds))
  four : v.parts.length = 4

theorem matches_pair {p q : Ptr} {s t : Option Bytes} (h : Matches [p, q] [s, t]) : Matches [p] [s] ∧ Matches [q] [t] := by
  cases h with
  | null h => exact ⟨.null .nil, h⟩
  | text h => exact ⟨.text .nil, h⟩

theorem matches_of_pair {p q : Ptr} {s t : Option Bytes} (h1 : Matches [p] [s]) (h2 : Matches [q] [t]) : Matches [p, q] [s, t] := by
  cases h1 with
  | null h => exact .null h2
  | text h => exact .text h2

theorem fieldCells_pair (p q : Ptr) (s t : Option Bytes) : fieldCells [p, q] [s, t] = fieldCells [p] [s] ++ fieldCells [q] [t] := by
  rcases p with _ | p <;> rcases s with _ | s <;> rcases q with _ | q <;> rcases t with _ | t <;> rfl

theorem deleteText_frees {p : Ptr} {s : Option Bytes} (h : Matches [p] [s]) : Frees (fieldCells [p] [s]) (deleteArray p) := by
  cases h with
  | null => exact Triple.deleteNull
  | text => exact Triple.deleteArray _ _ trivial

theorem copyText_makes {P : List Cell} {p : Ptr} {s : Option Bytes} (h : Matches [p] [s]) (hs : s ≠ none) (hsub : ∀ c ∈ fieldCells [p] [s], c ∈ P) :
    Makes P (copyText p) (fun q ds => Matches [q] [s] ∧ ds = fieldCells [q] [s]) := by
  cases h with
  | null => exact absurd rfl hs
  | @text a s =>
    refine (Triple.copyText (hsub (a, .chars s) (List.mem_singleton.mpr rfl))).post fun r X hX => ?_
    obtain ⟨n, rfl, rfl⟩ := hX
    exact ⟨_, .refl _, [(n, .chars s)], ⟨.text .nil, rfl⟩, rfl⟩

theorem newText_makes {P : List Cell} {s : Option Bytes} (hs : s ≠ none) : Makes P (newText s) (fun q ds => Matches [q] [s] ∧ ds = fieldCells [q] [s]) := by
  cases s with
  | none => exact absurd rfl hs
  | some s =>
    unfold newText
    refine Makes.bind (Makes.alloc _) fun a ds hd => ?_
    subst hd
    exact Makes.pure _ ⟨_, .refl _, .text .nil, rfl⟩

theorem construct_makes {P : List Cell} {t : MailArgs} (h1 : t.subject ≠ none) (h2 : t.body ≠ none) (h4 : t.arrays.length = 4) :
    Makes P (MailObj.construct t) (fun m ds => MailCells m (constructed t) ds) := by
  unfold MailObj.construct
  refine Makes.bind (newFields_makes _) fun fs ds hd => ?_
  refine Makes.bind (newText_makes h1) fun p ds1 hp => ?_
  refine Makes.bind (newText_makes h2) fun q ds2 hq => ?_
  refine Makes.bind (newArrays_makes _) fun as zs hz => ?_
  obtain ⟨es, hpe, he⟩ := hz
  obtain ⟨hp, rfl⟩ := hp
  obtain ⟨hq, rfl⟩ := hq
  refine Makes.pure _ ⟨_, .refl _, _, .refl _, _, .refl _, _, .refl _, hd.1, matches_of_pair hp hq, ⟨es, he, ?_⟩, by simpa [constructed] using h4⟩
  simp only [fieldCells_pair, constructed]
  refine List.Perm.trans (l₂ := es ++ fieldCells [q] [t.body] ++ fieldCells [p] [t.subject] ++ fieldCells fs (t.sender.map some)) ?_ ?_
  · simp only [List.nil_append]
    exact ((hpe.append_right _).append_right _).append hd.2
  · permute

theorem copy_makes {P : List Cell} {m : MailObj} {v : Mail} {cs : List Cell} (h : MailCells m v cs) (hI : Intact v) (hsub : ∀ c ∈ cs, c ∈ P) :
    Makes P m.copy (fun m' ds => MailCells m' { v with parts := v.parts.map copiedPart } ds) := by
  obtain ⟨ds, hA, hperm⟩ := h.arrays
  obtain ⟨hS, hB⟩ := matches_pair h.texts
  have hin : ∀ c ∈ fieldCells m.sender v.sender ++ (fieldCells [m.subject, m.body] [v.subject, v.body] ++ ds), c ∈ P :=
    fun c hc => hsub c (hperm.mem_iff.mpr hc)
  rw [fieldCells_pair] at hin
  unfold MailObj.copy
  refine Makes.bind (copyFields_makes h.sender hI.1 fun c hc => hin c (by simp [hc])) fun fs d1 hd1 => ?_
  refine Makes.bind (copyText_makes hS hI.2.1 fun c hc => List.mem_append_right _ (hin c (by simp [hc]))) fun p d2 hd2 => ?_
  refine Makes.bind (copyText_makes hB hI.2.2 fun c hc => List.mem_append_right _ (List.mem_append_right _ (hin c (by simp [hc])))) fun q d3 hd3 => ?_
  refine Makes.bind (copyArrays_makes hA fun c hc => List.mem_append_right _ (List.mem_append_right _ (List.mem_append_right _ (hin c (by simp [hc])))))
    fun as d4 hd4 => ?_
  obtain ⟨h1, rfl⟩ := hd1
  obtain ⟨h2, rfl⟩ := hd2
  obtain ⟨h3, rfl⟩ := hd3
  refine Makes.pure _ ⟨_, .refl _, _, .refl _, _, .refl _, _, .refl _, h1, matches_of_pair h2 h3, ⟨d4, hd4, ?_⟩, by simpa using h.four⟩
  simp only [fieldCells_pair]
  permute

theorem destroy_frees {m : MailObj} {v : Mail} {cs : List Cell} (h : MailCells m v cs) (hS : Sound v) : Frees cs m.destroy := by
  obtain ⟨ds, hA, hperm⟩ := h.arrays
  obtain ⟨hS1, hB⟩ := matches_pair h.texts
  unfold MailObj.destroy
  refine Triple.perm (P := fieldCells [m.subject] [v.subject] ++ (fieldCells [m.body] [v.body] ++ (ds ++ fieldCells m.sender v.sender))) ?_ ?_
  · exact Frees.then (deleteText_frees hS1) (Frees.then (deleteText_frees hB) (Frees.then (destroyArrays_frees hA hS) (deleteFields_triple h.sender)))
  · refine hperm.trans ?_
    rw [fieldCells_pair]
    permute

theorem assign_triple {O : List Cell} {m n : MailObj} {v w : Mail} {cs ds : List Cell} (hm : MailCells m v cs) (hn : MailCells n w ds) (hI : Intact w)
    (hsub : ∀ c ∈ ds, c ∈ O) :
    Triple (cs ++ O) (m.assign n) (fun r X => ∃ es M, M.length = (List.zipWith lostPart v.parts w.parts).sum ∧ MailCells r
      { sender := v.sender, subject := w.subject, body := w.body, parts := List.zipWith assignedPart v.parts w.parts } es ∧ X = es ++ (M ++ O)) := by
  obtain ⟨cs', hA, hpA⟩ := hm.arrays
  obtain ⟨ds', hB, hpB⟩ := hn.arrays
  obtain ⟨hS1, hB1⟩ := matches_pair hm.texts
  obtain ⟨hS2, hB2⟩ := matches_pair hn.texts
  have hin : ∀ c ∈ fieldCells n.sender w.sender ++ (fieldCells [n.subject, n.body] [w.subject, w.body] ++ ds'), c ∈ O :=
    fun c hc => hsub c (hpB.mem_iff.mpr hc)
  rw [fieldCells_pair] at hin hpA
  unfold MailObj.assign
  refine Triple.perm (P := fieldCells [m.subject] [v.subject] ++ (fieldCells [m.body] [v.body] ++ (cs' ++ (fieldCells m.sender v.sender ++ O)))) ?_ ?_
  · refine ((deleteText_frees hS1).keep _).bind fun _ X hX => ?_
    subst hX
    refine Triple.bind (copyText_makes hS2 hI.2.1 fun c hc => List.mem_append_right _ (List.mem_append_right _ (List.mem_append_right _ (hin c (by simp [hc])))))
      fun p X hX => ?_
    obtain ⟨_, ⟨h2, rfl⟩, rfl⟩ := hX
    refine Triple.perm (P := fieldCells [m.body] [v.body] ++ (cs' ++ (fieldCells [p] [w.subject] ++ fieldCells m.sender v.sender ++ O))) ?_ (by permute)
    refine ((deleteText_frees hB1).keep _).bind fun _ X hX => ?_
    subst hX
    refine Triple.bind (copyText_makes hB2 hI.2.2 fun c hc => List.mem_append_right _ (List.mem_append_right _ (hin c (by simp [hc])))) fun q X hX => ?_
    obtain ⟨_, ⟨h3, rfl⟩, rfl⟩ := hX
    refine Triple.perm (P := cs' ++ (fieldCells [q] [w.body] ++ fieldCells [p] [w.subject] ++ fieldCells m.sender v.sender ++ O)) ?_ (by permute)
    refine (assignArrays_triple hA hB (fun c hc => List.mem_append_right _ (hin c (by simp [hc]))) (by rw [hm.four, hn.four])).bind fun as X hX => ?_
    obtain ⟨es, M, hM, he, rfl⟩ := hX
    refine Triple.perm (P := (fieldCells m.sender v.sender ++ (fieldCells [p, q] [w.subject, w.body] ++ es)) ++ (M ++ O)) (Triple.pure _ ⟨_, M, hM, ?_, rfl⟩) ?_
    · exact ⟨hm.sender, matches_of_pair h2 h3, ⟨es, he, .refl _⟩, by simp [hm.four, hn.four]⟩
    · rw [fieldCells_pair]
      permute
  · refine (hpA.append_right O).trans ?_
    permute

theorem emptied_arrays {as ps cs} (h : ArrsCells as ps cs) :
    ArrsCells (as.map fun _ => { ptr := none, count := 0 }) (ps.map fun _ => { stale := false, elems := [], array := false }) [] := by
  induction h with
  | nil => exact .nil
  | cons _ _ ih => exact .cons .null ih

theorem matches_nulls {ps : List Ptr} {ts : List (Option Bytes)} (h : Matches ps ts) : Matches (ps.map fun _ => none) (ts.map fun _ => none) ∧
    fieldCells (ps.map fun _ => none) (ts.map fun _ => none) = [] := by
  induction h with
  | nil => exact ⟨.nil, rfl⟩
  | null _ ih => exact ⟨.null ih.1, ih.2⟩
  | text _ ih => exact ⟨.null ih.1, ih.2⟩

theorem moved_cells {m : MailObj} {v : Mail} {cs : List Cell} (h : MailCells m v cs) :
    MailCells { m.emptied with sender := m.sender.map fun _ => none } { left v with sender := v.sender.map fun _ => none } [] := by
  obtain ⟨ds, hA, _⟩ := h.arrays
  obtain ⟨h1, h2⟩ := matches_nulls h.sender
  refine ⟨h1, .null (.null .nil), ⟨[], emptied_arrays hA, ?_⟩, by simpa [left] using h.four⟩
  simp only [h2]
  exact .refl _

theorem moveAssign_triple {O : List Cell} {m n : MailObj} {v w : Mail} {cs ds : List Cell} (hm : MailCells m v cs) (hn : MailCells n w ds)
    (hS : Sound v) (hw : none ∉ w.sender) :
    Triple (cs ++ (ds ++ O)) (m.moveAssign n) (fun r X => ∃ es fs, MailCells r.1 w es ∧ MailCells r.2 (left w) fs ∧ X = es ++ (fs ++ O)) := by
  obtain ⟨cs', hA, hpA⟩ := hm.arrays
  obtain ⟨ds', hB, hpB⟩ := hn.arrays
  obtain ⟨hS1, hB1⟩ := matches_pair hm.texts
  rw [fieldCells_pair] at hpA
  unfold MailObj.moveAssign
  refine Triple.perm (P := fieldCells [m.subject] [v.subject] ++ (fieldCells [m.body] [v.body] ++ (cs' ++ (fieldCells m.sender v.sender ++ (ds ++ O))))) ?_ ?_
  · refine ((deleteText_frees hS1).keep _).bind fun _ X hX => ?_
    subst hX
    refine ((deleteText_frees hB1).keep _).bind fun _ X hX => ?_
    subst hX
    refine ((destroyArrays_frees hA hS).keep _).bind fun _ X hX => ?_
    subst hX
    refine (Frees.keep (deleteFields_triple hm.sender) _).bind fun _ X hX => ?_
    subst hX
    refine Triple.bind (copyFields_makes hn.sender hw fun c hc => List.mem_append_left _ (hpB.mem_iff.mpr (List.mem_append_left _ hc))) fun fs X hX => ?_
    obtain ⟨_, ⟨h1, rfl⟩, rfl⟩ := hX
    refine Triple.perm (P := (fieldCells fs w.sender ++ (fieldCells [n.subject, n.body] [w.subject, w.body] ++ ds')) ++ (fieldCells n.sender w.sender ++ O))
      (Triple.pure _ ⟨_, _, ⟨h1, hn.texts, ⟨ds', hB, .refl _⟩, hn.four⟩, ⟨hn.sender, .null (.null .nil), ⟨[], emptied_arrays hB, ?_⟩, by simpa [left] using hn.four⟩, rfl⟩) ?_
    · show (fieldCells n.sender w.sender).Perm (fieldCells n.sender w.sender ++ [])
      rw [List.append_nil]
    · refine ((hpB.append_right O).append_left _).trans ?_
      permute
  · refine (hpA.append_right _).trans ?_
    permute

/-! ### All messages -/

/-- The cells of a named message. -/
inductive MailAt : Option MailObj → Option Mail → List Cell → Prop
  | none : MailAt none none []
  | some {m v cs} : MailCells m v cs → MailAt (some m) (some v) cs

/-- Another list of cells for one name. -/
def updCells (cs : Nat → List Cell) (x : Nat) (d : List Cell) : Nat → List Cell := fun y => if y = x then d else cs y

/-- The cells of all names but one. -/
def restCells (names : List Nat) (cs : Nat → List Cell) (x : Nat) : List Cell := (names.filter (· ≠ x)).flatMap cs

theorem flat_focus {names : List Nat} (hn : names.Nodup) {x : Nat} (hx : x ∈ names) (cs : Nat → List Cell) :
    (names.flatMap cs).Perm (cs x ++ restCells names cs x) := by
  induction names with
  | nil => cases hx
  | cons y ys ih =>
    rw [List.nodup_cons] at hn
    unfold restCells
    by_cases hxy : y = x
    · subst hxy
      have : (y :: ys).filter (· ≠ y) = ys := by
        rw [List.filter_cons_of_neg (by simp)]
        exact List.filter_eq_self.mpr fun a ha => by
          simp only [ne_eq, decide_not, Bool.not_eq_eq_eq_not, Bool.not_true, decide_eq_false_iff_not]
          rintro rfl; exact hn.1 ha
      rw [this]
      exact .refl _
    · have hx' : x ∈ ys := by
        rcases List.mem_cons.mp hx with e | e
        · exact absurd e.symm hxy
        · exact e
      rw [List.filter_cons_of_pos (by simpa using hxy), List.flatMap_cons, List.flatMap_cons]
      have := ih hn.2 hx'
      unfold restCells at this
      refine (this.append_left _).trans ?_
      permute

theorem flat_update {names : List Nat} (hn : names.Nodup) {x : Nat} (hx : x ∈ names) (cs : Nat → List Cell) (d : List Cell) :
    (names.flatMap (updCells cs x d)).Perm (d ++ restCells names cs x) := by
  refine (flat_focus hn hx _).trans ?_
  have h1 : updCells cs x d x = d := by simp [updCells]
  have h2 : restCells names (updCells cs x d) x = restCells names cs x := by
    unfold restCells
    rw [List.flatMap_def, List.flatMap_def]
    congr 1
    refine List.map_congr_left fun y hy => ?_
    have : y ≠ x := by simpa using (List.mem_filter.mp hy).2
    simp [updCells, this]
  rw [h1, h2]

variable {o : Mails} {s : MailValues} {cs : Nat → List Cell} {names : List Nat} {x y : Nat}

theorem mailAt_update (h : ∀ x, MailAt (o x) (s x) (cs x)) {a b d} (hx : MailAt a b d) :
    ∀ y, MailAt (setMail o x a y) (bindMail s x b y) (updCells cs x d y) := by
  intro y
  unfold setMail bindMail updCells
  split
  · exact hx
  · exact h y

theorem setMail_names (hnames : ∀ x, o x ≠ none → x ∈ names) (hx : x ∈ names) (v : Option MailObj) : ∀ y, setMail o x v y ≠ none → y ∈ names := by
  intro y hy
  by_cases h : y = x
  · exact h ▸ hx
  · exact hnames y (by simpa [setMail, h] using hy)

/-- Where a step must end. -/
def Got (names : List Nat) (s' : MailValues) (k : Nat) (o' : Mails) (X : List Cell) : Prop :=
  ∃ cs' M, M.length = k ∧ (∀ x, MailAt (o' x) (s' x) (cs' x)) ∧ (∀ x, o' x ≠ none → x ∈ names) ∧ X = names.flatMap cs' ++ M

theorem MailAt.object {w : Mail} {ds : List Cell} {v : Option MailObj} (h : MailAt v (.some w) ds) : ∃ m, v = .some m ∧ MailCells m w ds := by
  cases h with
  | some h => exact ⟨_, rfl, h⟩

theorem MailAt.absent {ds : List Cell} {v : Option MailObj} (h : MailAt v .none ds) : v = .none ∧ ds = [] := by
  cases h with
  | none => exact ⟨rfl, rfl⟩

/-- One object replaced, everything else kept. -/
theorem got_one (hat : ∀ x, MailAt (o x) (s x) (cs x)) (hn : names.Nodup) (hnames : ∀ x, o x ≠ none → x ∈ names) (hx : x ∈ names)
    {a b d} (h : MailAt a b d) (M : List Cell) :
    ∃ Y, (d ++ (M ++ restCells names cs x)).Perm Y ∧ Got names (bindMail s x b) M.length (setMail o x a) Y := by
  refine ⟨_, ?_, updCells cs x d, M, rfl, mailAt_update hat h, setMail_names hnames hx _, rfl⟩
  refine List.Perm.trans ?_ ((flat_update hn hx cs d).symm.append_right M)
  permute

theorem mstep_triple {s' : MailValues} (hat : ∀ x, MailAt (o x) (s x) (cs x)) (hn : names.Nodup) (hnames : ∀ x, o x ≠ none → x ∈ names) (op : MOp)
    (htarget : ∀ x, (∃ y, op = .copy x y ∨ op = .move x y) ∨ (∃ t, op = .construct x t) → x ∈ names)
    (h : mailStep s op = some s') : Triple (names.flatMap cs) (mstep o op) (Got names s' (lostIn s op)) := by
  have inNames : ∀ {x m}, o x = some m → x ∈ names := fun h => hnames _ (by rw [h]; nofun)
  have seen : ∀ {x m c}, o x = some m → c ∈ cs x → c ∈ names.flatMap cs := fun h hc => List.mem_flatMap.mpr ⟨_, inNames h, hc⟩
  cases op with
  | construct x t =>
    simp only [mailStep] at h
    split at h
    case isFalse => cases h
    rename_i hc
    cases h
    have hx := htarget x (.inr ⟨_, rfl⟩)
    have hax := hat x
    rw [hc.1] at hax
    refine Triple.bind (construct_makes hc.2.1 hc.2.2.1 hc.2.2.2) fun m X hX => ?_
    obtain ⟨ds, hm, rfl⟩ := hX
    obtain ⟨Y, hp, hG⟩ := got_one hat hn hnames hx (.some hm) []
    refine Triple.perm (Triple.pure _ hG) (List.Perm.trans ?_ hp)
    refine ((flat_focus hn hx cs).append_left _).trans ?_
    rw [hax.absent.2]
  | copy x y =>
    simp only [mailStep] at h
    split at h
    case h_2 => cases h
    rename_i w hw
    split at h
    case isFalse => cases h
    rename_i hc
    cases h
    have hx := htarget x (.inl ⟨y, .inl rfl⟩)
    have hax := hat x
    rw [hc.1] at hax
    have hay := hat y
    rw [hw] at hay
    obtain ⟨m, hm, hmc⟩ := hay.object
    simp only [mstep, hm]
    refine Triple.bind (copy_makes hmc hc.2 fun c hc => seen hm hc) fun m' X hX => ?_
    obtain ⟨ds, hm', rfl⟩ := hX
    obtain ⟨Y, hp, hG⟩ := got_one hat hn hnames hx (.some hm') []
    refine Triple.perm (Triple.pure _ hG) (List.Perm.trans ?_ hp)
    refine ((flat_focus hn hx cs).append_left _).trans ?_
    rw [hax.absent.2]
  | assign x y =>
    simp only [mailStep] at h
    split at h
    case h_2 => cases h
    rename_i v w hv hw
    have hax := hat x
    rw [hv] at hax
    have hay := hat y
    rw [hw] at hay
    obtain ⟨m, hm, hmc⟩ := hax.object
    obtain ⟨n, hn', hnc⟩ := hay.object
    have hx := inNames hm
    simp only [mstep, hm, hn']
    by_cases hxy : x = y
    · rw [if_pos hxy] at h
      cases h
      rw [if_pos hxy]
      exact Triple.pure _ ⟨cs, [], by simp [lostIn, hv, hw, hxy], hat, hnames, by simp⟩
    · rw [if_neg hxy] at h
      rw [if_neg hxy]
      split at h
      case isFalse => cases h
      rename_i hI
      cases h
      refine Triple.perm (P := cs x ++ restCells names cs x) ?_ (flat_focus hn hx cs)
      refine Triple.bind (assign_triple hmc hnc hI fun c hc => ?_) fun r X hX => ?_
      · exact List.mem_flatMap.mpr ⟨y, List.mem_filter.mpr ⟨inNames hn', by simpa using Ne.symm hxy⟩, hc⟩
      · obtain ⟨es, M, hM, hr, rfl⟩ := hX
        obtain ⟨Y, hp, hG⟩ := got_one hat hn hnames hx (.some hr) M
        rw [show M.length = lostIn s (.assign x y) by simp [lostIn, hv, hw, hxy, hM]] at hG
        exact Triple.perm (Triple.pure _ hG) hp
  | move x y =>
    simp only [mailStep] at h
    split at h
    case h_2 => cases h
    rename_i w hw
    split at h
    case isFalse => cases h
    rename_i hc
    cases h
    have hx := htarget x (.inl ⟨y, .inr rfl⟩)
    have hax := hat x
    rw [hc] at hax
    have hay := hat y
    rw [hw] at hay
    obtain ⟨m, hm, hmc⟩ := hay.object
    have hxy : x ≠ y := by rintro rfl; rw [hc] at hw; cases hw
    simp only [mstep, hm]
    refine Triple.bind (Q := fun r X => r = (m, { m.emptied with sender := m.sender.map fun _ => none }) ∧ X = names.flatMap cs)
      (Triple.pure _ ⟨rfl, rfl⟩) fun r X hX => ?_
    obtain ⟨rfl, rfl⟩ := hX
    refine Triple.perm (Triple.pure _ ⟨updCells (updCells cs y []) x (cs y), [], rfl, mailAt_update (mailAt_update hat (.some (moved_cells hmc))) (.some hmc),
      setMail_names (setMail_names hnames (inNames hm) _) hx _, rfl⟩) ?_
    rw [List.append_nil]
    refine List.Perm.trans ?_ (flat_update hn hx _ _).symm
    have h1 := flat_focus hn hx (updCells cs y [])
    have h2 : updCells cs y [] x = [] := by simp [updCells, hax.absent.2]
    rw [h2, List.nil_append] at h1
    have h3 := flat_update hn (inNames hm) cs []
    exact (flat_focus hn (inNames hm) cs).trans ((h3.symm.trans h1).append_left _)
  | moveAssign x y =>
    simp only [mailStep] at h
    split at h
    case h_2 => cases h
    rename_i v w hv hw
    have hax := hat x
    rw [hv] at hax
    have hay := hat y
    rw [hw] at hay
    obtain ⟨m, hm, hmc⟩ := hax.object
    obtain ⟨n, hn', hnc⟩ := hay.object
    have hx := inNames hm
    have hy := inNames hn'
    simp only [mstep, hm, hn']
    by_cases hxy : x = y
    · rw [if_pos hxy] at h
      cases h
      rw [if_pos hxy]
      exact Triple.pure _ ⟨cs, [], by simp [lostIn, hv, hw, hxy], hat, hnames, by simp⟩
    · rw [if_neg hxy] at h
      rw [if_neg hxy]
      split at h
      case isFalse => cases h
      rename_i hI
      cases h
      have hn2 : (names.filter (· ≠ x)).Nodup := hn.filter _
      have hy2 : y ∈ names.filter (· ≠ x) := List.mem_filter.mpr ⟨hy, by simpa using Ne.symm hxy⟩
      refine Triple.perm (P := cs x ++ (cs y ++ restCells (names.filter (· ≠ x)) cs y)) ?_
        ((flat_focus hn hx cs).trans ((flat_focus hn2 hy2 cs).append_left _))
      refine (moveAssign_triple hmc hnc hI.1 hI.2).bind fun r X hX => ?_
      obtain ⟨es, fs, h1, h2, rfl⟩ := hX
      refine Triple.perm (Triple.pure _ ⟨updCells (updCells cs y fs) x es, [], rfl, mailAt_update (mailAt_update hat (.some h2)) (.some h1),
        setMail_names (setMail_names hnames hy _) hx _, rfl⟩) ?_
      rw [List.append_nil]
      refine List.Perm.trans ?_ (flat_update hn hx _ _).symm
      exact ((flat_update hn2 hy2 cs fs).symm).append_left _
  | destroy x =>
    simp only [mailStep] at h
    split at h
    case h_2 => cases h
    rename_i v hv
    split at h
    case isFalse => cases h
    rename_i hS
    cases h
    have hax := hat x
    rw [hv] at hax
    obtain ⟨m, hm, hmc⟩ := hax.object
    have hx := inNames hm
    simp only [mstep, hm]
    refine Triple.perm (P := cs x ++ restCells names cs x) ?_ (flat_focus hn hx cs)
    refine ((destroy_frees hmc hS).keep _).bind fun _ X hX => ?_
    subst hX
    obtain ⟨Y, hp, hG⟩ := got_one (x := x) hat hn hnames hx .none []
    exact Triple.perm (Triple.pure _ hG) hp

/-- Messages show values, and the heap consists of exactly their cells and this many leaked ones. -/
def MRel (o : Mails) (s : MailValues) (h : Heap) (k : Nat) : Prop :=
  ∃ (cs : Nat → List Cell) (names : List Nat) (leaked : List Cell), leaked.length = k ∧ (∀ x, MailAt (o x) (s x) (cs x)) ∧ names.Nodup ∧
    (∀ x, o x ≠ none → x ∈ names) ∧ Exact h (names.flatMap cs ++ leaked)

theorem mstep_refines {h : Heap} {k : Nat} {s' : MailValues} (hR : MRel o s h k) (op : MOp) (hs : mailStep s op = some s') :
    ∃ o' h', mstep o op h = .ok (o', h') ∧ MRel o' s' h' (lostIn s op + k) := by
  have key : ∃ x, ∀ z, (∃ y, op = .copy z y ∨ op = .move z y) ∨ (∃ t, op = .construct z t) → z = x := by
    cases op with
    | construct x t => exact ⟨x, by rintro z (⟨y, h | h⟩ | ⟨_, h⟩) <;> cases h; rfl⟩
    | copy x y => exact ⟨x, by rintro z (⟨y, h | h⟩ | ⟨_, h⟩) <;> cases h; rfl⟩
    | move x y => exact ⟨x, by rintro z (⟨y, h | h⟩ | ⟨_, h⟩) <;> cases h; rfl⟩
    | _ => exact ⟨0, by rintro z (⟨y, h | h⟩ | ⟨_, h⟩) <;> cases h⟩
  obtain ⟨x, hx⟩ := key
  obtain ⟨cs, names, leaked, hk, hat, hn, hnames, hE⟩ := hR
  have : ∃ names : List Nat, names.Nodup ∧ x ∈ names ∧ (∀ x, o x ≠ none → x ∈ names) ∧ Exact h (names.flatMap cs ++ leaked) := by
    by_cases hx : x ∈ names
    · exact ⟨names, hn, hx, hnames, hE⟩
    · refine ⟨x :: names, List.nodup_cons.mpr ⟨hx, hn⟩, List.mem_cons_self .., fun y hy => List.mem_cons_of_mem _ (hnames y hy), ?_⟩
      have ho : o x = none := Classical.byContradiction fun h => hx (hnames x h)
      have hax := hat x
      rw [ho] at hax
      have : cs x = [] := by
        revert hax
        generalize s x = sx
        generalize cs x = cx
        intro hax
        cases hax
        rfl
      rw [List.flatMap_cons, this]
      exact hE
  obtain ⟨names, hn, hxn, hnames, hE⟩ := this
  obtain ⟨o', h', X, e, ⟨cs', M, hM, h1, h2, rfl⟩, hE'⟩ := mstep_triple hat hn hnames op (fun z hz => hx z hz ▸ hxn) hs h leaked hE
  exact ⟨o', h', e, cs', names, M ++ leaked, by rw [List.length_append, hM, hk], h1, hn, h2, by rwa [List.append_assoc] at hE'⟩

theorem mrun_refines {h : Heap} {k : Nat} {s' : MailValues} (hR : MRel o s h k) (ops : List MOp) (hs : mailRun s ops = some s') :
    ∃ o' h', mrun o ops h = .ok (o', h') ∧ MRel o' s' h' (lostArrays s ops + k) := by
  induction ops generalizing o s h k with
  | nil =>
    cases hs
    exact ⟨o, h, rfl, by rw [lostArrays, Nat.zero_add]; exact hR⟩
  | cons p ps ih =>
    simp only [mailRun, Option.bind_eq_some_iff] at hs
    obtain ⟨s1, h1, h2⟩ := hs
    obtain ⟨o1, g1, e1, hR1⟩ := mstep_refines hR p h1
    obtain ⟨o2, g2, e2, hR2⟩ := ih hR1 h2
    refine ⟨o2, g2, ?_, by
      simp only [lostArrays, h1]
      rw [show lostIn s p + lostArrays s1 ps + k = lostArrays s1 ps + (lostIn s p + k) by omega]
      exact hR2⟩
    rw [mrun, bind_ok e1]
    exact e2

theorem MRel.empty : MRel (fun _ => none) (fun _ => none) Heap.empty 0 :=
  ⟨fun _ => [], [], [], rfl, fun _ => .none, List.nodup_nil, fun _ h => absurd rfl h, ⟨List.nodup_nil, fun _ _ => ⟨nofun, nofun⟩, nofun⟩⟩

end Verif.Proofs
