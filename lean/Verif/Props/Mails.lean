import Verif.Proofs.Mails
import Verif.Props.Objects
/-!
# C19, C20, C74: messages as objects

Every program that constructs, copies, assigns, moves and destroys messages, on the heap.
-/
namespace Verif.Props
open Verif Verif.Model Verif.Spec Verif.Proofs

/-- The texts of an address or attachment on the heap. -/
def objectAt (h : Heap) : Ptr → List (Option Bytes)
  | none => []
  | some a => match h.mem a with
    | some (.obj fs) => fs.map (textAt h)
    | _ => []

/-- The elements that the getters of an array give access to. -/
def elementsAt (h : Heap) (a : MailArr) : List (List (Option Bytes)) :=
  match a.ptr with
  | none => []
  | some p => if a.count = 0 then [] else match h.mem p with
    | some (.arr es) => (es.take a.count).map (objectAt h)
    | _ => []

/-- What the getters of a message show. -/
structure Face where
  sender : List (Option Bytes)
  subject : Option Bytes
  body : Option Bytes
  counts : List Nat
  elems : List (List (List (Option Bytes)))
  deriving DecidableEq, Repr

/-- What the getters of a message show. -/
def face (h : Heap) (m : MailObj) : Face :=
  { sender := m.sender.map (textAt h), subject := textAt h m.subject, body := textAt h m.body, counts := m.arrays.map (·.count),
    elems := m.arrays.map (elementsAt h) }

/-- The face of a message that is a plain value. -/
def mailFace (v : Mail) : Face :=
  { sender := v.sender, subject := v.subject, body := v.body, counts := v.parts.map (·.elems.length),
    elems := v.parts.map fun p => p.elems.map (·.map some) }

theorem elemCells_face {h : Heap} {L : List Cell} (hE : Exact h L) {es vs cs} (hC : ElemCells es vs cs) (hsub : ∀ c ∈ cs, c ∈ L) :
    es.map (objectAt h) = vs.map (·.map some) := by
  induction hC with
  | nil => rfl
  | @cons e fs es ts vs cs hM _ ih =>
    rw [List.map_cons, List.map_cons, ih fun c hc => hsub c (by simp [hc])]
    have hm := (hE.mem e (.obj fs)).mpr (hsub _ (List.mem_cons_self ..))
    simp only [objectAt, hm]
    rw [matches_texts hM hE fun c hc => hsub c (by simp [hc])]

theorem arrsCells_face {h : Heap} {L : List Cell} (hE : Exact h L) {as ps cs} (hC : ArrsCells as ps cs) (hsub : ∀ c ∈ cs, c ∈ L) :
    as.map (·.count) = ps.map (·.elems.length) ∧ as.map (elementsAt h) = ps.map fun p => p.elems.map (·.map some) := by
  induction hC with
  | nil => exact ⟨rfl, rfl⟩
  | @cons a as p ps cs ds hA _ ih =>
    obtain ⟨h1, h2⟩ := ih fun c hc => hsub c (List.mem_append_right _ hc)
    simp only [List.map_cons, h1, h2, List.cons.injEq, and_true]
    cases hA with
    | null => exact ⟨rfl, rfl⟩
    | stale => exact ⟨rfl, rfl⟩
    | @owned n es vs cs hC =>
      refine ⟨rfl, ?_⟩
      have hm := (hE.mem n (.arr es)).mpr (hsub _ (by simp))
      simp only [elementsAt, hm]
      rw [← hC.length, List.take_length, elemCells_face hE hC fun c hc => hsub c (by simp [hc])]
      split
      · rename_i h0
        rw [hC.length] at h0
        rw [List.length_eq_zero_iff.mp h0]
        rfl
      · rfl

theorem mrel_face {o : Mails} {s : MailValues} {h : Heap} {k : Nat} (hR : MRel o s h k) {x : Nat} {v : Mail} (hv : s x = some v) :
    ∃ m, o x = some m ∧ face h m = mailFace v := by
  obtain ⟨cs, names, leaked, _, hat, _, hnames, hE⟩ := hR
  have hx := hat x
  rw [hv] at hx
  obtain ⟨m, hm, hc⟩ := hx.object
  refine ⟨m, hm, ?_⟩
  obtain ⟨ds, hA, hp⟩ := hc.arrays
  have hin : ∀ c ∈ fieldCells m.sender v.sender ++ (fieldCells [m.subject, m.body] [v.subject, v.body] ++ ds), c ∈ names.flatMap cs ++ leaked := by
    intro c hc
    exact List.mem_append_left _ (List.mem_flatMap.mpr ⟨x, hnames x (by rw [hm]; nofun), hp.mem_iff.mpr hc⟩)
  have h1 := matches_texts hc.sender hE fun c hc => hin c (by simp [hc])
  have h2 := matches_texts hc.texts hE fun c hc => hin c (by simp [hc])
  have h3 := arrsCells_face hE hA fun c hc => hin c (by simp [hc])
  simp only [List.map_cons, List.map_nil, List.cons.injEq, and_true] at h2
  simp only [face, mailFace, h1, h2.1, h2.2, h3.1, h3.2]

/-- No messages. -/
def noMails : Mails := fun _ => none

/-- No messages. -/
def noMailValues : MailValues := fun _ => none

/-- **C20** (partial). A program on messages that follows the rules (`mailRun`) frees nothing twice, reads nothing dead and deletes nothing with the
wrong `delete`, and every message shows what the same program on plain values gives. The rules are those of any C++ program with moved-from objects,
and three that the full claim does not have: subject and body are not null (`C20_null_subject`); a message with a stale list, that is one assigned from a
message without elements in a list in which it had some, is neither destroyed nor move-assigned to (`C20_stale_list`); and a message whose sender was
moved away is not move-assigned from. Assigning such a message again, copying it and moving it are allowed. -/
theorem C20_histories_partial (ops : List MOp) (s : MailValues) (hrun : mailRun noMailValues ops = some s) :
    ∃ o h, mrun noMails ops Heap.empty = .ok (o, h) ∧ ∀ x v, s x = some v → ∃ m, o x = some m ∧ face h m = mailFace v := by
  obtain ⟨o, h, e, hR⟩ := mrun_refines MRel.empty ops hrun
  exact ⟨o, h, e, fun x v hv => mrel_face hR hv⟩

theorem mailRun_append (s : MailValues) (ops more : List MOp) : mailRun s (ops ++ more) = (mailRun s ops).bind fun s' => mailRun s' more := by
  induction ops generalizing s with
  | nil => rfl
  | cons p ps ih =>
    simp only [List.cons_append, mailRun]
    cases mailStep s p with
    | none => rfl
    | some s1 => exact ih s1

theorem zipWith_assigned (ps qs : List Part) (h : ps.length = qs.length) : (List.zipWith assignedPart ps qs).map (·.elems) = qs.map (·.elems) := by
  induction ps generalizing qs with
  | nil => cases qs <;> simp_all
  | cons p ps ih =>
    cases qs with
    | nil => simp at h
    | cons q qs =>
      simp only [List.zipWith_cons_cons, List.map_cons, List.cons.injEq]
      exact ⟨rfl, ih qs (by simpa using h)⟩

/-- **C19** (partial). After `a = b` the target shows the recipients, subject, body and attachments of the source, at whatever point of whatever
program. Missing, because false (`C19_sender_kept`): the sender; the target keeps its own. -/
theorem C19_assignment_partial (ops : List MOp) (x y : Nat) (s : MailValues) (hrun : mailRun noMailValues (ops ++ [.assign x y]) = some s) :
    ∃ o h o' h' m n m', mrun noMails ops Heap.empty = .ok (o, h) ∧ o x = some m ∧ o y = some n ∧
      mrun noMails (ops ++ [.assign x y]) Heap.empty = .ok (o', h') ∧ o' x = some m' ∧
      face h' m' = { face h n with sender := (face h m).sender } := by
  have hfull := hrun
  rw [mailRun_append, Option.bind_eq_some_iff] at hrun
  obtain ⟨s1, h1, h2⟩ := hrun
  obtain ⟨o, h, e1, hR⟩ := mrun_refines MRel.empty ops h1
  obtain ⟨o', h', e2, hR'⟩ := mrun_refines MRel.empty _ hfull
  simp only [mailRun, mailStep, Option.bind_eq_some_iff] at h2
  obtain ⟨s2, h2, hs⟩ := h2
  cases hs
  split at h2
  case h_2 => cases h2
  rename_i v w hv hw
  obtain ⟨m, hm, fm⟩ := mrel_face hR hv
  obtain ⟨n, hn, fn⟩ := mrel_face hR hw
  have four : ∀ {z u}, s1 z = some u → u.parts.length = 4 := by
    intro z u hz
    obtain ⟨cs, _, _, _, hat, _⟩ := hR
    have := hat z
    rw [hz] at this
    obtain ⟨_, _, hc⟩ := this.object
    exact hc.four
  by_cases hxy : x = y
  · rw [if_pos hxy] at h2
    cases h2
    obtain ⟨m', hm', fm'⟩ := mrel_face hR' hv
    refine ⟨o, h, o', h', m, n, m', e1, hm, hn, e2, hm', ?_⟩
    rw [fm', fn, fm]
    subst hxy
    rw [hv] at hw
    cases hw
    rfl
  · rw [if_neg hxy] at h2
    split at h2
    case isFalse => cases h2
    cases h2
    obtain ⟨m', hm', fm'⟩ := mrel_face hR' (show bindMail s1 x _ x = some _ by simp [bindMail]; rfl)
    refine ⟨o, h, o', h', m, n, m', e1, hm, hn, e2, hm', ?_⟩
    have hz := zipWith_assigned v.parts w.parts (by rw [four hv, four hw])
    have hz1 : (List.zipWith assignedPart v.parts w.parts).map (·.elems.length) = w.parts.map (·.elems.length) := by
      have := congrArg (List.map List.length) hz
      rwa [List.map_map, List.map_map] at this
    have hz2 : (List.zipWith assignedPart v.parts w.parts).map (fun p => p.elems.map (·.map some)) = w.parts.map fun p => p.elems.map (·.map some) := by
      have := congrArg (List.map (fun e : List (List Bytes) => e.map (·.map some))) hz
      rwa [List.map_map, List.map_map] at this
    rw [fm', fn, fm]
    simp only [mailFace, hz1, hz2]

/-- Arguments: a message with these recipients. -/
def letter (sender subject : Bytes) (to cc : List (List Bytes)) : MailArgs :=
  { sender := [sender, []], subject := some subject, body := some (b!"text"), arrays := [some to, some cc, none, some [[b!"f.txt", b!"f", []]]] }

/-- Two messages, copied, assigned both ways, moved and destroyed. -/
def mailStory : List MOp :=
  [.construct 0 (letter (b!"a@a.com") (b!"one") [[b!"x@x.com", []], [b!"y@y.com", b!"Y"]] [[b!"z@z.com", []]]),
   .construct 1 (letter (b!"b@b.com") (b!"two") [[b!"u@u.com", []]] []),
   .copy 2 0,
   .assign 2 1,
   .assign 2 0,
   .move 3 1,
   .moveAssign 3 0,
   .destroy 1,
   .destroy 0,
   .destroy 2]

example : ∃ s, mailRun noMailValues mailStory = some s ∧ (s 3).map mailFace =
    some { sender := [some (b!"a@a.com"), some []], subject := some (b!"one"), body := some (b!"text"), counts := [2, 1, 0, 1],
           elems := [[[some (b!"x@x.com"), some []], [some (b!"y@y.com"), some (b!"Y")]], [[some (b!"z@z.com"), some []]], [],
             [[some (b!"f.txt"), some (b!"f"), some []]]] } :=
  ⟨_, rfl, by decide +kernel⟩

example : ∃ s, mailRun noMailValues (mailStory.take 3 ++ [.assign 2 1]) = some s := ⟨_, rfl⟩

/-- Two messages, one assigned to the other. -/
def assignStory : List MOp :=
  [.construct 0 (letter (b!"a@a.com") (b!"one") [[b!"x@x.com", []]] []), .construct 1 (letter (b!"b@b.com") (b!"two") [[b!"y@y.com", []]] []),
   .assign 0 1]

/-- **C19**, refuted: after `a = b` the sender of `a` is still its old one. -/
theorem C19_sender_kept :
    (match mrun noMails assignStory Heap.empty with
      | .ok (o, h) => some (((o 0).map (face h)).map (·.sender), ((o 1).map (face h)).map (·.sender))
      | .error _ => none) = some (some [some (b!"a@a.com"), some []], some [some (b!"b@b.com"), some []]) := by
  decide +kernel

/-- A message with a carbon copy is assigned from one without, and destroyed. -/
def staleStory : List MOp :=
  [.construct 0 (letter (b!"a@a.com") (b!"one") [[b!"x@x.com", []]] [[b!"z@z.com", []]]),
   .construct 1 (letter (b!"b@b.com") (b!"two") [[b!"y@y.com", []]] []),
   .assign 0 1,
   .destroy 0]

/-- **C20**, refuted: the array that the assignment has deleted is deleted again. -/
theorem C20_stale_list : (match mrun noMails staleStory Heap.empty with | .ok _ => none | .error e => some e) = some .doubleFree := by
  decide +kernel

/-- A message without a subject. -/
def nullStory : List MOp :=
  [.construct 0 { letter (b!"a@a.com") (b!"one") [[b!"x@x.com", []]] [] with subject := none }, .destroy 0]

/-- **C20**, beyond the claim: a null subject is allocated with `new char` and freed with `delete[]`. -/
theorem C20_null_subject : (match mrun noMails nullStory Heap.empty with | .ok _ => none | .error e => some e) = some .mismatch := by
  decide +kernel

/-! ### C74: memory is given back -/

/-- **C74**, exactly. When a program that follows the rules has destroyed all its messages, the blocks left are as many as lists without elements were
overwritten by an assignment (`lostArrays`), and no others. -/
theorem C74_exact (ops : List MOp) (s : MailValues) (hrun : mailRun noMailValues ops = some s) (hend : ∀ x, s x = none) :
    ∃ o h, ∃ left : List Nat, mrun noMails ops Heap.empty = .ok (o, h) ∧ left.Nodup ∧ left.length = lostArrays noMailValues ops ∧
      ∀ a, h.mem a ≠ none ↔ a ∈ left := by
  obtain ⟨o, h, e, cs, names, leaked, hk, hat, _, _, hE⟩ := mrun_refines MRel.empty ops hrun
  have hz : names.flatMap cs = [] := by
    rw [List.flatMap_eq_nil_iff]
    intro x _
    have := hat x
    rw [hend x] at this
    exact this.absent.2
  rw [hz, List.nil_append] at hE
  refine ⟨o, h, leaked.map (·.1), e, hE.nodup, by rw [List.length_map, hk]; rfl, fun a => ?_⟩
  constructor
  · intro ha
    obtain ⟨b, hb⟩ := Option.ne_none_iff_exists'.mp ha
    exact List.mem_map.mpr ⟨(a, b), (hE.mem a b).mp hb, rfl⟩
  · intro ha
    obtain ⟨⟨a', b⟩, hm, rfl⟩ := List.mem_map.mp ha
    rw [(hE.mem a' b).mpr hm]
    nofun

/-- No message has an array without elements. -/
def NoEmptyArray (s : MailValues) : Prop := ∀ x v, s x = some v → ∀ p ∈ v.parts, p.array → p.stale = false → p.elems ≠ []

theorem noEmptyArray_bind {s : MailValues} (h : NoEmptyArray s) {x : Nat} {v : Option Mail}
    (hv : ∀ w, v = some w → ∀ p ∈ w.parts, p.array → p.stale = false → p.elems ≠ []) : NoEmptyArray (bindMail s x v) := by
  intro y w hy
  unfold bindMail at hy
  split at hy
  · exact hv w hy
  · exact h y w hy

theorem mem_zipWith {α β γ : Type} {f : α → β → γ} {as : List α} {bs : List β} {c : γ} (h : c ∈ List.zipWith f as bs) :
    ∃ a ∈ as, ∃ b ∈ bs, c = f a b := by
  induction as generalizing bs with
  | nil => simp at h
  | cons a as ih =>
    cases bs with
    | nil => simp at h
    | cons b bs =>
      rw [List.zipWith_cons_cons, List.mem_cons] at h
      rcases h with rfl | h
      · exact ⟨a, by simp, b, by simp, rfl⟩
      · obtain ⟨a', ha, b', hb, e⟩ := ih h
        exact ⟨a', by simp [ha], b', by simp [hb], e⟩

theorem left_noArray (w : Mail) : ∀ p ∈ (left w).parts, p.array → p.stale = false → p.elems ≠ [] := by
  intro p hp ha
  obtain ⟨_, _, rfl⟩ := List.mem_map.mp hp
  cases ha

theorem noEmptyArray_step {s s' : MailValues} (h : NoEmptyArray s) (op : MOp) (hop : ∀ x t, op = .construct x t → some [] ∉ t.arrays)
    (hs : mailStep s op = some s') : NoEmptyArray s' ∧ lostIn s op = 0 := by
  cases op with
  | construct x t =>
    simp only [mailStep] at hs
    split at hs
    case isFalse => cases hs
    cases hs
    refine ⟨noEmptyArray_bind h fun w hw p hp ha _ hn => ?_, rfl⟩
    cases hw
    obtain ⟨a, hm, rfl⟩ := List.mem_map.mp hp
    cases a with
    | none => cases ha
    | some l =>
      have : l = [] := hn
      exact hop x t rfl (this ▸ hm)
  | copy x y =>
    simp only [mailStep] at hs
    split at hs
    case h_2 => cases hs
    split at hs
    case isFalse => cases hs
    cases hs
    refine ⟨noEmptyArray_bind h fun w hw p hp ha _ => ?_, rfl⟩
    cases hw
    obtain ⟨q, _, rfl⟩ := List.mem_map.mp hp
    simpa [copiedPart] using ha
  | assign x y =>
    simp only [mailStep] at hs
    split at hs
    case h_2 => cases hs
    rename_i v w hv hw
    split at hs
    · rename_i hxy
      cases hs
      exact ⟨h, by simp [lostIn, hv, hw, hxy]⟩
    · rename_i hxy
      split at hs
      case isFalse => cases hs
      cases hs
      refine ⟨noEmptyArray_bind h fun u hu r hr ha hst he => ?_, ?_⟩
      · cases hu
        obtain ⟨p, hp, q, hq, rfl⟩ := mem_zipWith hr
        have hqe : q.elems = [] := he
        simp only [assignedPart, hqe, ne_eq, not_true, false_or, true_and, decide_eq_true_eq, decide_eq_false_iff_not, not_or, Bool.not_eq_true,
          Classical.not_not] at ha hst
        exact h x v hv p hp ha hst.1 hst.2
      · simp only [lostIn, hv, hw, hxy, if_false]
        rw [List.sum_eq_zero_iff_forall_eq_nat]
        intro n hn
        obtain ⟨p, hp, q, hq, rfl⟩ := mem_zipWith hn
        unfold lostPart
        rw [if_neg]
        exact fun hc => h x v hv p hp hc.1 hc.2.1 hc.2.2.1
  | move x y =>
    simp only [mailStep] at hs
    split at hs
    case h_2 => cases hs
    rename_i w hw
    split at hs
    case isFalse => cases hs
    cases hs
    refine ⟨noEmptyArray_bind (noEmptyArray_bind h fun u hu => ?_) fun u hu => ?_, rfl⟩
    · cases hu
      exact left_noArray w
    · cases hu
      exact h y w hw
  | moveAssign x y =>
    simp only [mailStep] at hs
    split at hs
    case h_2 => cases hs
    rename_i v w hv hw
    split at hs
    · cases hs
      exact ⟨h, rfl⟩
    · split at hs
      case isFalse => cases hs
      cases hs
      refine ⟨noEmptyArray_bind (noEmptyArray_bind h fun u hu => ?_) fun u hu => ?_, rfl⟩
      · cases hu
        exact left_noArray w
      · cases hu
        exact h y w hw
  | destroy x =>
    simp only [mailStep] at hs
    split at hs
    case h_2 => cases hs
    split at hs
    case isFalse => cases hs
    cases hs
    exact ⟨noEmptyArray_bind h nofun, rfl⟩

theorem noEmptyArray_run {s s' : MailValues} (h : NoEmptyArray s) (ops : List MOp) (hop : ∀ x t, .construct x t ∈ ops → some [] ∉ t.arrays)
    (hs : mailRun s ops = some s') : lostArrays s ops = 0 := by
  induction ops generalizing s with
  | nil => rfl
  | cons p ps ih =>
    simp only [mailRun, Option.bind_eq_some_iff] at hs
    obtain ⟨s1, h1, h2⟩ := hs
    obtain ⟨hN, hl⟩ := noEmptyArray_step h p (fun x t e => hop x t (by simp [e])) h1
    simp only [lostArrays, h1, hl, ih hN (fun x t e => hop x t (List.mem_cons_of_mem _ e)) h2]

/-- **C74** (partial). When a program that follows the rules has destroyed all its messages, no block is left, provided that no message was
constructed with an array of no elements. Missing, because false (`C74_empty_array_lost`): such messages. The rules (`mailRun`) are those of C20. -/
theorem C74_all_given_back_partial (ops : List MOp) (s : MailValues) (hrun : mailRun noMailValues ops = some s) (hend : ∀ x, s x = none)
    (hempty : ∀ x t, .construct x t ∈ ops → some [] ∉ t.arrays) :
    ∃ o h, mrun noMails ops Heap.empty = .ok (o, h) ∧ ∀ a, h.mem a = none := by
  obtain ⟨o, h, left, e, _, hl, hm⟩ := C74_exact ops s hrun hend
  rw [noEmptyArray_run (s := noMailValues) (fun _ _ h => by cases h) ops hempty hrun, List.length_eq_zero_iff] at hl
  exact ⟨o, h, e, fun a => Classical.byContradiction fun ha => by simpa [hl] using (hm a).mp ha⟩

/-- Two messages, copied, assigned, moved and all destroyed. -/
def wholeMailStory : List MOp :=
  [.construct 0 (letter (b!"a@a.com") (b!"one") [[b!"x@x.com", []], [b!"y@y.com", b!"Y"]] [[b!"z@z.com", []]]),
   .construct 1 (letter (b!"b@b.com") (b!"two") [[b!"u@u.com", []]] [[b!"v@v.com", []]]),
   .copy 2 0, .assign 2 1, .move 3 1, .moveAssign 3 0, .destroy 1, .destroy 0, .destroy 2, .destroy 3]

example : ∃ s, mailRun noMailValues wholeMailStory = some s ∧ (∀ x, s x = none) ∧
    ∀ x t, .construct x t ∈ wholeMailStory → some [] ∉ t.arrays := by
  refine ⟨_, rfl, fun x => ?_, ?_⟩
  · match x with
    | 0 | 1 | 2 | 3 => rfl
    | n + 4 => simp [bindMail, noMailValues]
  · intro x t h
    simp only [wholeMailStory, List.mem_cons, MOp.construct.injEq, reduceCtorEq, List.not_mem_nil, or_false] at h
    rcases h with ⟨_, rfl⟩ | ⟨_, rfl⟩ <;> simp [letter]

/-- A message with an array of no carbon copies is assigned from one with a carbon copy; both are destroyed. -/
def emptyArrayStory : List MOp :=
  [.construct 0 (letter (b!"a@a.com") (b!"one") [[b!"x@x.com", []]] []),
   .construct 1 (letter (b!"b@b.com") (b!"two") [[b!"y@y.com", []]] [[b!"z@z.com", []]]),
   .assign 0 1, .destroy 0, .destroy 1]

example : ∃ s, mailRun noMailValues emptyArrayStory = some s ∧ (∀ x, s x = none) ∧ lostArrays noMailValues emptyArrayStory = 1 := by
  refine ⟨_, rfl, fun x => ?_, by decide +kernel⟩
  match x with
  | 0 | 1 => rfl
  | n + 2 => simp [bindMail, noMailValues]

/-- **C74**, refuted: the assignment overwrites the pointer to the array of no elements. Both messages are gone and the array is left. -/
theorem C74_empty_array_lost :
    (match mrun noMails emptyArrayStory Heap.empty with
      | .ok (o, h) => some (o 0, o 1, (List.range h.next).filter (fun a => h.mem a ≠ none), h.mem 8)
      | .error _ => none) = some (none, none, [8], some (.arr [])) := by
  decide +kernel

end Verif.Props
