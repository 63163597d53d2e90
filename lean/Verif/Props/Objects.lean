import Verif.Proofs.Objects
/-!
# C18, C55: the classes that own text

Every program that constructs, copies, assigns, moves, changes and destroys addresses, credentials, attachments and error resolvers behaves as if they were plain
values, and touches no memory that is not its own.
-/
namespace Verif.Props
open Verif Verif.Model Verif.Spec Verif.Proofs

/-- The text at an address. -/
def textAt (h : Heap) : Ptr → Option Bytes
  | none => none
  | some a => match h.mem a with
    | some (.chars s) => some s
    | _ => none

/-- The object of this name shows this value: its getters give these texts. -/
def Displays (h : Heap) (o : Objs) (x : Nat) (w : Value) : Prop :=
  ∃ v, o x = some v ∧ v.cls = w.cls ∧ v.method = w.method ∧ v.fields.map (textAt h) = w.texts

/-- No object, no value. -/
def noObjs : Objs := fun _ => none

/-- No object, no value. -/
def noValues : Values := fun _ => none

theorem matches_texts {ps : List Ptr} {ts : List (Option Bytes)} {h : Heap} {L : List Cell} (hM : Matches ps ts) (hE : Exact h L)
    (hsub : ∀ c ∈ fieldCells ps ts, c ∈ L) : ps.map (textAt h) = ts := by
  induction hM with
  | nil => rfl
  | null _ ih => rw [List.map_cons, ih hsub]; rfl
  | @text a s ps ts _ ih =>
    rw [List.map_cons, ih (fun c hc => hsub c (by rw [fieldCells_text]; exact List.mem_cons_of_mem _ hc))]
    have := (hE.mem a (.chars s)).mpr (hsub _ (by rw [fieldCells_text]; exact List.mem_cons_self ..))
    simp only [textAt, this]

theorem rel_displays {o : Objs} {s : Values} {h : Heap} {L : List Cell} (hR : Rel o s h L) {x : Nat} {w : Value} (hw : s x = some w) :
    Displays h o x w := by
  obtain ⟨v, hv, hS⟩ := shown hR.1 hw
  obtain ⟨_, names, _, hnames, hE⟩ := hR
  exact ⟨v, hv, hS.cls, hS.method, matches_texts hS.fields hE fun c hc => List.mem_append_left _ (cells_in hnames hv hw hc)⟩

/-- **C18** (partial). A program that follows the rules of plain values (`valueRun`) runs without reading or deleting dead memory, without a null
argument and without a mismatched `delete`, and afterwards every object displays exactly what the same program on values gives. The rules exclude
names that do not exist, copying a moved-from object and passing a text read from one, and, what the full claim would include, giving a
credential's setter the text that it is about to replace (`C18_own_text`). -/
theorem C18_values_partial (ops : List VOp) (s : Values) (hrun : valueRun noValues ops = some s) :
    ∃ o h, vrun noObjs ops Heap.empty = .ok (o, h) ∧ (∀ x, s x = none → o x = none) ∧ ∀ x w, s x = some w → Displays h o x w := by
  obtain ⟨o, h, more, e, hR, _⟩ := vrun_refines Rel.empty ops hrun
  exact ⟨o, h, e, fun x hx => (shows_none hR.1 x).mpr hx, fun x w hw => rel_displays hR hw⟩

/-- The operation changes this object. -/
def Changes (x : Nat) : VOp → Prop
  | .construct y _ _ _ | .copy y _ | .assign y _ | .set y _ _ | .setMethod y _ | .destroy y => y = x
  | .move y z | .moveAssign y z => y = x ∨ z = x

instance (x : Nat) : ∀ op, Decidable (Changes x op)
  | .construct y _ _ _ | .copy y _ | .assign y _ | .set y _ _ | .setMethod y _ | .destroy y => inferInstanceAs (Decidable (y = x))
  | .move y z | .moveAssign y z => inferInstanceAs (Decidable (y = x ∨ z = x))

theorem valueStep_other {s s' : Values} {x : Nat} (op : VOp) (hc : ¬ Changes x op) (h : valueStep s op = some s') : s' x = s x := by
  cases op <;> simp only [valueStep] at h <;> simp only [Changes] at hc
  all_goals
    (repeat' split at h) <;>
      first
      | (cases h; done)
      | (cases h; simp only [bindTo]; rw [if_neg (by rintro rfl; simp at hc)]
         try rw [if_neg (by rintro rfl; simp at hc)])
      | (cases h; rfl)

theorem valueRun_other {s s' : Values} {x : Nat} (ops : List VOp) (hc : ∀ op ∈ ops, ¬ Changes x op) (h : valueRun s ops = some s') : s' x = s x := by
  induction ops generalizing s with
  | nil => cases h; rfl
  | cons p ps ih =>
    simp only [valueRun, Option.bind_eq_some_iff] at h
    obtain ⟨s1, h1, h2⟩ := h
    rw [ih (fun op ho => hc op (List.mem_cons_of_mem _ ho)) h2]
    exact valueStep_other p (hc p (List.mem_cons_self ..)) h1

theorem valueRun_append (s : Values) (ops more : List VOp) : valueRun s (ops ++ more) = (valueRun s ops).bind fun s' => valueRun s' more := by
  induction ops generalizing s with
  | nil => rfl
  | cons p ps ih =>
    simp only [List.cons_append, valueRun]
    cases valueStep s p with
    | none => rfl
    | some s1 => exact ih s1

/-- **C18** (partial), independence. A copy displays what its source displayed when it was made, whatever is done to the source and to all other
objects afterwards, their destruction included. -/
theorem C18_copies_independent_partial (ops more : List VOp) (x y : Nat) (s : Values) (hmore : ∀ op ∈ more, ¬ Changes x op)
    (hrun : valueRun noValues (ops ++ .copy x y :: more) = some s) :
    ∃ o h o' h' w, vrun noObjs ops Heap.empty = .ok (o, h) ∧ Displays h o y w ∧
      vrun noObjs (ops ++ .copy x y :: more) Heap.empty = .ok (o', h') ∧ Displays h' o' x w := by
  have hfull := hrun
  rw [valueRun_append, Option.bind_eq_some_iff] at hrun
  obtain ⟨s1, h1, h2⟩ := hrun
  simp only [valueRun, Option.bind_eq_some_iff] at h2
  obtain ⟨s2, h3, h4⟩ := h2
  have hx := valueRun_other more hmore h4
  have : ∃ w, s1 y = some w ∧ s2 x = some w := by
    simp only [valueStep] at h3
    split at h3
    case h_2 => cases h3
    rename_i w hw
    split at h3
    case isFalse => cases h3
    cases h3
    exact ⟨w, hw, by simp [bindTo]⟩
  obtain ⟨w, hw1, hw2⟩ := this
  obtain ⟨o, h, e1, _, d1⟩ := C18_values_partial ops s1 h1
  obtain ⟨o', h', e2, _, d2⟩ := C18_values_partial _ s hfull
  exact ⟨o, h, o', h', w, e1, d1 y w hw1, e2, d2 x w (by rw [hx, hw2])⟩

/-- A program: two credentials, one assigned to the other, the first changed, moved and destroyed. -/
def credentialStory : List VOp :=
  [.construct 0 .credential [.text (b! "user"), .text (b! "secret")] .login,
   .construct 1 .credential [.text (b! "other"), .field 0 1] .plain,
   .assign 1 0,
   .set 0 0 (.field 1 1),
   .setMethod 1 .xoauth2,
   .move 2 0,
   .copy 3 2,
   .destroy 0,
   .assign 2 2,
   .construct 4 .error [.text (b! "Unable to create the socket")] .implicit,
   .move 5 4,
   .destroy 4,
   .destroy 5,
   .destroy 2]

example : ∃ s, valueRun noValues credentialStory = some s ∧
    s 1 = some { cls := .credential, texts := [some (b! "user"), some (b! "secret")], method := .xoauth2 } ∧
    s 3 = some { cls := .credential, texts := [some (b! "secret"), some (b! "secret")], method := .login } ∧ s 0 = none ∧ s 2 = none :=
  ⟨_, rfl, by decide +kernel⟩

example : (∀ op ∈ credentialStory.drop 7, ¬ Changes 3 op) ∧ credentialStory = credentialStory.take 6 ++ .copy 3 2 :: credentialStory.drop 7 := by
  decide +kernel

/-- Changing a credential to its own user name. -/
def ownText : List VOp :=
  [.construct 0 .credential [.text (b! "user"), .text (b! "secret")] .login, .set 0 0 (.field 0 0)]

/-- **C18**, refuted: `credential.setUsername(credential.getUsername())` deletes the text before copying it. -/
theorem C18_own_text : (match vrun noObjs ownText Heap.empty with | .ok _ => none | .error e => some e) = some .deadRead := by
  decide +kernel

/-! ### C55: memory is given back -/

theorem forgetsIn_set {s : Values} (ops : List VOp) {s' : Values} (hs : valueRun s ops = some s') (hF : ForgetsIn s ops) :
    ∃ x t, VOp.set x 2 t ∈ ops := by
  induction ops generalizing s with
  | nil => exact hF.elim
  | cons p ps ih =>
    simp only [valueRun, Option.bind_eq_some_iff] at hs
    obtain ⟨s1, h1, h2⟩ := hs
    rcases hF with hF | ⟨s2, e, hF⟩
    · cases p with
      | set x i t =>
        obtain ⟨v, hv, hc⟩ := hF
        simp only [valueStep, hv] at h1
        split at h1
        case h_2 => cases h1
        rename_i w b hw _
        cases hw
        split at h1
        case isFalse => cases h1
        rename_i hset
        have := hset.1
        rw [hc] at this
        simp only [Settable] at this
        subst this
        exact ⟨x, t, List.mem_cons_self ..⟩
      | _ => exact hF.elim
    · rw [h1] at e
      cases e
      obtain ⟨x, t, hm⟩ := ih h2 hF
      exact ⟨x, t, List.mem_cons_of_mem _ hm⟩

/-- **C55** (partial). When a program that follows the rules has destroyed all its objects, no block is left, unless it changed the content id of
an attachment. -/
theorem C55_all_given_back_partial (ops : List VOp) (hrun : valueRun noValues ops = some noValues) (hset : ∀ x t, VOp.set x 2 t ∉ ops) :
    ∃ o h, vrun noObjs ops Heap.empty = .ok (o, h) ∧ ∀ a, h.mem a = none := by
  obtain ⟨o, h, more, e, hR, hm⟩ := vrun_refines Rel.empty ops hrun
  refine ⟨o, h, e, fun a => ?_⟩
  have : more = [] := hm fun hF => by
    obtain ⟨x, t, h⟩ := forgetsIn_set ops hrun hF
    exact hset x t h
  subst this
  obtain ⟨hsh, names, _, _, hE⟩ := hR
  have hnil : allCells names o noValues ++ ([] ++ []) = [] := by
    rw [List.append_nil, List.append_nil]
    refine List.flatMap_eq_nil_iff.mpr fun x _ => ?_
    unfold cellsOf noValues
    split
    · rename_i h; cases h
    · rfl
  rw [hnil] at hE
  cases hmem : h.mem a with
  | none => rfl
  | some b => exact absurd ((hE.mem a b).mp hmem) (by simp)

/-- `credentialStory` and the end of its last objects. -/
def wholeStory : List VOp := credentialStory ++ [.destroy 1, .destroy 3]

example : valueRun noValues wholeStory = some noValues := by
  have : ∃ s, valueRun noValues wholeStory = some s ∧ s = noValues := ⟨_, rfl, by
    funext x
    simp only [bindTo, noValues]
    match x with
    | 0 | 1 | 2 | 3 | 4 | 5 => rfl
    | n + 6 => simp⟩
  obtain ⟨s, h, rfl⟩ := this
  exact h

example : ∀ x t, VOp.set x 2 t ∉ wholeStory := by
  intro x t h
  simp [wholeStory, credentialStory] at h

/-- An attachment whose content id is changed once. -/
def contentIdStory : List VOp :=
  [.construct 0 .attachment [.text (b! "a.png"), .text (b! "a"), .text []] .implicit, .set 0 2 (.text (b! "id1")), .destroy 0]

/-- **C55**, refuted: `Attachment::setContentId` loses the old text. All objects are gone and a block is left. -/
theorem C55_content_id_lost :
    (match vrun noObjs contentIdStory Heap.empty with | .ok (o, h) => some (o 0, h.mem 2) | .error _ => none) = some (none, some (.chars [])) := by
  decide +kernel

end Verif.Props
