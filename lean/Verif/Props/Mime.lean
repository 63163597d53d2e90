import Verif.Model.Mime
import Verif.Spec.Mime
import Verif.Proofs.StringUtils
/-!
# C14: MIME type of an attachment
-/
namespace Verif.Props
open Verif Verif.Model Verif.Spec

theorem extensionOf_eq {e f : Bytes} (h : IsExtensionOf e f) : extensionOf f = e := by
  obtain ⟨h46, rfl | ⟨a, rfl⟩⟩ := h
  · unfold extensionOf
    have : f.reverse.takeWhile (fun c => decide (c ≠ 46)) = f.reverse := by
      have hp : ∀ c ∈ f.reverse, (fun c : UInt8 => decide (c ≠ 46)) c = true := by
        intro c hc
        simp only [decide_eq_true_eq]
        rintro rfl
        exact h46 (by simpa using hc)
      simpa using List.takeWhile_append_of_pos (l₂ := []) hp
    rw [this, List.reverse_reverse]
  · unfold extensionOf
    rw [List.reverse_append, List.reverse_cons, List.append_assoc]
    have : (e.reverse ++ ([46] ++ a.reverse)).takeWhile (fun c => decide (c ≠ 46)) = e.reverse := by
      rw [List.takeWhile_append_of_pos]
      · simp
      · intro c hc
        simp only [decide_eq_true_eq]
        rintro rfl
        exact h46 (by simpa using hc)
    rw [this, List.reverse_reverse]

/-- The model's table and the specification's are the same up to grouping and letter case. -/
theorem mimeTable_eq : ∀ k t, (k, t) ∈ mimeTable ↔ ∃ p ∈ mimeTypes, p.1 = t ∧ ∃ x ∈ p.2, toUpper x = k := by
  have h1 : ∀ q ∈ mimeTable, ∃ p ∈ mimeTypes, p.1 = q.2 ∧ ∃ x ∈ p.2, toUpper x = q.1 := by decide +kernel
  have h2 : ∀ p ∈ mimeTypes, ∀ x ∈ p.2, (toUpper x, p.1) ∈ mimeTable := by decide +kernel
  intro k t
  constructor
  · intro h; exact h1 _ h
  · rintro ⟨p, hp, rfl, x, hx, rfl⟩; exact h2 p hp x hx

theorem mimeLookup_mem (e : Bytes) (l : List (Bytes × Bytes)) :
    ((e, mimeLookup e l) ∈ l) ∨ (mimeLookup e l = [] ∧ ∀ t, (e, t) ∉ l) := by
  induction l with
  | nil => right; simp [mimeLookup]
  | cons p l ih =>
    obtain ⟨k, t⟩ := p
    by_cases h : e = k
    · left; simp [mimeLookup, h]
    · rcases ih with ih | ⟨h1, h2⟩
      · left; simp only [mimeLookup, h, if_false]; exact List.mem_cons_of_mem _ ih
      · right
        simp only [mimeLookup, h, if_false]
        refine ⟨h1, fun t' ht' => ?_⟩
        rcases List.mem_cons.mp ht' with h' | h'
        · exact h (Prod.mk.inj h').1
        · exact h2 t' h'

/-- **C14.** The type is the one the table gives for the extension, ignoring letter case, and empty when the table has none. -/
theorem C14_mime_type (a : Attachment) (e : Bytes) (h : IsExtensionOf e a.filename) :
    HasMimeType e a.mimeType ∨ (a.mimeType = [] ∧ ∀ t, ¬ HasMimeType e t) := by
  have key : ∀ t, (toUpper e, t) ∈ mimeTable ↔ HasMimeType e t := by
    intro t
    rw [mimeTable_eq]
    unfold HasMimeType
    constructor
    · rintro ⟨p, hp, rfl, x, hx, he⟩
      exact ⟨p, hp, rfl, x, hx, (Proofs.map_eq_iff_ignoringCase toupper Proofs.toupper_eq e x).mp he.symm⟩
    · rintro ⟨p, hp, rfl, x, hx, he⟩
      exact ⟨p, hp, rfl, x, hx, ((Proofs.map_eq_iff_ignoringCase toupper Proofs.toupper_eq e x).mpr he).symm⟩
  unfold Attachment.mimeType
  rw [extensionOf_eq h]
  rcases mimeLookup_mem (toUpper e) mimeTable with h' | ⟨h1, h2⟩
  · left; exact (key _).mp h'
  · right; exact ⟨h1, fun t ht => h2 t ((key t).mpr ht)⟩

/-- **C14.** The table gives at most one type per extension. -/
theorem C14_one_type (e t t' : Bytes) (h : HasMimeType e t) (h' : HasMimeType e t') : t = t' := by
  obtain ⟨p, hp, rfl, x, hx, he⟩ := h
  obtain ⟨q, hq, rfl, y, hy, he'⟩ := h'
  have h3 : ∀ p ∈ mimeTypes, ∀ q ∈ mimeTypes, ∀ x ∈ p.2, ∀ y ∈ q.2, toUpper x = toUpper y → p.1 = q.1 := by decide +kernel
  apply h3 p hp q hq x hx y hy
  have e1 := (Proofs.map_eq_iff_ignoringCase toupper Proofs.toupper_eq e x).mpr he
  have e2 := (Proofs.map_eq_iff_ignoringCase toupper Proofs.toupper_eq e y).mpr he'
  exact e1.symm.trans e2

/-- **C14.** Every file name has exactly one extension in this sense. -/
theorem C14_extension_exists (f : Bytes) : ∃ e, IsExtensionOf e f ∧ ∀ e', IsExtensionOf e' f → e' = e := by
  have : ∃ e, IsExtensionOf e f := by
    induction f with
    | nil => exact ⟨[], by simp [IsExtensionOf]⟩
    | cons c f ih =>
      obtain ⟨e, h46, rfl | ⟨a, rfl⟩⟩ := ih
      · by_cases hc : c = 46
        · exact ⟨f, h46, .inr ⟨[], by simp [hc]⟩⟩
        · exact ⟨c :: f, by simp [h46, Ne.symm hc], .inl rfl⟩
      · exact ⟨e, h46, .inr ⟨c :: a, by simp⟩⟩
  obtain ⟨e, he⟩ := this
  exact ⟨e, he, fun e' he' => (extensionOf_eq he').symm.trans (extensionOf_eq he)⟩

/-- **C14.** The type of an attachment is the one the table gives for its file name. -/
theorem C14_file_type (a : Attachment) : a.mimeType = fileType a.filename := by
  obtain ⟨e, he, -⟩ := C14_extension_exists a.filename
  have hx : extension a.filename = e := extensionOf_eq he
  have key : HasMimeType e (fileType a.filename) ∨ (fileType a.filename = [] ∧ ∀ t, ¬ HasMimeType e t) := by
    unfold fileType
    rw [hx]
    split
    · rename_i p hp
      have h1 := List.find?_some hp
      have h2 := List.mem_of_find?_eq_some hp
      obtain ⟨x, hx, he⟩ := List.any_eq_true.mp h1
      exact .inl ⟨p, h2, rfl, x, hx, of_decide_eq_true he⟩
    · rename_i hn
      refine .inr ⟨rfl, ?_⟩
      rintro t ⟨p, hp, -, x, hx, he⟩
      have := List.find?_eq_none.mp hn p hp
      exact this (List.any_eq_true.mpr ⟨x, hx, decide_eq_true he⟩)
  rcases C14_mime_type a e he with h | ⟨h, h'⟩
  · rcases key with k | ⟨-, k⟩
    · exact C14_one_type e _ _ h k
    · exact absurd h (k _)
  · rcases key with k | ⟨k, -⟩
    · exact absurd k (h' _)
    · rw [h, k]

/-- **C14.** Two file names whose extensions agree ignoring case have the same type. -/
theorem C14_case_insensitive (a b : Attachment) (e e' : Bytes) (h : IsExtensionOf e a.filename) (h' : IsExtensionOf e' b.filename)
    (hc : EqIgnoringCase e e') : a.mimeType = b.mimeType := by
  unfold Attachment.mimeType
  rw [extensionOf_eq h, extensionOf_eq h']
  have : toUpper e = toUpper e' := (Proofs.map_eq_iff_ignoringCase toupper Proofs.toupper_eq e e').mpr hc
  rw [this]

example : IsExtensionOf b!"Jpg" b!"my.photo.Jpg" ∧ (Attachment.mimeType ⟨b!"my.photo.Jpg", [], []⟩) = b!"image/jpeg" ∧
    (Attachment.mimeType ⟨b!"noextension", [], []⟩) = [] ∧ (Attachment.mimeType ⟨b!"pdf", [], []⟩) = b!"application/pdf" := by
  refine ⟨⟨by decide, .inr ⟨b!"my.photo", rfl⟩⟩, by decide +kernel, by decide +kernel, by decide +kernel⟩

end Verif.Props
