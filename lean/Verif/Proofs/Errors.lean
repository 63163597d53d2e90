import Verif.Model.Errors
import Verif.Spec.Errors
import Verif.Proofs.Byte
/-! Helper lemmas on the error table. -/
namespace Verif.Proofs
open Verif Verif.Model Verif.Spec

theorem listed_cases (c : Int) (h : IsLibraryCode c ∨ IsExplainedReply c) : ∃ i : Fin 700, c = (i.val : Int) - 100 := by
  refine ⟨⟨(c + 100).toNat, ?_⟩, ?_⟩
  · rcases h with h | h
    · unfold IsLibraryCode at h; omega
    · unfold IsExplainedReply at h; omega
  · rcases h with h | h
    · unfold IsLibraryCode at h; show c = ((c + 100).toNat : Int) - 100; omega
    · unfold IsExplainedReply at h; show c = ((c + 100).toNat : Int) - 100; omega

theorem mem_table_listed : ∀ p ∈ errorTable, IsLibraryCode p.1 ∨ IsExplainedReply p.1 := by decide +kernel

theorem unlisted (c : Int) (h : ¬ (IsLibraryCode c ∨ IsExplainedReply c)) : errorMessage c = defaultErrorMessage := by
  have : errorTable.find? (fun p => p.1 == c) = none := by
    rw [List.find?_eq_none]
    intro p hp he
    simp at he
    exact h (he ▸ mem_table_listed p hp)
  simp [errorMessage, this]

/-- The codes that have a row, in increasing order. -/
def listed : List Int := errorTable.map (·.1)

theorem listed_mem (c : Int) (h : IsLibraryCode c ∨ IsExplainedReply c) : c ∈ listed := by
  obtain ⟨i, rfl⟩ := listed_cases c h
  revert i
  have : ∀ i : Fin 700, (IsLibraryCode ((i.val : Int) - 100) ∨ IsExplainedReply ((i.val : Int) - 100)) →
      ((i.val : Int) - 100) ∈ listed := by decide +kernel
  intro i hi
  exact this i hi

theorem listed_not_default : ∀ c ∈ listed, errorMessage c ≠ defaultErrorMessage := by decide +kernel

theorem listed_injective : ∀ c ∈ listed, ∀ d ∈ listed, errorMessage c = errorMessage d → c = d := by decide +kernel

theorem no_nul : ∀ c ∈ listed, (0 : UInt8) ∉ errorMessage c := by decide +kernel

theorem errorMessage_no_nul (c : Int) : (0 : UInt8) ∉ errorMessage c := by
  by_cases h : IsLibraryCode c ∨ IsExplainedReply c
  · exact no_nul c (listed_mem c h)
  · rw [unlisted c h]; decide

theorem errorMessage_ne_nil (c : Int) : errorMessage c ≠ [] := by
  by_cases h : IsLibraryCode c ∨ IsExplainedReply c
  · have : ∀ c ∈ listed, errorMessage c ≠ [] := by decide +kernel
    exact this c (listed_mem c h)
  · rw [unlisted c h]; decide

theorem cstr_append {a b : Bytes} (h : (0 : UInt8) ∉ a) : cstr (a ++ 0 :: b) = a := by
  unfold cstr
  induction a with
  | nil => simp
  | cons c a ih =>
    simp only [List.mem_cons, not_or] at h
    simp only [List.cons_append]
    rw [List.takeWhile_cons_of_pos (by simp [Ne.symm h.1]), ih h.2]

theorem cstr_eq_self {a : Bytes} (h : (0 : UInt8) ∉ a) : cstr a = a := by
  unfold cstr
  induction a with
  | nil => simp
  | cons c a ih =>
    simp only [List.mem_cons, not_or] at h
    rw [List.takeWhile_cons_of_pos (by simp [Ne.symm h.1]), ih h.2]

theorem cstr_no_nul (a : Bytes) : (0 : UInt8) ∉ cstr a := by
  intro h
  have := List.all_eq_true.mp (List.all_takeWhile (p := fun c : UInt8 => decide (c ≠ 0)) (l := a)) 0 h
  simp at this

end Verif.Proofs
