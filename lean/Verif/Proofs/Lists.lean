/-!
# Lists
-/
namespace Verif.Proofs

theorem split_append {α : Type} {a b pre post : List α} {x : α} (h : a ++ b = pre ++ x :: post) :
    (∃ t, a = pre ++ x :: t) ∨ ∃ t, pre = a ++ t ∧ b = t ++ x :: post := by
  rcases List.append_eq_append_iff.mp h with ⟨t, h1, h2⟩ | ⟨t, h1, h2⟩
  · exact .inr ⟨t, h1, h2⟩
  · cases t with
    | nil => exact .inr ⟨[], by simpa using h1.symm, by simpa using h2.symm⟩
    | cons y t =>
      rw [List.cons_append, List.cons.injEq] at h2
      exact .inl ⟨t, by rw [h1, h2.1]⟩

end Verif.Proofs
