import Verif.Spec.Text
/-!
# What a getter must show after a sequence of operations
-/
namespace Verif.Spec

/-- `v` is the value of the last operation that gives a value (`acc o v`: operation `o` gives the value `v`), or the initial
value when there is none. -/
def LastOf {Op β : Type} (acc : Op → β → Prop) (ops : List Op) (init v : β) : Prop :=
  (v = init ∧ ∀ o ∈ ops, ∀ t, ¬ acc o t) ∨
  ∃ pre o post, ops = pre ++ o :: post ∧ acc o v ∧ ∀ o' ∈ post, ∀ t, ¬ acc o' t

theorem LastOf.nil {Op β : Type} {acc : Op → β → Prop} {init : β} : LastOf acc [] init init := .inl ⟨rfl, by simp⟩

theorem LastOf.give {Op β : Type} {acc : Op → β → Prop} {ops : List Op} {init v w : β} {o : Op} (ho : acc o w)
    (h : LastOf acc ops w v) : LastOf acc (o :: ops) init v := by
  rcases h with ⟨rfl, h⟩ | ⟨pre, o', post, e, h1, h2⟩
  · exact .inr ⟨[], o, ops, rfl, ho, h⟩
  · exact .inr ⟨o :: pre, o', post, by simp [e], h1, h2⟩

theorem LastOf.skip {Op β : Type} {acc : Op → β → Prop} {ops : List Op} {init v : β} {o : Op} (ho : ∀ t, ¬ acc o t)
    (h : LastOf acc ops init v) : LastOf acc (o :: ops) init v := by
  rcases h with ⟨rfl, h⟩ | ⟨pre, o', post, e, h1, h2⟩
  · exact .inl ⟨rfl, by simpa using ⟨ho, h⟩⟩
  · exact .inr ⟨o :: pre, o', post, by simp [e], h1, h2⟩

end Verif.Spec
