import Verif.Spec.Parts
import Verif.Proofs.Reader
/-!
# Reading the headers of parts
-/
namespace Verif.Proofs
open Verif Verif.Model Verif.Spec

/-- A name that needs no escapes in a quoted string: no quote, no backslash. -/
def NoEscapes (s : Bytes) : Prop := ∀ c ∈ s, c ≠ 34 ∧ c ≠ 92

theorem cut_quoted {sep : UInt8} (s : Bytes) (hs : NoEscapes s) {t x : Bytes} {xs : List Bytes}
    (h : cutAt sep .plain t = x :: xs) : cutAt sep .quoted (s ++ 34 :: t) = (s ++ 34 :: x) :: xs := by
  induction s with
  | nil => simp [cutAt, Within.next, h, consFirst]
  | cons c s ih =>
    obtain ⟨h1, h2⟩ := hs c (by simp)
    simp [cutAt, Within.next, h1, h2, ih fun d hd => hs d (by simp [hd]), consFirst]

theorem unquoted_name (s t : Bytes) (hs : NoEscapes s) : unquoted (s ++ 34 :: t) = s := by
  induction s with
  | nil => cases t <;> simp [unquoted]
  | cons c s ih =>
    obtain ⟨h1, h2⟩ := hs c (by simp)
    have := ih fun d hd => hs d (by simp [hd])
    cases s with
    | nil => simp only [List.cons_append, List.nil_append] at this ⊢; simp [unquoted, h1, h2, this]
    | cons d s => simp only [List.cons_append] at this ⊢; simp [unquoted, h1, h2, this]

/-- A value followed by one quoted parameter, as it is cut. -/
theorem cut_param (v k n : Bytes) (hv : ∀ c ∈ v, c ≠ 34 ∧ c ≠ 40 ∧ c ≠ 60 ∧ c ≠ 59) (hk : ∀ c ∈ k, c ≠ 34 ∧ c ≠ 40 ∧ c ≠ 60 ∧ c ≠ 59) (hn : NoEscapes n) :
    cutAt 59 .plain (32 :: (v ++ b!"; " ++ k ++ b!"=\"" ++ n ++ b!"\"")) = [32 :: v, 32 :: (k ++ b!"=\"" ++ n ++ b!"\"")] := by
  have sp : ∀ l : Bytes, (∀ c ∈ l, c ≠ 34 ∧ c ≠ 40 ∧ c ≠ 60 ∧ c ≠ 59) → ∀ c ∈ 32 :: l, c ≠ 34 ∧ c ≠ 40 ∧ c ≠ 60 ∧ c ≠ (59 : UInt8) := by
    intro l hl c hc
    rcases List.mem_cons.mp hc with rfl | hc
    · decide
    · exact hl c hc
  have q : cutAt 59 .plain (34 :: (n ++ [34])) = [34 :: (n ++ [34])] := by
    have := cut_quoted (sep := 59) n hn (t := []) (x := []) (xs := []) rfl
    simp [cutAt, Within.next, this, consFirst]
  have second : cutAt 59 .plain (32 :: k ++ [61] ++ 34 :: (n ++ [34])) = [32 :: k ++ [61] ++ 34 :: (n ++ [34])] := by
    refine cut_plain (32 :: k ++ [61]) ?_ q
    intro c hc
    rcases List.mem_append.mp hc with hc | hc
    · exact sp k hk c hc
    · rw [List.mem_singleton.mp hc]; decide
  have first := cut_plain (sep := 59) (32 :: v) (sp v hv) (t := 59 :: (32 :: k ++ [61] ++ 34 :: (n ++ [34]))) (x := [])
    (xs := [32 :: k ++ [61] ++ 34 :: (n ++ [34])]) (by rw [cutAt, if_pos ⟨rfl, rfl⟩, second])
  have e : 32 :: (v ++ b!"; " ++ k ++ b!"=\"" ++ n ++ b!"\"") = 32 :: v ++ 59 :: (32 :: k ++ [61] ++ 34 :: (n ++ [34])) := by simp
  rw [e, first]
  simp

theorem param_quoted (k n : Bytes) (hk : ∀ c ∈ k, c ≠ 61) (hb : (k.head?.any isBlank) = false) (h0 : k ≠ []) (hn : NoEscapes n) :
    param (32 :: (k ++ b!"=\"" ++ n ++ b!"\"")) = (k, n) := by
  have e : k ++ b!"=\"" ++ n ++ b!"\"" = k ++ 61 :: 34 :: (n ++ [34]) := by simp
  have d : (32 :: (k ++ 61 :: 34 :: (n ++ [34]))).dropWhile isBlank = k ++ 61 :: 34 :: (n ++ [34]) := by
    rw [List.dropWhile_cons_of_pos (by decide)]
    cases k with
    | nil => exact absurd rfl h0
    | cons c k => rw [List.cons_append, List.dropWhile_cons_of_neg]; simpa using hb
  have hk' : ∀ c ∈ k, decide (c ≠ 61) = true := fun c hc => by simpa using hk c hc
  unfold param
  simp only [e, d, List.takeWhile_append_of_pos hk', List.dropWhile_append_of_pos hk']
  simp [paramValue, unquoted_name n [] hn]

theorem fieldOf_named {n : Bytes} (h : ∀ c ∈ n, c ≠ 58) (v : Bytes) : fieldOf (n ++ b!": " ++ v) = (n, 32 :: v) := by
  have hc : ∀ c ∈ n, decide (c ≠ 58) = true := fun c hc => by simpa using h c hc
  unfold fieldOf
  have e : n ++ b!": " ++ v = n ++ 58 :: 32 :: v := by simp
  rw [e, List.takeWhile_append_of_pos hc, List.dropWhile_append_of_pos hc]
  simp

/-- A name of a field. -/
def FieldName (n : Bytes) : Prop := n ≠ [] ∧ (n.head?.any isBlank) = false ∧ ∀ c ∈ n, c ≠ 58

instance (n : Bytes) : Decidable (FieldName n) := inferInstanceAs (Decidable (_ ∧ _))

theorem bodies_lines (fs : List (Bytes × Bytes)) (hn : ∀ f ∈ fs, FieldName f.1) (n : Bytes) :
    bodies n (fs.map fun f => f.1 ++ b!": " ++ f.2) = (fs.filter fun f => decide (EqIgnoringCase f.1 n)).map fun f => 32 :: f.2 := by
  unfold bodies
  rw [unfolded_flat]
  · induction fs with
    | nil => rfl
    | cons f fs ih =>
      have hf := fieldOf_named (hn f (by simp)).2.2 f.2
      have := ih fun g hg => hn g (by simp [hg])
      simp only [List.map_cons, hf, List.filter_cons]
      split
      · simp only [List.map_cons]
        rw [this]
      · exact this
  · intro l hl
    obtain ⟨⟨k, v⟩, hf, rfl⟩ := List.mem_map.mp hl
    obtain ⟨h0, h1, -⟩ := hn _ hf
    cases k with
    | nil => exact absurd rfl h0
    | cons c k => exact h1

theorem fileType_plain (f : Bytes) : (∀ c ∈ fileType f, c ≠ 34 ∧ c ≠ 40 ∧ c ≠ 60 ∧ c ≠ 59) ∧ trimmed (fileType f) = fileType f := by
  unfold fileType
  split
  · rename_i p hp
    have : ∀ p ∈ mimeTypes, (∀ c ∈ p.1, c ≠ 34 ∧ c ≠ 40 ∧ c ≠ 60 ∧ c ≠ 59) ∧ trimmed p.1 = p.1 := by decide +kernel
    exact this p (List.mem_of_find?_eq_some hp)
  · exact ⟨by simp, rfl⟩

end Verif.Proofs
