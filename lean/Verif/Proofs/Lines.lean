import Verif.Spec.Lines
/-! Helper lemmas on lines. -/
namespace Verif.Proofs
open Verif Verif.Spec

theorem lines_ne_nil (s : Bytes) : lines s ≠ [] := by
  induction s using lines.induct with
  | case1 => simp [lines]
  | case2 => simp [lines]
  | case3 c d rest h ih => simp [lines, h]
  | case4 c d rest h ih =>
    simp only [lines, h, if_false]
    cases hl : lines (d :: rest) <;> simp [consFirst]

theorem lines_cons_ne (c : UInt8) (s : Bytes) (h : c ≠ 13) : lines (c :: s) = consFirst c (lines s) := by
  cases s with
  | nil => simp [lines, consFirst]
  | cons d rest => simp [lines, h]

theorem lines_crlf (s : Bytes) : lines (13 :: 10 :: s) = [] :: lines s := by simp [lines]

theorem lines_noCR (s : Bytes) (h : ∀ c ∈ s, c ≠ 13) : lines s = [s] := by
  induction s with
  | nil => rfl
  | cons c s ih =>
    rw [lines_cons_ne c s (h c (by simp)), ih (fun x hx => h x (by simp [hx]))]; rfl

theorem lines_append_crlf (a b : Bytes) (h : ∀ c ∈ a, c ≠ 13) : lines (a ++ 13 :: 10 :: b) = a :: lines b := by
  induction a with
  | nil => simp [lines_crlf]
  | cons c a ih =>
    rw [List.cons_append, lines_cons_ne c _ (h c (by simp)), ih (fun x hx => h x (by simp [hx]))]; rfl

/-- Prefix a block without CR to the first line. -/
theorem lines_append_noCR (a b : Bytes) (h : ∀ c ∈ a, c ≠ 13) :
    ∃ l ls, lines b = l :: ls ∧ lines (a ++ b) = (a ++ l) :: ls := by
  induction a with
  | nil =>
    cases hb : lines b with
    | nil => exact absurd hb (lines_ne_nil b)
    | cons l ls => exact ⟨l, ls, rfl, by simpa using hb⟩
  | cons c a ih =>
    obtain ⟨l, ls, h1, h2⟩ := ih (fun x hx => h x (by simp [hx]))
    refine ⟨l, ls, h1, ?_⟩
    rw [List.cons_append, lines_cons_ne c _ (h c (by simp)), h2]; rfl

/-- A CRLF separates, whatever stands before it. -/
theorem lines_append_sep (a b : Bytes) : lines (a ++ 13 :: 10 :: b) = lines a ++ lines b := by
  induction a using lines.induct with
  | case1 => simp [lines]
  | case2 c =>
    by_cases hc : c = 13
    · subst hc; simp [lines, consFirst]
    · simp [lines, consFirst]
  | case3 c d rest h ih =>
    obtain ⟨rfl, rfl⟩ := h
    simp [lines_crlf, ih]
  | case4 c d rest h ih =>
    simp only [List.cons_append] at ih ⊢
    rw [lines, lines, if_neg h, if_neg h, ih]
    cases hl : lines (d :: rest) with
    | nil => exact absurd hl (lines_ne_nil _)
    | cons l ls => rfl

theorem intercalate_consFirst (sep : Bytes) (c : UInt8) (ls : List Bytes) (h : ls ≠ []) :
    List.intercalate sep (consFirst c ls) = c :: List.intercalate sep ls := by
  cases ls with
  | nil => exact absurd rfl h
  | cons l ls => cases ls <;> simp [consFirst, List.intercalate, List.intersperse]

theorem intercalate_cons_cons (sep l : Bytes) (ls : List Bytes) (h : ls ≠ []) :
    List.intercalate sep (l :: ls) = l ++ sep ++ List.intercalate sep ls := by
  cases ls with
  | nil => exact absurd rfl h
  | cons l' ls => simp [List.intercalate, List.intersperse]

/-- The lines put together again give the text. -/
theorem lines_join (s : Bytes) : List.intercalate [13, 10] (lines s) = s := by
  induction s using lines.induct with
  | case1 => simp [lines, List.intercalate]
  | case2 c => simp [lines, List.intercalate]
  | case3 c d rest h ih =>
    obtain ⟨rfl, rfl⟩ := h
    rw [lines_crlf, intercalate_cons_cons _ _ _ (lines_ne_nil _), ih]; rfl
  | case4 c d rest h ih =>
    rw [lines, if_neg h, intercalate_consFirst _ _ _ (lines_ne_nil _), ih]

end Verif.Proofs
