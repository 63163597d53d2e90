import Verif.Proofs.Errors
/-!
# C24, C25: error messages
-/
namespace Verif.Props
open Verif Verif.Model Verif.Spec

/-- **C24.** Exactly the published codes (and the explained server replies) have a message of their own. -/
theorem C24_specific_iff (c : Int) :
    errorMessage c ≠ b!"No message correspond to this error code" ↔ IsLibraryCode c ∨ IsExplainedReply c := by
  constructor
  · intro h
    by_cases hc : IsLibraryCode c ∨ IsExplainedReply c
    · exact hc
    · exact absurd (Proofs.unlisted c hc) h
  · intro h
    exact Proofs.listed_not_default c (Proofs.listed_mem c h)

/-- **C24.** Two different codes never share a message. -/
theorem C24_messages_distinct (c d : Int) (hc : IsLibraryCode c ∨ IsExplainedReply c)
    (hd : IsLibraryCode d ∨ IsExplainedReply d) (h : errorMessage c = errorMessage d) : c = d :=
  Proofs.listed_injective c (Proofs.listed_mem c hc) d (Proofs.listed_mem d hd) h

/-- **C24.** The code determines the message, so the two public functions agree: `getErrorMessage` returns the whole message
with its terminator. -/
theorem C24_getErrorMessage (c : Int) : cstr (getErrorMessage c) = errorMessage c ∧
    (getErrorMessage c).length = (errorMessage c).length + 1 ∧ errorMessage c ≠ [] :=
  ⟨Proofs.cstr_append (Proofs.errorMessage_no_nul c), by simp [getErrorMessage], Proofs.errorMessage_ne_nil c⟩

/-- **C24.** The message of a library code tells a timeout from another error. -/
theorem C24_timeouts_are_named (c : Int) (h : IsLibraryCode c) : Occurs b!"timed out" (errorMessage c) ↔ IsTimeoutCode c := by
  have hf : ∀ p s : Bytes, Occurs p s ↔ (findSub p s).isSome = true := by
    intro p s
    induction s with
    | nil =>
      constructor
      · rintro ⟨a, b, e⟩
        have : p = [] := by
          have := congrArg List.length e
          simp at this
          exact List.eq_nil_of_length_eq_zero (by omega)
        subst this; simp [findSub]
      · intro h
        cases p with
        | nil => exact ⟨[], [], rfl⟩
        | cons c p => simp [findSub] at h
    | cons c s ih =>
      rw [findSub]
      by_cases hp : p.isPrefixOf (c :: s) = true
      · simp only [hp, if_true, Option.isSome_some, iff_true]
        obtain ⟨t, ht⟩ := List.isPrefixOf_iff_prefix.mp hp
        exact ⟨[], t, by simp [ht]⟩
      · simp only [hp, Bool.false_eq_true, if_false, Option.isSome_map, ← ih]
        constructor
        · rintro ⟨a, b, e⟩
          cases a with
          | nil => exact absurd (List.isPrefixOf_iff_prefix.mpr ⟨b, by simpa using e.symm⟩) hp
          | cons d a =>
            simp at e
            exact ⟨a, b, by simpa using e.2⟩
        · rintro ⟨a, b, e⟩
          exact ⟨c :: a, b, by simp [e]⟩
  rw [hf]
  have hall : ∀ c ∈ Proofs.listed, IsLibraryCode c →
      ((findSub b!"timed out" (errorMessage c)).isSome = true ↔ IsTimeoutCode c) := by decide +kernel
  exact hall c (Proofs.listed_mem c (Or.inl h)) h

example : errorMessage (-88) = b!"The RCPT TO command timed out" ∧ IsLibraryCode (-88) ∧ ¬ IsLibraryCode (-11) ∧
    errorMessage 1 = b!"No message correspond to this error code" := by decide +kernel

/-- **C25** (memory). For every code and every buffer of at least `n > 0` bytes: nothing is written outside it, only its first
`n` bytes can change, and it then holds, NUL-terminated within those `n` bytes, the longest prefix of the message that fits. -/
theorem C25_writes_longest_prefix (c : Int) (mem : Bytes) (n : Nat) (hn : 0 < n) (hlen : n ≤ mem.length) :
    ∃ r mem', getErrorMessageR c (some mem) n = some (r, some mem') ∧ mem'.length = mem.length ∧
      mem'.drop n = mem.drop n ∧ (0 : UInt8) ∈ mem'.take n ∧ cstr mem' = (errorMessage c).take (n - 1) := by
  have hz := Proofs.errorMessage_no_nul c
  have hcs : ∀ (m : Bytes) (k : Nat), (0 : UInt8) ∉ m → cstr (m.take k ++ 0 :: mem.drop n) = m.take k := fun m k h =>
    Proofs.cstr_append (fun hh => h (List.mem_of_mem_take hh))
  unfold getErrorMessageR
  simp only
  rw [if_neg (by omega)]
  by_cases hlong : n - 1 < (errorMessage c).length
  · rw [if_pos hlong]
    have h1 : ((errorMessage c).take (n - 1)).length = n - 1 := by simp; omega
    have hw1 : writeAt mem 0 ((errorMessage c).take (n - 1)) = some ((errorMessage c).take (n - 1) ++ mem.drop (n - 1)) := by
      rw [writeAt, if_pos (by omega), h1]; simp
    have hw2 : writeAt ((errorMessage c).take (n - 1) ++ mem.drop (n - 1)) (n - 1) [0]
        = some ((errorMessage c).take (n - 1) ++ 0 :: mem.drop n) := by
      rw [writeAt, if_pos (by rw [List.length_append, h1, List.length_drop]; simp; omega)]
      rw [List.take_append_of_le_length (by omega), List.drop_append, h1]
      have : n - 1 + [(0 : UInt8)].length = n := by simp; omega
      rw [this, List.take_of_length_le (by omega), List.drop_of_length_le (by omega), List.drop_drop]
      have : n - 1 + (n - (n - 1)) = n := by omega
      simp [this]
    simp only [hw1, hw2]
    refine ⟨_, _, rfl, ?_, ?_, ?_, ?_⟩
    · simp only [List.length_append, h1, List.length_cons, List.length_drop]; omega
    · have : (errorMessage c).take (n - 1) ++ 0 :: mem.drop n = ((errorMessage c).take (n - 1) ++ [0]) ++ mem.drop n := by simp
      rw [this, List.drop_append_of_le_length (by simp; omega), List.drop_of_length_le (by simp; omega)]; simp
    · have : (errorMessage c).take (n - 1) ++ 0 :: mem.drop n = ((errorMessage c).take (n - 1) ++ [0]) ++ mem.drop n := by simp
      rw [this, List.take_append_of_le_length (by simp; omega), List.take_of_length_le (by simp; omega)]; simp
    · exact Proofs.cstr_append (fun hh => hz (List.mem_of_mem_take hh))
  · rw [if_neg hlong]
    have hw1 : writeAt mem 0 (errorMessage c) = some (errorMessage c ++ mem.drop (errorMessage c).length) := by
      rw [writeAt, if_pos (by omega)]; simp
    have hw2 : writeAt (errorMessage c ++ mem.drop (errorMessage c).length) (errorMessage c).length [0]
        = some (errorMessage c ++ 0 :: mem.drop ((errorMessage c).length + 1)) := by
      rw [writeAt, if_pos (by rw [List.length_append, List.length_drop]; simp; omega)]
      simp [List.drop_append, List.drop_drop]
    simp only [hw1, hw2]
    refine ⟨_, _, rfl, ?_, ?_, ?_, ?_⟩
    · simp only [List.length_append, List.length_cons, List.length_drop]; omega
    · have : errorMessage c ++ 0 :: mem.drop ((errorMessage c).length + 1)
          = (errorMessage c ++ [0]) ++ mem.drop ((errorMessage c).length + 1) := by simp
      rw [this, List.drop_append, List.drop_of_length_le (by simp; omega), List.drop_drop]
      simp only [List.length_append, List.length_cons, List.length_nil, List.nil_append]
      congr 1; omega
    · have : errorMessage c ++ 0 :: mem.drop ((errorMessage c).length + 1)
          = (errorMessage c ++ [0]) ++ mem.drop ((errorMessage c).length + 1) := by simp
      rw [this, List.take_append, List.take_of_length_le (by simp; omega)]; simp
    · rw [Proofs.cstr_append hz, List.take_of_length_le (by omega)]

/-- **C25** (return value, exact). 0 iff the whole message fits or `n = 1`; otherwise the number of characters copied. -/
theorem C25_return_value_exact (c : Int) (mem : Bytes) (n : Nat) (hn : 0 < n)
    (r : Int) (m : Option Bytes) (h : getErrorMessageR c (some mem) n = some (r, m)) :
    (r = 0 ↔ (errorMessage c).length ≤ n - 1 ∨ n = 1) ∧ (r ≠ 0 → r = (n - 1 : Nat)) := by
  unfold getErrorMessageR at h
  simp only at h
  rw [if_neg (by omega)] at h
  by_cases hlong : n - 1 < (errorMessage c).length
  · rw [if_pos hlong] at h
    cases hw1 : writeAt mem 0 ((errorMessage c).take (n - 1)) with
    | none => simp [hw1] at h
    | some m1 =>
      simp only [hw1] at h
      cases hw2 : writeAt m1 (n - 1) [0] with
      | none => simp [hw2] at h
      | some m2 =>
        simp only [hw2, Option.some.injEq, Prod.mk.injEq] at h
        rw [← h.1]
        refine ⟨?_, fun _ => rfl⟩
        constructor
        · intro h0; right; omega
        · intro h0; omega
  · rw [if_neg hlong] at h
    cases hw1 : writeAt mem 0 (errorMessage c) with
    | none => simp [hw1] at h
    | some m1 =>
      simp only [hw1] at h
      cases hw2 : writeAt m1 (errorMessage c).length [0] with
      | none => simp [hw2] at h
      | some m2 =>
        simp only [hw2, Option.some.injEq, Prod.mk.injEq] at h
        rw [← h.1]
        exact ⟨⟨fun _ => Or.inl (by omega), fun _ => rfl⟩, fun h0 => absurd rfl h0⟩

/-- **C25, partial** (return value). For `n ≥ 2` the value is 0 iff the whole message was copied. Missing: `n = 1`, where it is
false (next theorem). -/
theorem C25_return_value_partial (c : Int) (mem : Bytes) (n : Nat) (hn : 2 ≤ n)
    (r : Int) (m : Option Bytes) (h : getErrorMessageR c (some mem) n = some (r, m)) :
    r = 0 ↔ (errorMessage c).length ≤ n - 1 := by
  rw [(C25_return_value_exact c mem n (by omega) r m h).1]
  omega

/-- **C25, refuted** (return value). With `n = 1` every message is cut to nothing and 0 is returned all the same. -/
theorem C25_return_value_fails (c : Int) (b : UInt8) : getErrorMessageR c (some [b]) 1 = some (0, some [0]) ∧
    ¬ (errorMessage c).length ≤ 0 := by
  have hne := Proofs.errorMessage_ne_nil c
  cases h : errorMessage c with
  | nil => exact absurd h hne
  | cons x xs => simp [getErrorMessageR, h, writeAt]

/-- **C25.** Null pointer or zero length: -1, nothing written. -/
theorem C25_rejects (c : Int) (mem : Bytes) (n : Nat) :
    getErrorMessageR c none n = some (-1, none) ∧ getErrorMessageR c (some mem) 0 = some (-1, some mem) := ⟨rfl, rfl⟩

example : getErrorMessageR (-2) (some (List.replicate 12 7)) 10 = some (9, some (b!"Unable to" ++ [0, 7, 7])) ∧
    getErrorMessageR (-2) (some (List.replicate 34 7)) 34 = some (0, some (b!"Unable to connect to the socket" ++ [0, 7, 7])) := by
  decide +kernel

end Verif.Props
