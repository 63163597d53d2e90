import Verif.Model.Base64
import Verif.Spec.Base64
import Verif.Proofs.Byte
import Verif.Proofs.Lines
/-! Helper lemmas for the base64 theorems. -/
namespace Verif.Proofs.Base64
open Verif Verif.Model.Base64

theorem and_fc (a : Nat) (h : a < 256) : (a &&& 0xfc) >>> 2 = a / 4 := by
  revert a; exact forall_lt 256 (by decide +kernel)
theorem and_03 (a : Nat) (h : a < 256) : (a &&& 0x03) <<< 4 = a % 4 * 16 := by
  revert a; exact forall_lt 256 (by decide +kernel)
theorem and_f0 (a : Nat) (h : a < 256) : (a &&& 0xf0) >>> 4 = a / 16 := by
  revert a; exact forall_lt 256 (by decide +kernel)
theorem and_0f (a : Nat) (h : a < 256) : (a &&& 0x0f) <<< 2 = a % 16 * 4 := by
  revert a; exact forall_lt 256 (by decide +kernel)
theorem and_c0 (a : Nat) (h : a < 256) : (a &&& 0xc0) >>> 6 = a / 64 := by
  revert a; exact forall_lt 256 (by decide +kernel)
theorem and_3f (a : Nat) (h : a < 256) : a &&& 0x3f = a % 64 := by
  revert a; exact forall_lt 256 (by decide +kernel)
theorem shl_2 (a : Nat) (h : a < 64) : a <<< 2 = a * 4 := by
  revert a; exact forall_lt 64 (by decide +kernel)
theorem and_30 (a : Nat) (h : a < 64) : (a &&& 0x30) >>> 4 = a / 16 := by
  revert a; exact forall_lt 64 (by decide +kernel)
theorem and_f4 (a : Nat) (h : a < 64) : (a &&& 0xf) <<< 4 = a % 16 * 16 := by
  revert a; exact forall_lt 64 (by decide +kernel)
theorem and_3c (a : Nat) (h : a < 64) : (a &&& 0x3c) >>> 2 = a / 4 := by
  revert a; exact forall_lt 64 (by decide +kernel)
theorem and_36 (a : Nat) (h : a < 64) : (a &&& 0x3) <<< 6 = a % 4 * 64 := by
  revert a; exact forall_lt 64 (by decide +kernel)

theorem split3_eq (a b c : Nat) (ha : a < 256) (hb : b < 256) (hc : c < 256) :
    split3 a b c = (a / 4, a % 4 * 16 + b / 16, b % 16 * 4 + c / 64, c % 64) := by
  simp only [split3, and_fc a ha, and_03 a ha, and_f0 b hb, and_0f b hb, and_c0 c hc, and_3f c hc]

theorem join4_eq (p q r s : Nat) (hp : p < 64) (hq : q < 64) (hr : r < 64) :
    join4 p q r s = (UInt8.ofNat (p * 4 + q / 16), UInt8.ofNat (q % 16 * 16 + r / 4), UInt8.ofNat (r % 4 * 64 + s)) := by
  simp only [join4, shl_2 p hp, and_30 q hq, and_f4 q hq, and_3c r hr, and_36 r hr]

theorem value_charAt (i : Nat) (h : i < 64) : Spec.Base64.value (charAt i) = some i := by
  revert i; exact forall_lt 64 (by decide +kernel)
theorem indexOf_charAt (i : Nat) (h : i < 64) : indexOf (charAt i) = i := by
  revert i; exact forall_lt 64 (by decide +kernel)
theorem isBase64_charAt (i : Nat) (h : i < 64) : isBase64 (charAt i) = true := by
  revert i; exact forall_lt 64 (by decide +kernel)
theorem charAt_ne (i : Nat) (h : i < 64) : charAt i ≠ 61 ∧ charAt i ≠ 13 ∧ charAt i ≠ 10 ∧ charAt i ≠ 0 := by
  revert i; exact forall_lt 64 (by decide +kernel)

theorem toNat_lt (a : UInt8) : a.toNat < 256 := a.toNat_lt

theorem ofNat_eq {a : UInt8} {n : Nat} (h : n = a.toNat) : UInt8.ofNat n = a := by
  subst h; simp

/-- The four characters of a full group. -/
def group (a b c : UInt8) : Bytes :=
  [charAt (a.toNat / 4), charAt (a.toNat % 4 * 16 + b.toNat / 16), charAt (b.toNat % 16 * 4 + c.toNat / 64),
   charAt (c.toNat % 64)]

theorem encodeFrom_cons (a b c : UInt8) (rest : Bytes) (n : Nat) :
    encodeFrom (a :: b :: c :: rest) n =
      group a b c ++ ((if (n + 4) % (64 * 1024) = 0 then b!"\r\n" else []) ++ encodeFrom rest (n + 4)) := by
  simp only [encodeFrom, split3_eq _ _ _ (toNat_lt a) (toNat_lt b) (toNat_lt c), group, List.append_assoc]

theorem encodeFrom_two (a b : UInt8) (n : Nat) :
    encodeFrom [a, b] n =
      [charAt (a.toNat / 4), charAt (a.toNat % 4 * 16 + b.toNat / 16), charAt (b.toNat % 16 * 4), 61] := by
  simp [encodeFrom, split3_eq _ _ 0 (toNat_lt a) (toNat_lt b) (by omega)]

theorem encodeFrom_one (a : UInt8) (n : Nat) :
    encodeFrom [a] n = [charAt (a.toNat / 4), charAt (a.toNat % 4 * 16), 61, 61] := by
  simp [encodeFrom, split3_eq _ 0 0 (toNat_lt a) (by omega) (by omega)]

/-- Every character of a full group is a non-padding character of the alphabet. -/
theorem mem_group {a b c x : UInt8} (h : x ∈ group a b c) : ∃ i, i < 64 ∧ x = charAt i := by
  have ha := toNat_lt a; have hb := toNat_lt b; have hc := toNat_lt c
  simp only [group, List.mem_cons, List.not_mem_nil, or_false] at h
  rcases h with h | h | h | h
  · exact ⟨_, by omega, h⟩
  · exact ⟨_, by omega, h⟩
  · exact ⟨_, by omega, h⟩
  · exact ⟨_, by omega, h⟩

theorem filter_group (a b c : UInt8) : (group a b c).filter (fun c => c != 13 && c != 10) = group a b c := by
  apply List.filter_eq_self.mpr
  intro x hx
  obtain ⟨i, hi, rfl⟩ := mem_group hx
  have := charAt_ne i hi
  simp [this.2.1, this.2.2.1]

theorem decodeQuads_full (p q r s : UInt8) (rest : Bytes) (hs : s ≠ 61) :
    Spec.Base64.decodeQuads (p :: q :: r :: s :: rest) =
      match Spec.Base64.value p, Spec.Base64.value q, Spec.Base64.value r, Spec.Base64.value s,
        Spec.Base64.decodeQuads rest with
      | some p, some q, some r, some s, some out =>
        some (Spec.Base64.bytes3 (p * 2 ^ 18 + q * 2 ^ 12 + r * 2 ^ 6 + s) ++ out)
      | _, _, _, _, _ => none := by
  rw [Spec.Base64.decodeQuads]
  · rfl
  · intro _ h1 _; exact absurd h1 hs
  · intro h1 _; exact absurd h1 hs

theorem decodeQuads_group (a b c : UInt8) (rest out : Bytes) (h : Spec.Base64.decodeQuads rest = some out) :
    Spec.Base64.decodeQuads (group a b c ++ rest) = some (a :: b :: c :: out) := by
  have ha := toNat_lt a; have hb := toNat_lt b; have hc := toNat_lt c
  simp only [group, List.cons_append, List.nil_append]
  rw [decodeQuads_full _ _ _ _ _ (charAt_ne _ (by omega)).1,
    value_charAt _ (by omega), value_charAt _ (by omega), value_charAt _ (by omega), value_charAt _ (by omega), h]
  simp only [Spec.Base64.bytes3, List.cons_append, List.nil_append]
  rw [ofNat_eq (a := a) (by omega), ofNat_eq (a := b) (by omega), ofNat_eq (a := c) (by omega)]

theorem spec_decode_encodeFrom (s : Bytes) (n : Nat) :
    Spec.Base64.decodeQuads ((encodeFrom s n).filter fun c => c != 13 && c != 10) = some s := by
  induction s, n using encodeFrom.induct with
  | case1 a b c rest n _ _ _ _ _ ih =>
    rw [encodeFrom_cons, List.filter_append, filter_group, List.filter_append]
    have : (if (n + 4) % (64 * 1024) = 0 then (b!"\r\n") else []).filter (fun c => c != 13 && c != 10) = [] := by
      split <;> decide
    rw [this, List.nil_append]
    exact decodeQuads_group a b c _ _ ih
  | case2 a b n =>
    have ha := toNat_lt a; have hb := toNat_lt b
    rw [encodeFrom_two]
    rw [List.filter_eq_self.mpr]
    · rw [Spec.Base64.decodeQuads]
      · rw [value_charAt _ (by omega), value_charAt _ (by omega), value_charAt _ (by omega)]
        have h4 : b.toNat % 16 * 4 % 4 = 0 := by omega
        simp only [h4, if_true, Spec.Base64.bytes3, List.take]
        rw [ofNat_eq (a := a) (by omega), ofNat_eq (a := b) (by omega)]
      · intro h; exact absurd h (charAt_ne _ (by omega)).1
    · intro x hx
      simp only [List.mem_cons, List.not_mem_nil, or_false] at hx
      rcases hx with h | h | h | h <;> subst h
      · have := charAt_ne (a.toNat / 4) (by omega); simp [this.2.1, this.2.2.1]
      · have := charAt_ne (a.toNat % 4 * 16 + b.toNat / 16) (by omega); simp [this.2.1, this.2.2.1]
      · have := charAt_ne (b.toNat % 16 * 4) (by omega); simp [this.2.1, this.2.2.1]
      · decide
  | case3 a n =>
    have ha := toNat_lt a
    rw [encodeFrom_one]
    rw [List.filter_eq_self.mpr]
    · rw [Spec.Base64.decodeQuads, value_charAt _ (by omega), value_charAt _ (by omega)]
      have h4 : a.toNat % 4 * 16 % 16 = 0 := by omega
      simp only [h4, if_true, Spec.Base64.bytes3, List.take]
      rw [ofNat_eq (a := a) (by omega)]
    · intro x hx
      simp only [List.mem_cons, List.not_mem_nil, or_false] at hx
      rcases hx with h | h | h | h <;> subst h
      · have := charAt_ne (a.toNat / 4) (by omega); simp [this.2.1, this.2.2.1]
      · have := charAt_ne (a.toNat % 4 * 16) (by omega); simp [this.2.1, this.2.2.1]
      · decide
      · decide
  | case4 n => rfl

end Verif.Proofs.Base64

namespace Verif.Proofs.Base64
open Verif Verif.Model.Base64

/-- The loop condition of `Decode`. -/
def ok (c : UInt8) : Bool := c != 61 && isBase64 c

theorem ok_charAt (i : Nat) (h : i < 64) : ok (charAt i) = true := by
  simp [ok, isBase64_charAt i h, (charAt_ne i h).1]

theorem ok_group {a b c x : UInt8} (h : x ∈ group a b c) : ok x = true := by
  obtain ⟨i, hi, rfl⟩ := mem_group h
  exact ok_charAt i hi

theorem takeWhile_append_all {p : UInt8 → Bool} (l r : Bytes) (h : ∀ x ∈ l, p x = true) :
    (l ++ r).takeWhile p = l ++ r.takeWhile p := by
  induction l with
  | nil => rfl
  | cons x l ih =>
    rw [List.cons_append, List.takeWhile_cons, h x (by simp)]
    simp [ih (fun y hy => h y (by simp [hy]))]

theorem decodeGroups_group (a b c : UInt8) (rest : Bytes) :
    decodeGroups (group a b c ++ rest) = a :: b :: c :: decodeGroups rest := by
  have ha := toNat_lt a; have hb := toNat_lt b; have hc := toNat_lt c
  simp only [group, List.cons_append, List.nil_append, decodeGroups]
  rw [indexOf_charAt _ (by omega), indexOf_charAt _ (by omega), indexOf_charAt _ (by omega),
    indexOf_charAt _ (by omega), join4_eq _ _ _ _ (by omega) (by omega) (by omega)]
  simp only
  rw [ofNat_eq (a := a) (by omega), ofNat_eq (a := b) (by omega), ofNat_eq (a := c) (by omega)]

theorem decode_encodeFrom (s : Bytes) (n : Nat) (hn : n % 4 = 0) (hlt : n < 65536) :
    decodeGroups ((encodeFrom s n).takeWhile ok) = s.take ((65536 - n) / 4 * 3) := by
  induction s, n using encodeFrom.induct with
  | case1 a b c rest n _ _ _ _ _ ih =>
    rw [encodeFrom_cons, takeWhile_append_all _ _ (fun x hx => ok_group hx), decodeGroups_group]
    by_cases hlast : n + 4 = 65536
    · have h0 : (n + 4) % (64 * 1024) = 0 := by omega
      have h1 : (65536 - n) / 4 * 3 = 3 := by omega
      have h2 : ok 13 = false := by decide
      rw [if_pos h0, h1]
      simp [h2, decodeGroups]
    · have h0 : ¬ (n + 4) % (64 * 1024) = 0 := by omega
      have h1 : (65536 - n) / 4 * 3 = (65536 - (n + 4)) / 4 * 3 + 3 := by omega
      rw [if_neg h0, List.nil_append, ih (by omega) (by omega), h1]
      simp
  | case2 a b n =>
    have ha := toNat_lt a; have hb := toNat_lt b
    have h2 : ok 61 = false := by decide
    rw [encodeFrom_two]
    simp only [List.takeWhile_cons, ok_charAt (a.toNat / 4) (by omega),
      ok_charAt (a.toNat % 4 * 16 + b.toNat / 16) (by omega), ok_charAt (b.toNat % 16 * 4) (by omega), h2, if_true,
      Bool.false_eq_true, if_false, decodeGroups]
    have hi0 : indexOf 0 = 255 := by decide
    rw [indexOf_charAt _ (by omega), indexOf_charAt _ (by omega), indexOf_charAt _ (by omega),
      join4_eq _ _ _ _ (by omega) (by omega) (by omega)]
    simp only
    rw [ofNat_eq (a := a) (by omega), ofNat_eq (a := b) (by omega)]
    rw [List.take_of_length_le]
    · simp; omega
  | case3 a n =>
    have ha := toNat_lt a
    have h2 : ok 61 = false := by decide
    rw [encodeFrom_one]
    simp only [List.takeWhile_cons, ok_charAt (a.toNat / 4) (by omega),
      ok_charAt (a.toNat % 4 * 16) (by omega), h2, if_true, Bool.false_eq_true, if_false, decodeGroups]
    rw [indexOf_charAt _ (by omega), indexOf_charAt _ (by omega)]
    simp only [join4, shl_2 _ (show a.toNat / 4 < 64 by omega), and_30 _ (show a.toNat % 4 * 16 < 64 by omega)]
    rw [ofNat_eq (a := a) (by omega)]
    rw [List.take_of_length_le]
    · simp; omega
  | case4 n => simp [encodeFrom, decodeGroups]

theorem length_encodeFrom (s : Bytes) (n : Nat) (hn : n % 4 = 0) :
    (encodeFrom s n).length + 2 * (n / 65536) =
      4 * ((s.length + 2) / 3) + 2 * ((n + 4 * (s.length / 3)) / 65536) := by
  induction s, n using encodeFrom.induct with
  | case1 a b c rest n _ _ _ _ _ ih =>
    have ih := ih (by omega)
    rw [encodeFrom_cons, List.length_append, List.length_append]
    have hg : (group a b c).length = 4 := rfl
    rw [hg]
    simp only [List.length_cons] at ih ⊢
    split
    · rename_i h
      simp only [List.length_cons, List.length_nil]
      omega
    · rename_i h
      simp only [List.length_nil]
      omega
  | case2 a b n => rw [encodeFrom_two]; simp
  | case3 a n => rw [encodeFrom_one]; simp
  | case4 n => simp [encodeFrom]

/-- Every byte of the output is a character of the alphabet, padding, CR or LF. -/
theorem mem_encodeFrom (s : Bytes) (n : Nat) (x : UInt8) (h : x ∈ encodeFrom s n) :
    (∃ i, i < 64 ∧ x = charAt i) ∨ x = 61 ∨ x = 13 ∨ x = 10 := by
  induction s, n using encodeFrom.induct with
  | case1 a b c rest n _ _ _ _ _ ih =>
    rw [encodeFrom_cons, List.mem_append, List.mem_append] at h
    rcases h with h | h | h
    · exact Or.inl (mem_group h)
    · split at h
      · simp only [List.mem_cons, List.not_mem_nil, or_false] at h
        rcases h with h | h
        · exact Or.inr (Or.inr (Or.inl h))
        · exact Or.inr (Or.inr (Or.inr h))
      · simp at h
    · exact ih h
  | case2 a b n =>
    have ha := toNat_lt a; have hb := toNat_lt b
    rw [encodeFrom_two] at h
    simp only [List.mem_cons, List.not_mem_nil, or_false] at h
    rcases h with h | h | h | h
    · exact Or.inl ⟨_, by omega, h⟩
    · exact Or.inl ⟨_, by omega, h⟩
    · exact Or.inl ⟨_, by omega, h⟩
    · exact Or.inr (Or.inl h)
  | case3 a n =>
    have ha := toNat_lt a
    rw [encodeFrom_one] at h
    simp only [List.mem_cons, List.not_mem_nil, or_false] at h
    rcases h with h | h | h | h
    · exact Or.inl ⟨_, by omega, h⟩
    · exact Or.inl ⟨_, by omega, h⟩
    · exact Or.inr (Or.inl h)
    · exact Or.inr (Or.inl h)
  | case4 n => simp [encodeFrom] at h

theorem ne13_group {a b c x : UInt8} (h : x ∈ group a b c) : x ≠ 13 := by
  obtain ⟨i, hi, rfl⟩ := mem_group h
  exact (charAt_ne i hi).2.1

theorem lines_encodeFrom (s : Bytes) (n : Nat) (hn : n % 4 = 0) :
    ∃ l ls, Spec.lines (encodeFrom s n) = l :: ls ∧ l.length + n % 65536 ≤ 65536 ∧
      ∀ x ∈ ls, x.length ≤ 65536 := by
  induction s, n using encodeFrom.induct with
  | case1 a b c rest n _ _ _ _ _ ih =>
    obtain ⟨l, ls, h1, h2, h3⟩ := ih (by omega)
    rw [encodeFrom_cons]
    split
    · rename_i h0
      refine ⟨group a b c, l :: ls, ?_, ?_, ?_⟩
      · rw [List.cons_append, List.cons_append, List.nil_append,
          lines_append_crlf _ _ (fun x hx => ne13_group hx), h1]
      · have hg : (group a b c).length = 4 := rfl
        omega
      · intro x hx
        rcases List.mem_cons.mp hx with rfl | hx
        · omega
        · exact h3 x hx
    · rename_i h0
      obtain ⟨l', ls', h1', h2'⟩ := lines_append_noCR (group a b c) (encodeFrom rest (n + 4)) (fun x hx => ne13_group hx)
      rw [h1] at h1'
      cases h1'
      refine ⟨group a b c ++ l, ls, by simpa using h2', ?_, h3⟩
      have hg : (group a b c).length = 4 := rfl
      simp only [List.length_append]
      omega
  | case2 a b n =>
    have ha := toNat_lt a; have hb := toNat_lt b
    refine ⟨_, [], lines_noCR _ ?_, ?_, by simp⟩
    · rw [encodeFrom_two]
      intro x hx
      simp only [List.mem_cons, List.not_mem_nil, or_false] at hx
      rcases hx with h | h | h | h <;> subst h
      · exact (charAt_ne _ (by omega)).2.1
      · exact (charAt_ne _ (by omega)).2.1
      · exact (charAt_ne _ (by omega)).2.1
      · decide
    · rw [encodeFrom_two]; simp; omega
  | case3 a n =>
    have ha := toNat_lt a
    refine ⟨_, [], lines_noCR _ ?_, ?_, by simp⟩
    · rw [encodeFrom_one]
      intro x hx
      simp only [List.mem_cons, List.not_mem_nil, or_false] at hx
      rcases hx with h | h | h | h <;> subst h
      · exact (charAt_ne _ (by omega)).2.1
      · exact (charAt_ne _ (by omega)).2.1
      · decide
      · decide
    · rw [encodeFrom_one]; simp; omega
  | case4 n =>
    refine ⟨[], [], rfl, ?_, by simp⟩
    simp; omega

/-- Below 65536 output characters there is no line break. -/
theorem noBreak_encodeFrom (s : Bytes) (n : Nat) (hn : n % 4 = 0) (h : n + 4 * (s.length / 3) < 65536) :
    ∀ x ∈ encodeFrom s n, x ≠ 13 ∧ x ≠ 10 := by
  induction s, n using encodeFrom.induct with
  | case1 a b c rest n _ _ _ _ _ ih =>
    simp only [List.length_cons] at h
    intro x hx
    rw [encodeFrom_cons, if_neg (by omega), List.nil_append, List.mem_append] at hx
    rcases hx with hx | hx
    · obtain ⟨i, hi, rfl⟩ := mem_group hx
      exact ⟨(charAt_ne i hi).2.1, (charAt_ne i hi).2.2.1⟩
    · exact ih (by omega) (by omega) x hx
  | case2 a b n =>
    have ha := toNat_lt a; have hb := toNat_lt b
    rw [encodeFrom_two]
    intro x hx
    simp only [List.mem_cons, List.not_mem_nil, or_false] at hx
    rcases hx with h | h | h | h <;> subst h
    · exact ⟨(charAt_ne _ (by omega)).2.1, (charAt_ne _ (by omega)).2.2.1⟩
    · exact ⟨(charAt_ne _ (by omega)).2.1, (charAt_ne _ (by omega)).2.2.1⟩
    · exact ⟨(charAt_ne _ (by omega)).2.1, (charAt_ne _ (by omega)).2.2.1⟩
    · decide
  | case3 a n =>
    have ha := toNat_lt a
    rw [encodeFrom_one]
    intro x hx
    simp only [List.mem_cons, List.not_mem_nil, or_false] at hx
    rcases hx with h | h | h | h <;> subst h
    · exact ⟨(charAt_ne _ (by omega)).2.1, (charAt_ne _ (by omega)).2.2.1⟩
    · exact ⟨(charAt_ne _ (by omega)).2.1, (charAt_ne _ (by omega)).2.2.1⟩
    · decide
    · decide
  | case4 n => simp [encodeFrom]

end Verif.Proofs.Base64
