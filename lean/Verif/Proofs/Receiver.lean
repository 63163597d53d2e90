import Verif.Spec.Receiver
import Verif.Spec.Delivery
import Verif.Proofs.Lines
import Verif.Proofs.Base64
/-! Helper lemmas about the receiver. -/
namespace Verif.Proofs
open Verif Verif.Model Verif.Spec

/-! ### Lines and CRLF -/

theorem crlfFree_tail {c : UInt8} {s : Bytes} (h : CrlfFree (c :: s)) : CrlfFree s := by
  rintro ⟨a, b, rfl⟩
  exact h ⟨c :: a, b, rfl⟩

theorem lines_crlfFree {s : Bytes} (h : CrlfFree s) : lines s = [s] := by
  induction s using lines.induct with
  | case1 => rfl
  | case2 => rfl
  | case3 c d rest hc ih => exact absurd ⟨[], rest, by simp [hc.1, hc.2]⟩ h
  | case4 c d rest hc ih => rw [lines, if_neg hc, ih (crlfFree_tail h)]; rfl

theorem lines_singleton {s l : Bytes} (h : lines s = [l]) : CrlfFree s ∧ l = s := by
  have hj := lines_join s
  rw [h] at hj
  have hl : l = s := by simpa [List.intercalate] using hj
  subst hl
  refine ⟨?_, rfl⟩
  rintro ⟨a, b, rfl⟩
  have : lines (a ++ [13, 10] ++ b) = lines a ++ lines b := by
    have := lines_append_sep a b
    simpa using this
  rw [this] at h
  have h1 : (lines a).length + (lines b).length = 1 := by rw [← List.length_append, h]; rfl
  have h2 := List.length_pos_iff.mpr (lines_ne_nil a)
  have h3 := List.length_pos_iff.mpr (lines_ne_nil b)
  omega

/-- A text is one line exactly when it has no CRLF. -/
theorem lines_one_iff (s : Bytes) : lines s = [s] ↔ CrlfFree s := ⟨fun h => (lines_singleton h).1, lines_crlfFree⟩

/-- CRLF in a concatenation lies in one of the parts when it cannot lie across the border. -/
theorem crlfFree_append {a b : Bytes} (h : a.getLast? ≠ some 13 ∨ b.head? ≠ some 10) :
    CrlfFree (a ++ b) ↔ CrlfFree a ∧ CrlfFree b := by
  constructor
  · intro hf
    refine ⟨?_, ?_⟩
    · rintro ⟨x, y, rfl⟩; exact hf ⟨x, y ++ b, by simp⟩
    · rintro ⟨x, y, rfl⟩; exact hf ⟨a ++ x, y, by simp⟩
  · rintro ⟨ha, hb⟩ ⟨x, y, hxy⟩
    rw [List.append_assoc] at hxy
    rcases List.append_eq_append_iff.mp hxy with ⟨z, hx, hz⟩ | ⟨z, rfl, hz⟩
    · exact hb ⟨z, y, by rw [hz, List.append_assoc]⟩
    · -- z ++ b = [13,10] ++ y
      match z, hz with
      | [], hz => exact hb ⟨[], y, by simpa using hz.symm⟩
      | [c], hz =>
        simp only [List.cons_append, List.nil_append] at hz
        injection hz with hc hz
        subst hc
        rcases h with h | h
        · exact h (by simp)
        · exact h (by rw [← hz]; rfl)
      | c :: d :: z', hz =>
        simp only [List.cons_append, List.nil_append] at hz
        injection hz with hc hz
        injection hz with hd hz
        subst hc hd
        exact ha ⟨x, z', by simp⟩

/-- A text that holds no CR holds no CRLF. -/
theorem crlfFree_noCR {s : Bytes} (h : 13 ∉ s) : CrlfFree s := by
  rintro ⟨a, b, rfl⟩
  exact h (by simp)

/-- A text that holds no LF holds no CRLF. -/
theorem crlfFree_noLF {s : Bytes} (h : 10 ∉ s) : CrlfFree s := by
  rintro ⟨a, b, rfl⟩
  exact h (by simp)

theorem noBreak_crlfFree {s : Bytes} (h : NoBreak s) : CrlfFree s := crlfFree_noCR fun hm => (h 13 hm).1 rfl

/-! ### Transparency -/

theorem unstuff_eq {l : Bytes} : unstuff l = l ↔ l.head? ≠ some 46 := by
  cases l with
  | nil => simp [unstuff]
  | cons c l =>
    unfold unstuff
    by_cases h : c = 46
    · subst h
      simp only [if_true, List.head?_cons, ne_eq, not_true_eq_false, iff_false]
      intro hl
      have := congrArg List.length hl
      simp at this
    · simp [h]

theorem receive_iff (ls r : List Bytes) : receive (ls ++ [46] :: r) = some (ls, r) ↔ ∀ l ∈ ls, l.head? ≠ some 46 := by
  induction ls with
  | nil => simp [receive]
  | cons l ls ih =>
    rw [List.cons_append, receive]
    by_cases h : l = [46]
    · subst h
      simp
    · rw [if_neg h]
      constructor
      · intro hr
        obtain ⟨x, hx, he⟩ := Option.map_eq_some_iff.mp hr
        injection he with h1 h2
        injection h1 with h3 h4
        have : receive (ls ++ [46] :: r) = some (ls, r) := by rw [hx, ← h4, ← h2]
        intro l' hl'
        rcases List.mem_cons.mp hl' with rfl | hl'
        · exact unstuff_eq.mp h3
        · exact ih.mp this l' hl'
      · intro hall
        rw [ih.mpr (fun l' hl' => hall l' (List.mem_cons_of_mem _ hl'))]
        simp [unstuff_eq.mpr (hall l (List.mem_cons_self ..))]

/-! ### Header section -/

theorem dropWhile_append_of_all {β : Type} {p : β → Bool} {a b : List β} (h : ∀ x ∈ a, p x = true) : (a ++ b).dropWhile p = b.dropWhile p := by
  induction a with
  | nil => rfl
  | cons x a ih =>
    rw [List.cons_append, List.dropWhile_cons, if_pos (h x (by simp)), ih fun y hy => h y (by simp [hy])]

theorem headerSection_append {a b : List Bytes} (h : ∀ l ∈ a, l ≠ []) : headerSection (a ++ [] :: b) = a := by
  unfold headerSection
  rw [List.takeWhile_append_of_pos (by simpa using h)]
  simp

theorem afterHeader_append {a b : List Bytes} (h : ∀ l ∈ a, l ≠ []) : afterHeader (a ++ [] :: b) = b := by
  unfold afterHeader
  rw [dropWhile_append_of_all (by simpa using h)]
  simp

/-- A header line without its line end. -/
def fieldBare (f : Bytes × Bytes) : Bytes := f.1 ++ b!": " ++ f.2

theorem fieldBare_ne (f : Bytes × Bytes) : fieldBare f ≠ [] := by simp [fieldBare]

theorem lines_fields (fs : List (Bytes × Bytes)) (t : Bytes) :
    lines ((fs.map fieldLine).flatten ++ b!"\r\n" ++ t) = (fs.map fun f => lines (fieldBare f)).flatten ++ [] :: lines t := by
  induction fs with
  | nil => exact lines_crlf t
  | cons f fs ih =>
    have : ((f :: fs).map fieldLine).flatten ++ b!"\r\n" ++ t = fieldBare f ++ 13 :: 10 :: ((fs.map fieldLine).flatten ++ b!"\r\n" ++ t) := by
      simp [fieldLine, fieldBare]
    rw [this, lines_append_sep, ih]
    simp

theorem header_lines {m : Message} {t : Bytes} (h : ∀ f ∈ fields m, CrlfFree (fieldBare f)) :
    lines (headerText m ++ t) = (fields m).map fieldBare ++ [] :: lines t := by
  unfold headerText
  rw [lines_fields]
  congr 1
  generalize fields m = fs at h
  induction fs with
  | nil => rfl
  | cons f fs ih =>
    rw [List.map_cons, List.flatten_cons, lines_crlfFree (h f (by simp)), ih fun g hg => h g (by simp [hg])]
    rfl

theorem header_section_iff (m : Message) (t : Bytes) :
    headerSection (lines (headerText m ++ t)) = (fields m).map fieldBare ↔ ∀ f ∈ fields m, CrlfFree (fieldBare f) := by
  constructor
  · unfold headerText
    rw [lines_fields]
    generalize fields m = fs
    intro h
    induction fs with
    | nil => simp
    | cons f fs ih =>
      rw [List.map_cons, List.flatten_cons, List.append_assoc] at h
      cases hl : lines (fieldBare f) with
      | nil => exact absurd hl (lines_ne_nil _)
      | cons l ls =>
        rw [hl] at h
        rw [List.cons_append, headerSection, List.takeWhile_cons] at h
        by_cases hne : l = []
        · simp [hne] at h
        · rw [if_pos (by simpa using hne), List.map_cons] at h
          injection h with h1 h2
          have hj := lines_join (fieldBare f)
          rw [hl] at hj
          have hls : ls = [] := by
            cases ls with
            | nil => rfl
            | cons l' ls =>
              exfalso
              rw [intercalate_cons_cons _ _ _ (by simp), h1] at hj
              have := congrArg List.length hj
              simp at this
          rw [hls] at hl h2
          have := lines_singleton hl
          rintro g hg
          rcases List.mem_cons.mp hg with rfl | hg
          · exact this.1
          · exact ih h2 g hg
  · intro h
    rw [header_lines h, headerSection_append]
    intro l hl
    obtain ⟨f, _, rfl⟩ := List.mem_map.mp hl
    exact fieldBare_ne f

/-! ### Base64 texts -/

theorem decodeQuads_alphabet (s out : Bytes) (h : Spec.Base64.decodeQuads s = some out) : ∀ c ∈ s, Spec.Base64.Alphabet c := by
  unfold Spec.Base64.decodeQuads at h
  split at h
  · simp
  · split at h
    · simp_all [Spec.Base64.Alphabet]
    · cases h
  · split at h
    · simp_all [Spec.Base64.Alphabet]
    · cases h
  · split at h
    · rename_i h1 h2 h3 h4 h5
      have ih := decodeQuads_alphabet _ _ h5
      simp_all [Spec.Base64.Alphabet]
    · cases h
  · cases h
termination_by s.length

/-- Text that decodes has only characters of the alphabet, CR and LF. -/
theorem decode_alphabet {s out : Bytes} (h : Spec.Base64.decode s = some out) : ∀ c ∈ s, Spec.Base64.Alphabet c ∨ c = 13 ∨ c = 10 := by
  intro c hc
  by_cases h1 : c = 13
  · exact .inr (.inl h1)
  by_cases h2 : c = 10
  · exact .inr (.inr h2)
  · exact .inl (decodeQuads_alphabet _ _ h c (by simp [List.mem_filter, hc, h1, h2]))

/-- So it has no hyphen and no period. -/
theorem decode_no_mark {s out : Bytes} (h : Spec.Base64.decode s = some out) : 45 ∉ s ∧ 46 ∉ s := by
  constructor
  all_goals
    intro hm
    rcases decode_alphabet h _ hm with h | h | h
    · revert h; simp [Spec.Base64.Alphabet, Spec.Base64.value]
    · cases h
    · cases h

theorem mem_lines {s l : Bytes} (h : l ∈ lines s) : ∀ c ∈ l, c ∈ s := by
  induction s using lines.induct generalizing l with
  | case1 => simp [lines] at h; simp [h]
  | case2 c => simp [lines] at h; simp [h]
  | case3 c d rest hc ih =>
    rw [lines, if_pos hc] at h
    rcases List.mem_cons.mp h with rfl | h
    · simp
    · intro x hx
      simp [ih h x hx]
  | case4 c d rest hc ih =>
    rw [lines, if_neg hc] at h
    cases hl : lines (d :: rest) with
    | nil => exact absurd hl (lines_ne_nil _)
    | cons l' ls =>
      rw [hl] at h ih
      rcases List.mem_cons.mp h with rfl | h
      · intro x hx
        rcases List.mem_cons.mp hx with rfl | hx
        · simp
        · exact List.mem_cons_of_mem _ (ih (List.mem_cons_self ..) x hx)
      · intro x hx
        exact List.mem_cons_of_mem _ (ih (List.mem_cons_of_mem _ h) x hx)

/-! ### Multipart -/

theorem close_delimiter {b l : Bytes} (h : IsClose b l) : IsDelimiter b l := by
  obtain ⟨t, rfl⟩ := h
  exact ⟨b!"--" ++ t, by simp⟩

theorem bodyParts_step {b : Bytes} {ls : List Bytes} (h : ∀ l ∈ ls, ¬ IsDelimiter b l) {d : Bytes} {rest : List Bytes}
    (hd : IsDelimiter b d) (hc : ¬ IsClose b d) : bodyParts b (ls ++ d :: rest) = (bodyParts b rest).map (ls :: ·) := by
  induction ls with
  | nil => simp [bodyParts, hc, hd]
  | cons l ls ih =>
    have hl := h l (by simp)
    rw [List.cons_append, bodyParts, if_neg (fun hc => hl (close_delimiter hc)), if_neg hl, ih fun l' hl' => h l' (by simp [hl'])]
    cases bodyParts b rest <;> simp [consPart]

theorem bodyParts_close {b : Bytes} {ls : List Bytes} (h : ∀ l ∈ ls, ¬ IsDelimiter b l) {d : Bytes} {rest : List Bytes}
    (hc : IsClose b d) : bodyParts b (ls ++ d :: rest) = some [ls] := by
  induction ls with
  | nil => simp [bodyParts, hc]
  | cons l ls ih =>
    have hl := h l (by simp)
    rw [List.cons_append, bodyParts, if_neg (fun hc => hl (close_delimiter hc)), if_neg hl, ih fun l' hl' => h l' (by simp [hl'])]
    simp [consPart]

theorem bodyParts_open {b : Bytes} {ls : List Bytes} (h : ∀ l ∈ ls, ¬ IsDelimiter b l) : bodyParts b ls = none := by
  induction ls with
  | nil => rfl
  | cons l ls ih =>
    have hl := h l (by simp)
    rw [bodyParts, if_neg (fun hc => hl (close_delimiter hc)), if_neg hl, ih fun l' hl' => h l' (by simp [hl'])]
    rfl

end Verif.Proofs
