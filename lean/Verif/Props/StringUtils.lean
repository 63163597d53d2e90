import Verif.Proofs.StringUtils
/-!
# C04, C05: trimming and letter case
-/
namespace Verif.Props
open Verif Verif.Model Verif.Spec

/-- **C04.** Whenever `trim` returns, it returns the input without its surrounding white space, and only that. -/
theorem C04_trim_correct (s t : Bytes) (h : trim s = .ok t) : Trimmed s t := Proofs.trim_ok h

/-- **C04.** The specification leaves no freedom: there is one trimmed text. -/
theorem C04_trimmed_unique (s t t' : Bytes) (h : Trimmed s t) (h' : Trimmed s t') : t = t' := Proofs.Trimmed.unique h h'

/-- **C04.** `trim` returns exactly on the texts whose first and last byte that are not white space are in the domain of
`isspace`; otherwise it runs into undefined behaviour. -/
theorem C04_trim_defined_iff (s t : Bytes) (h : Trimmed s t) :
    trim s = .ok t ↔ ∀ c, t.head? = some c ∨ t.getLast? = some c → InCtypeDomain c := by
  constructor
  · intro ht c hc
    obtain ⟨⟨a, b, e, ha, hb⟩, hf, hl⟩ := h
    unfold trim trimRight at ht
    cases h1 : trimLeft s with
    | error u => simp [h1] at ht
    | ok r =>
      simp only [h1] at ht
      cases h2 : trimLeft r.reverse with
      | error u => simp [h2] at ht
      | ok q =>
        simp only [h2, Except.ok.injEq] at ht
        -- a byte that `isspace` accepted
        have key : ∀ {x y : Bytes}, trimLeft x = .ok y → ∀ c, y.head? = some c → InCtypeDomain c := by
          intro x
          induction x with
          | nil => intro y hy; simp [trimLeft] at hy; subst hy; simp
          | cons d x ih =>
            intro y hy
            rw [trimLeft] at hy
            rcases Proofs.isspace_cases d with ⟨h1, _⟩ | ⟨h1, _, _⟩ | ⟨h1, _, h3⟩
            · simp [h1] at hy
            · simp only [h1] at hy; exact ih hy
            · simp only [h1, Except.ok.injEq] at hy
              subst hy
              intro c hc
              simp at hc; subst hc; exact h3
        rcases hc with hc | hc
        · apply key h1
          obtain ⟨⟨b', hb', _⟩, _⟩ := Proofs.trimLeft_ok h2
          have hr : r = t ++ b'.reverse := by
            have := congrArg List.reverse hb'
            simp only [List.reverse_reverse, List.reverse_append] at this
            rw [this, ht]
          rw [hr]
          cases t with
          | nil => simp at hc
          | cons d t => simpa using hc
        · apply key h2
          rw [← ht] at hc
          simpa using hc
  · intro hd
    obtain ⟨⟨a, b, e, ha, hb⟩, hf, hl⟩ := h
    rw [e]
    exact Proofs.trim_eq ha hb (fun c hc => ⟨hf c hc, hd c (Or.inl hc)⟩) (fun c hc => ⟨hl c hc, hd c (Or.inr hc)⟩)

/-- **C04.** ASCII texts can always be trimmed. -/
theorem C04_trim_ascii (s : Bytes) (h : ∀ c ∈ s, c < 128) : ∃ t, trim s = .ok t ∧ Trimmed s t := by
  have key : ∀ u : Bytes, (∀ c ∈ u, c < 128) → ∃ t, trimLeft u = .ok t := by
    intro u hu
    cases ht : trimLeft u with
    | ok t => exact ⟨t, rfl⟩
    | error e =>
      obtain ⟨a, c, r, hs, _, hc⟩ := Proofs.trimLeft_error ht
      exact absurd (Or.inl (hu c (by rw [hs]; simp))) hc
  obtain ⟨r, hr⟩ := key s h
  have hsub : ∀ c ∈ r.reverse, c < 128 := by
    intro c hc
    obtain ⟨⟨a, ha, _⟩, _⟩ := Proofs.trimLeft_ok hr
    exact h c (by rw [ha]; simp; right; simpa using hc)
  obtain ⟨q, hq⟩ := key r.reverse hsub
  have : trim s = .ok q.reverse := by simp [trim, hr, trimRight, hq]
  exact ⟨_, this, Proofs.trim_ok this⟩

/-- **C04.** Trimming again changes nothing. -/
theorem C04_trim_idempotent (s t : Bytes) (h : trim s = .ok t) : trim t = .ok t := by
  have ht := C04_trim_correct s t h
  have hd := (C04_trim_defined_iff s t ht).mp h
  refine (C04_trim_defined_iff t t ⟨⟨[], [], by simp, by simp [AllWs], by simp [AllWs]⟩, ht.first, ht.last⟩).mpr hd

/-- **C04.** The result is empty iff the input is all white space (and then `trim` always returns). -/
theorem C04_trim_empty_iff (s : Bytes) : trim s = .ok [] ↔ AllWs s := by
  constructor
  · intro h
    obtain ⟨⟨a, b, e, ha, hb⟩, _, _⟩ := C04_trim_correct s [] h
    intro c hc
    rw [e] at hc
    simp at hc
    rcases hc with hc | hc
    · exact ha c hc
    · exact hb c hc
  · intro h
    exact (C04_trim_defined_iff s [] (Proofs.trimmed_nil_of_allWs h)).mpr (by simp)

/-- Non-vacuity: white space on both sides is removed, inner white space stays; and a text for which `trim` is undefined. -/
example : trim b!" \t a b \r\n" = .ok b!"a b" ∧ trim b!"é" = .error .isspaceDomain ∧ trim b!"aéb" = .ok b!"aéb" := by
  refine ⟨?_, ?_, ?_⟩ <;> rfl

/-- **C04.** Every text has a trimmed form, and `trim` either returns it or runs into the undefined behaviour of `isspace`; which
of the two happens is decided by the first and the last byte that is not white space. -/
theorem C04_trim_total (s : Bytes) :
    (ScanOk s ∧ ∃ t, Trimmed s t ∧ trim s = .ok t) ∨ (¬ ScanOk s ∧ trim s = .error .isspaceDomain) := by
  obtain ⟨t, ht⟩ := Proofs.exists_trimmed s
  by_cases h : ScanOk s
  · exact .inl ⟨h, t, ht, (C04_trim_defined_iff s t ht).mpr (h t ht)⟩
  · refine .inr ⟨h, ?_⟩
    cases he : trim s with
    | error u => rw [Proofs.trim_error_dom he]
    | ok r =>
      exfalso; apply h
      intro t' ht' c hc
      have := Proofs.trim_ok he
      rw [Proofs.Trimmed.unique ht' this] at hc
      exact (C04_trim_defined_iff s r this).mp he c hc

/-- **C05.** Lengths are kept. -/
theorem C05_case_length (s : Bytes) : (toUpper s).length = s.length ∧ (toLower s).length = s.length := by
  simp [toUpper, toLower]

/-- **C05.** Only letters change, position by position, and only in case. -/
theorem C05_case_changes_only_letters (s : Bytes) (i : Nat) (c : UInt8) (h : s[i]? = some c) :
    (∃ d, (toUpper s)[i]? = some d ∧ SameUpToCase d c ∧ (¬ IsLetter c → d = c) ∧ ¬ (97 ≤ d ∧ d ≤ 122)) ∧
    (∃ d, (toLower s)[i]? = some d ∧ SameUpToCase d c ∧ (¬ IsLetter c → d = c) ∧ ¬ (65 ≤ d ∧ d ≤ 90)) := by
  have h1 : ∀ c : UInt8, ¬ (97 ≤ toupper c ∧ toupper c ≤ 122) := by apply forall_byte; decide +kernel
  have h2 : ∀ c : UInt8, ¬ (65 ≤ tolower c ∧ tolower c ≤ 90) := by apply forall_byte; decide +kernel
  exact ⟨⟨toupper c, by simp [toUpper, h], (Proofs.toupper_facts c).2.2, (Proofs.toupper_facts c).2.1, h1 c⟩,
    ⟨tolower c, by simp [toLower, h], (Proofs.tolower_facts c).2.2, (Proofs.tolower_facts c).2.1, h2 c⟩⟩

/-- **C05.** Both conversions are idempotent. -/
theorem C05_case_idempotent (s : Bytes) : toUpper (toUpper s) = toUpper s ∧ toLower (toLower s) = toLower s := by
  constructor
  · simp [toUpper, (fun c => (Proofs.toupper_facts c).1)]
  · simp [toLower, (fun c => (Proofs.tolower_facts c).1)]

/-- **C05.** Equal ignoring case iff the upper-case forms agree iff the lower-case forms agree. -/
theorem C05_case_equality (s t : Bytes) :
    (toUpper s = toUpper t ↔ EqIgnoringCase s t) ∧ (toLower s = toLower t ↔ EqIgnoringCase s t) :=
  ⟨Proofs.map_eq_iff_ignoringCase toupper Proofs.toupper_eq s t,
    Proofs.map_eq_iff_ignoringCase tolower Proofs.tolower_eq s t⟩

example : toUpper b!"File.Pdf-é" = b!"FILE.PDF-é" ∧ toLower b!"A@Z.[x]" = b!"a@z.[x]" ∧
    EqIgnoringCase b!"Pdf" b!"pDF" ∧ ¬ EqIgnoringCase b!"@" b!"`" := by
  refine ⟨rfl, rfl, ?_, ?_⟩ <;> (unfold EqIgnoringCase; decide)

end Verif.Props
