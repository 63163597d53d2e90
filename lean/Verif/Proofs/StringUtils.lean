import Verif.Model.StringUtils
import Verif.Spec.Text
import Verif.Proofs.Byte
/-! Helper lemmas on trimming and case conversion. -/
namespace Verif.Proofs
open Verif Verif.Spec Verif.Model

theorem ws_domain {c : UInt8} (h : IsWs c) : InCtypeDomain c := by
  simp [IsWs] at h
  rcases h with rfl | rfl | rfl | rfl | rfl | rfl <;> (left; decide)

theorem isspace_cases (c : UInt8) :
    (isspace c = .error .isspaceDomain ∧ ¬ InCtypeDomain c) ∨ (isspace c = .ok true ∧ IsWs c ∧ InCtypeDomain c) ∨
      (isspace c = .ok false ∧ ¬ IsWs c ∧ InCtypeDomain c) := by
  revert c
  apply forall_byte
  intro n
  unfold isspace InCtypeDomain IsWs
  revert n
  have key : ∀ n : Fin 256, ((0x80 ≤ UInt8.ofNat n.val ∧ UInt8.ofNat n.val < 0xFF) ∧ ¬ (UInt8.ofNat n.val < 128 ∨ UInt8.ofNat n.val = 255)) ∨
      (¬(0x80 ≤ UInt8.ofNat n.val ∧ UInt8.ofNat n.val < 0xFF) ∧ ((9 ≤ UInt8.ofNat n.val && UInt8.ofNat n.val ≤ 13) || UInt8.ofNat n.val == 32) = true ∧
        UInt8.ofNat n.val ∈ ([9, 10, 11, 12, 13, 32] : Bytes) ∧ (UInt8.ofNat n.val < 128 ∨ UInt8.ofNat n.val = 255)) ∨
      (¬(0x80 ≤ UInt8.ofNat n.val ∧ UInt8.ofNat n.val < 0xFF) ∧ ((9 ≤ UInt8.ofNat n.val && UInt8.ofNat n.val ≤ 13) || UInt8.ofNat n.val == 32) = false ∧
        UInt8.ofNat n.val ∉ ([9, 10, 11, 12, 13, 32] : Bytes) ∧ (UInt8.ofNat n.val < 128 ∨ UInt8.ofNat n.val = 255)) := by
    decide +kernel
  intro n
  rcases key n with ⟨h1, h2⟩ | ⟨h1, h2, h3, h4⟩ | ⟨h1, h2, h3, h4⟩
  · left; exact ⟨by rw [if_pos h1], h2⟩
  · right; left; exact ⟨by rw [if_neg h1, h2], h3, h4⟩
  · right; right; exact ⟨by rw [if_neg h1, h2], h3, h4⟩

theorem trimLeft_ok {s t : Bytes} (h : trimLeft s = .ok t) :
    (∃ a, s = a ++ t ∧ AllWs a) ∧ ∀ c, t.head? = some c → ¬ IsWs c := by
  induction s with
  | nil => simp [trimLeft] at h; subst h; exact ⟨⟨[], rfl, by simp [AllWs]⟩, by simp⟩
  | cons c s ih =>
    rw [trimLeft] at h
    rcases isspace_cases c with ⟨h1, _⟩ | ⟨h1, h2, _⟩ | ⟨h1, h2, _⟩
    · simp [h1] at h
    · simp only [h1] at h
      obtain ⟨⟨a, ha, hw⟩, hh⟩ := ih h
      refine ⟨⟨c :: a, by simp [ha], ?_⟩, hh⟩
      intro x hx
      rcases List.mem_cons.mp hx with rfl | hx
      · exact h2
      · exact hw x hx
    · simp only [h1, Except.ok.injEq] at h
      subst h
      exact ⟨⟨[], rfl, by simp [AllWs]⟩, by simpa using h2⟩

theorem trimLeft_eq {a t : Bytes} (ha : AllWs a) (hd : ∀ c, t.head? = some c → ¬ IsWs c ∧ InCtypeDomain c) :
    trimLeft (a ++ t) = .ok t := by
  induction a with
  | nil =>
    cases t with
    | nil => rfl
    | cons c t =>
      have := hd c rfl
      rcases isspace_cases c with ⟨_, h2⟩ | ⟨_, h2, _⟩ | ⟨h1, h2, _⟩
      · exact absurd this.2 h2
      · exact absurd h2 this.1
      · simp [trimLeft, h1]
  | cons c a ih =>
    have hc := ha c (by simp)
    rcases isspace_cases c with ⟨_, h2⟩ | ⟨h1, h2, _⟩ | ⟨_, h2, _⟩
    · exfalso
      apply h2
      exact ws_domain hc
    · simp only [List.cons_append, trimLeft, h1]
      exact ih (fun x hx => ha x (by simp [hx]))
    · exact absurd hc h2

/-- Failure of `trimLeft`: the first byte after the white space is outside the domain. -/
theorem trimLeft_error {s : Bytes} {u : UB} (h : trimLeft s = .error u) :
    ∃ a c r, s = a ++ c :: r ∧ AllWs a ∧ ¬ InCtypeDomain c := by
  induction s with
  | nil => simp [trimLeft] at h
  | cons c s ih =>
    rw [trimLeft] at h
    rcases isspace_cases c with ⟨_, h2⟩ | ⟨h1, h2, _⟩ | ⟨h1, h2, _⟩
    · exact ⟨[], c, s, rfl, by simp [AllWs], h2⟩
    · simp only [h1] at h
      obtain ⟨a, d, r, e, hw, hd⟩ := ih h
      refine ⟨c :: a, d, r, by simp [e], ?_, hd⟩
      intro x hx
      rcases List.mem_cons.mp hx with rfl | hx
      · exact h2
      · exact hw x hx
    · simp [h1] at h

theorem allWs_reverse {a : Bytes} (h : AllWs a) : AllWs a.reverse := fun c hc => h c (by simpa using hc)

/-- Cutting the white space off one end, in one way only. -/
theorem ws_prefix_unique {a a' t t' : Bytes} (e : a ++ t = a' ++ t') (ha : AllWs a) (ha' : AllWs a')
    (h : ∀ c, t.head? = some c → ¬ IsWs c) (h' : ∀ c, t'.head? = some c → ¬ IsWs c) : t = t' := by
  induction a generalizing a' with
  | nil =>
    cases a' with
    | nil => simpa using e
    | cons c a' =>
      simp at e
      exact absurd (ha' c (by simp)) (h c (by simp [e]))
  | cons c a ih =>
    cases a' with
    | nil =>
      simp at e
      exact absurd (ha c (by simp)) (h' c (by simp [← e]))
    | cons c' a' =>
      simp only [List.cons_append, List.cons.injEq] at e
      exact ih e.2 (fun x hx => ha x (by simp [hx])) (fun x hx => ha' x (by simp [hx]))

theorem trim_ok {s t : Bytes} (h : trim s = .ok t) : Trimmed s t := by
  unfold trim trimRight at h
  cases h1 : trimLeft s with
  | error u => simp [h1] at h
  | ok r =>
    simp only [h1] at h
    cases h2 : trimLeft r.reverse with
    | error u => simp [h2] at h
    | ok q =>
      simp only [h2, Except.ok.injEq] at h
      obtain ⟨⟨a, ha, hwa⟩, hf⟩ := trimLeft_ok h1
      obtain ⟨⟨b, hb, hwb⟩, hl⟩ := trimLeft_ok h2
      have hr : r = t ++ b.reverse := by
        have := congrArg List.reverse hb
        simp only [List.reverse_reverse, List.reverse_append] at this
        rw [this, h]
      refine ⟨⟨a, b.reverse, by rw [ha, hr, List.append_assoc], hwa, allWs_reverse hwb⟩, ?_, ?_⟩
      · intro c hc
        apply hf
        rw [hr]
        cases t with
        | nil => simp at hc
        | cons d t => simpa using hc
      · intro c hc
        apply hl
        rw [← h] at hc
        simpa using hc

theorem trimmed_nil_of_allWs {s : Bytes} (h : AllWs s) : Trimmed s [] :=
  ⟨⟨s, [], by simp, h, by simp [AllWs]⟩, by simp, by simp⟩

/-- `trim` is defined when the two bytes that stop the scans are in the domain. -/
theorem trim_eq {a t b : Bytes} (ha : AllWs a) (hb : AllWs b)
    (hf : ∀ c, t.head? = some c → ¬ IsWs c ∧ InCtypeDomain c)
    (hl : ∀ c, t.getLast? = some c → ¬ IsWs c ∧ InCtypeDomain c) : trim (a ++ t ++ b) = .ok t := by
  cases t with
  | nil =>
    have hab : AllWs (a ++ b) := by
      intro c hc
      rcases List.mem_append.mp hc with hc | hc
      · exact ha c hc
      · exact hb c hc
    have := trimLeft_eq (t := []) hab (by simp)
    simp only [List.append_nil] at this ⊢
    simp [trim, this, trimRight, trimLeft]
  | cons d t =>
    have h1 : trimLeft (a ++ (d :: t ++ b)) = .ok (d :: t ++ b) := by
      apply trimLeft_eq ha
      intro c hc
      exact hf c (by simpa using hc)
    rw [List.append_assoc, trim, h1]
    have h2 : trimLeft (b.reverse ++ (d :: t).reverse) = .ok (d :: t).reverse := by
      apply trimLeft_eq (allWs_reverse hb)
      intro c hc
      exact hl c (by rw [List.head?_reverse] at hc; exact hc)
    simp only [trimRight, List.reverse_append, h2, List.reverse_reverse]

theorem Trimmed.unique {s t t' : Bytes} (h : Trimmed s t) (h' : Trimmed s t') : t = t' := by
  obtain ⟨⟨a, b, e, ha, hb⟩, hf, hl⟩ := h
  obtain ⟨⟨a', b', e', ha', hb'⟩, hf', hl'⟩ := h'
  -- an all-white-space string has only the empty core
  have allws : ∀ {x y : Bytes}, AllWs x → AllWs y → ∀ {u v w : Bytes}, x ++ y = u ++ w ++ v → (∀ c, w.head? = some c → ¬ IsWs c) → w = [] := by
    intro x y hx hy u v w e hw
    cases w with
    | nil => rfl
    | cons c w =>
      exfalso
      apply hw c rfl
      have : c ∈ x ++ y := by rw [e]; simp
      rcases List.mem_append.mp this with h | h
      · exact hx c h
      · exact hy c h
  cases t with
  | nil =>
    refine (allws ha hb (u := a') (v := b') (w := t') ?_ hf').symm
    rw [← e', e]; simp
  | cons c t =>
    cases t' with
    | nil =>
      refine allws ha' hb' (u := a) (v := b) (w := c :: t) ?_ hf
      rw [← e, e']; simp
    | cons c' t' =>
      have e1 : a ++ (c :: t ++ b) = a' ++ (c' :: t' ++ b') := by
        rw [← List.append_assoc, ← List.append_assoc, ← e, ← e']
      have e2 := ws_prefix_unique e1 ha ha' (by simpa using hf) (by simpa using hf')
      have e3 := congrArg List.reverse e2
      simp only [List.reverse_append] at e3
      have e4 := ws_prefix_unique e3 (allWs_reverse hb) (allWs_reverse hb')
        (by intro d hd; exact hl d (by rwa [List.head?_reverse] at hd))
        (by intro d hd; exact hl' d (by rwa [List.head?_reverse] at hd))
      simpa using congrArg List.reverse e4

theorem toupper_facts : ∀ c : UInt8, toupper (toupper c) = toupper c ∧ (¬ IsLetter c → toupper c = c) ∧
    SameUpToCase (toupper c) c := by
  apply forall_byte; decide +kernel

theorem tolower_facts : ∀ c : UInt8, tolower (tolower c) = tolower c ∧ (¬ IsLetter c → tolower c = c) ∧
    SameUpToCase (tolower c) c := by
  apply forall_byte; decide +kernel

/-- Two bytes have the same upper-case form iff they are the same up to case. -/
theorem toupper_eq (c d : UInt8) : toupper c = toupper d ↔ SameUpToCase c d := by
  have hc := c.toNat_lt
  have hd := d.toNat_lt
  unfold toupper SameUpToCase IsLetter
  simp only [UInt8.le_iff_toNat_le, ← UInt8.toNat_inj, UInt8.reduceToNat]
  split <;> split <;> (try simp only [UInt8.toNat_sub, UInt8.reduceToNat]) <;> constructor <;> intro h <;> omega

theorem tolower_eq (c d : UInt8) : tolower c = tolower d ↔ SameUpToCase c d := by
  have hc := c.toNat_lt
  have hd := d.toNat_lt
  unfold tolower SameUpToCase IsLetter
  simp only [UInt8.le_iff_toNat_le, ← UInt8.toNat_inj, UInt8.reduceToNat]
  split <;> split <;> (try simp only [UInt8.toNat_add, UInt8.reduceToNat]) <;> constructor <;> intro h <;> omega

theorem map_eq_iff_ignoringCase (f : UInt8 → UInt8) (hf : ∀ c d, f c = f d ↔ SameUpToCase c d) (s t : Bytes) :
    s.map f = t.map f ↔ EqIgnoringCase s t := by
  unfold EqIgnoringCase
  induction s generalizing t with
  | nil => cases t <;> simp
  | cons c s ih =>
    cases t with
    | nil => simp
    | cons d t =>
      simp only [List.map_cons, List.cons.injEq, ih, hf, List.length_cons, List.zip_cons_cons, List.mem_cons,
        Nat.add_right_cancel_iff]
      constructor
      · rintro ⟨h1, h2, h3⟩
        refine ⟨h2, ?_⟩
        rintro p (rfl | hp)
        · exact h1
        · exact h3 p hp
      · rintro ⟨h1, h2⟩
        exact ⟨h2 (c, d) (Or.inl rfl), h1, fun p hp => h2 p (Or.inr hp)⟩

theorem trimLeft_error_dom {s : Bytes} {u : UB} (h : trimLeft s = .error u) : u = .isspaceDomain := by
  induction s with
  | nil => simp [trimLeft] at h
  | cons c s ih =>
    rcases isspace_cases c with ⟨e, _⟩ | ⟨e, _⟩ | ⟨e, _⟩ <;> simp only [trimLeft, e] at h
    · exact (Except.error.inj h).symm
    · exact ih h
    · cases h

theorem trim_error_dom {s : Bytes} {u : UB} (h : trim s = .error u) : u = .isspaceDomain := by
  unfold trim trimRight at h
  cases h1 : trimLeft s with
  | error v => simp [h1] at h; rw [← h]; exact trimLeft_error_dom h1
  | ok r =>
    simp only [h1] at h
    cases h2 : trimLeft r.reverse with
    | error v => simp [h2] at h; rw [← h]; exact trimLeft_error_dom h2
    | ok q => simp [h2] at h

theorem exists_cut_front (s : Bytes) : ∃ a t, s = a ++ t ∧ AllWs a ∧ ∀ c, t.head? = some c → ¬ IsWs c := by
  induction s with
  | nil => exact ⟨[], [], rfl, by simp [AllWs], by simp⟩
  | cons c s ih =>
    by_cases h : IsWs c
    · obtain ⟨a, t, e, ha, ht⟩ := ih
      refine ⟨c :: a, t, by simp [e], ?_, ht⟩
      intro x hx
      rcases List.mem_cons.mp hx with rfl | hx
      · exact h
      · exact ha x hx
    · exact ⟨[], c :: s, rfl, by simp [AllWs], by simp [h]⟩

/-- Every text has a trimmed form. -/
theorem exists_trimmed (s : Bytes) : ∃ t, Trimmed s t := by
  obtain ⟨a, t, e, ha, ht⟩ := exists_cut_front s
  obtain ⟨b, r, e2, hb, hr⟩ := exists_cut_front t.reverse
  have e3 : t = r.reverse ++ b.reverse := by
    have := congrArg List.reverse e2
    simpa using this
  refine ⟨r.reverse, ⟨a, b.reverse, by rw [e, e3]; simp, ha, allWs_reverse hb⟩, ?_, ?_⟩
  · intro c hc
    apply ht
    rw [e3]
    cases hrr : r.reverse with
    | nil => rw [hrr] at hc; simp at hc
    | cons x y => rw [hrr] at hc; simpa using hc
  · intro c hc
    apply hr
    rw [← List.head?_reverse, List.reverse_reverse] at hc
    exact hc

end Verif.Proofs
