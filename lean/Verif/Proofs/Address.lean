import Verif.Proofs.Regex
import Verif.Proofs.StringUtils
import Verif.Proofs.Lines
import Verif.Proofs.Errors
import Verif.Model.Commands
/-! Helper lemmas on addresses. -/
namespace Verif.Proofs
open Verif Verif.Spec Verif.Model

theorem dotted_ne_nil {W : UInt8 → Prop} {l : Bytes} (h : Dotted W l) : l ≠ [] := by
  obtain ⟨c, hc, _⟩ := h.first
  rintro rfl
  simp at hc

theorem emailShape_facts {s : Bytes} (h : EmailShape s) : NoBreak s ∧ 64 ∈ s ∧ 6 ≤ s.length ∧
    (∃ c, s.head? = some c ∧ LocalChar c) ∧ (∃ c, s.getLast? = some c ∧ 97 ≤ c ∧ c ≤ 122) := by
  obtain ⟨loc, base, sep, tld, rfl, hl, hb, h10, h13, l1, l2, l3⟩ := h
  have hln := dotted_ne_nil hl
  have hbn := dotted_ne_nil hb
  have hl1 : 1 ≤ loc.length := by cases loc with | nil => exact absurd rfl hln | cons => simp
  have hb1 : 1 ≤ base.length := by cases base with | nil => exact absurd rfl hbn | cons => simp
  refine ⟨?_, by simp, by simp; omega, ?_, ?_⟩
  · intro c hc
    simp at hc
    rcases hc with hc | rfl | hc | rfl | hc
    · exact hl.noBreak c hc
    · decide
    · exact hb.noBreak c hc
    · exact ⟨h13, h10⟩
    · have : ∀ c : UInt8, 97 ≤ c ∧ c ≤ 122 → c ≠ 13 ∧ c ≠ 10 := by apply forall_byte; decide +kernel
      exact this c (l3 c hc)
  · obtain ⟨c, hc, hW⟩ := hl.first
    refine ⟨c, ?_, hW⟩
    cases loc with
    | nil => exact absurd rfl hln
    | cons d loc => simpa using hc
  · cases htl : tld.getLast? with
    | none => simp at htl; subst htl; simp at l1
    | some c =>
      refine ⟨c, ?_, l3 c (List.mem_of_getLast? htl)⟩
      rw [List.getLast?_append, List.getLast?_cons, htl]
      rfl

theorem head_toLower (s : Bytes) : (toLower s).head? = s.head?.map tolower := by cases s <;> rfl
theorem last_toLower (s : Bytes) : (toLower s).getLast? = s.getLast?.map tolower := by simp [toLower]

theorem localChar_tolower : ∀ c : UInt8, LocalChar (tolower c) → ¬ IsWs c ∧ c < 128 := by
  apply forall_byte; decide +kernel

theorem alpha_tolower : ∀ c : UInt8, 97 ≤ tolower c ∧ tolower c ≤ 122 → ¬ IsWs c ∧ c < 128 := by
  apply forall_byte; decide +kernel

theorem tolower_break : ∀ c : UInt8, tolower c ≠ 13 ∧ tolower c ≠ 10 → c ≠ 13 ∧ c ≠ 10 := by
  apply forall_byte; decide +kernel

/-- An accepted address can be trimmed, to itself. -/
theorem valid_trim {s : Bytes} (h : isEmailAddressValid s = true) : trim s = .ok s ∧ s ≠ [] := by
  have hs := (emailPattern_iff _).mp h
  obtain ⟨_, _, hlen, ⟨c, hc, hcl⟩, ⟨d, hd, hdl⟩⟩ := emailShape_facts hs
  have hne : s ≠ [] := by rintro rfl; simp [toLower] at hlen
  rw [head_toLower] at hc
  rw [last_toLower] at hd
  refine ⟨?_, hne⟩
  have := trim_eq (a := []) (b := []) (t := s) (by simp [AllWs]) (by simp [AllWs]) ?_ ?_
  · simpa using this
  · intro x hx
    rw [hx] at hc
    simp at hc
    subst hc
    have := localChar_tolower x hcl
    exact ⟨this.1, Or.inl this.2⟩
  · intro x hx
    rw [hx] at hd
    simp at hd
    subst hd
    have := alpha_tolower x hdl
    exact ⟨this.1, Or.inl this.2⟩

theorem cstr_cstr (s : Bytes) : cstr (cstr s) = cstr s := cstr_eq_self (cstr_no_nul s)

theorem new_eq (e n : Bytes) : MessageAddress.new (some e) (some n) =
    if cstr e = [] then .error .invalidArgument else
      match trim (cstr e) with
      | .error u => .error (.ub u)
      | .ok t => if t = [] then .error .invalidArgument else
          if isEmailAddressValid (cstr e) = true then .ok { email := cstr e, displayName := cstr n }
          else .error .invalidArgument := by
  unfold MessageAddress.new readCStr trimEmpty
  by_cases h0 : cstr e = []
  · simp [h0, bind, Except.bind, throw, throwThe, MonadExceptOf.throw]
  · have : (cstr e).length ≠ 0 := by simpa using h0
    simp only [bind, Except.bind, this, h0, if_false, pure, Except.pure]
    cases htr : trim (cstr e) with
    | error u => rfl
    | ok t =>
      cases t with
      | nil => rfl
      | cons c t =>
        simp only [List.isEmpty_cons, Bool.false_eq_true, if_false, reduceCtorEq]
        by_cases hv : isEmailAddressValid (cstr e) = true
        · simp [hv]
        · simp [hv, throw, throwThe, MonadExceptOf.throw]

theorem items_ne_nil (s : Bytes) : items s ≠ [] := by
  induction s using items.induct with
  | case1 => simp [items]
  | case2 => simp [items]
  | case3 c d rest h ih => simp [items, h]
  | case4 c d rest h ih =>
    simp only [items, h, if_false]
    cases hl : items (d :: rest) <;> simp [consFirst]

theorem items_noSep {s : Bytes} (h : NoSeparator s) : items s = [s] := by
  induction s using items.induct with
  | case1 => rfl
  | case2 => rfl
  | case3 c d rest h' ih => exact absurd ⟨[], rest, by simp [h'.1, h'.2]⟩ h
  | case4 c d rest h' ih =>
    rw [items, if_neg h', ih]
    · rfl
    · rintro ⟨a, b, e⟩; exact h ⟨c :: a, b, by simp [e]⟩

theorem items_append {a b : Bytes} (h : NoSeparator a) :
    items (a ++ 44 :: 32 :: b) = a :: items b := by
  induction a using items.induct with
  | case1 => simp [items]
  | case2 c =>
    simp only [List.singleton_append]
    rw [items]
    have : ¬ (c = 44 ∧ (44 : UInt8) = 32) := by rintro ⟨_, h⟩; exact absurd h (by decide)
    rw [if_neg this]
    simp [items, consFirst]
  | case3 c d rest h' ih => exact absurd ⟨[], rest, by simp [h'.1, h'.2]⟩ h
  | case4 c d rest h' ih =>
    simp only [List.cons_append] at ih ⊢
    rw [items, if_neg h', ih]
    · rfl
    · rintro ⟨a, b, e⟩; exact h ⟨c :: a, b, by simp [e]⟩


end Verif.Proofs
