import Verif.Proofs.Reply
/-!
# C06, C07, C08: reading server replies
-/
namespace Verif.Props
open Verif Verif.Model Verif.Spec

/-- **C06.** A reply that starts with three digits has that number as its code. -/
theorem C06_three_digits (d₁ d₂ d₃ : UInt8) (rest : Bytes) (h₁ : IsDigit d₁) (h₂ : IsDigit d₂) (h₃ : IsDigit d₃) :
    extractReturnCode (some (d₁ :: d₂ :: d₃ :: rest)) =
      100 * (d₁.toNat - 48 : Nat) + 10 * (d₂.toNat - 48 : Nat) + (d₃.toNat - 48 : Nat) := by
  have hz : ∀ c : UInt8, IsDigit c → c ≠ 0 := by apply forall_byte; decide +kernel
  have hc : cstr (d₁ :: d₂ :: d₃ :: rest) = d₁ :: d₂ :: d₃ :: cstr rest := by
    simp [cstr, List.takeWhile, hz d₁ h₁, hz d₂ h₂, hz d₃ h₃]
  have hn : StartsWithNumber [d₁, d₂, d₃] (decimal [d₁, d₂, d₃]) := by
    refine ⟨[], [], [d₁, d₂, d₃], [], rfl, by simp [AllWs], by simp, ?_, by simp, Or.inl ⟨rfl, rfl⟩⟩
    intro c hc
    simp at hc
    rcases hc with rfl | rfl | rfl <;> assumption
  simp only [extractReturnCode, hc, List.take, List.length_cons]
  rw [if_pos (by omega), Proofs.stoi_of_number hn]
  simp only [decimal, List.length_cons, List.length_nil, Option.getD_some]
  omega

/-- **C06.** The code of any text: the number its first three characters start with, else -1. -/
theorem C06_code_of_any_text (s : Bytes) :
    (3 ≤ (cstr s).length ∧ StartsWithNumber ((cstr s).take 3) (extractReturnCode (some s))) ∨
    (((cstr s).length < 3 ∨ ¬ ∃ n, StartsWithNumber ((cstr s).take 3) n) ∧ extractReturnCode (some s) = -1) := by
  simp only [extractReturnCode]
  by_cases hlen : 3 ≤ (cstr s).length
  · simp only [hlen, if_true, true_and]
    cases h : stoi ((cstr s).take 3) with
    | some n => left; exact Proofs.stoi_some h
    | none =>
      right
      refine ⟨Or.inr ?_, rfl⟩
      rintro ⟨n, hn⟩
      rw [Proofs.stoi_of_number hn] at h
      simp at h
  · right
    rw [if_neg hlen]
    exact ⟨Or.inl (by omega), rfl⟩

/-- **C06.** Every code lies between -99 and 999. -/
theorem C06_code_range (p : Option Bytes) : -99 ≤ extractReturnCode p ∧ extractReturnCode p ≤ 999 := by
  cases p with
  | none => simp [extractReturnCode]
  | some s =>
    rcases C06_code_of_any_text s with ⟨hlen, ws, sign, ds, rest, e, hws, hne, hds, hrest, hn⟩ | ⟨_, h⟩
    · have hl := congrArg List.length e
      simp only [List.length_take, List.length_append] at hl
      have h3 := Proofs.decimal_lt ds hds
      have h10 : ∀ n, n ≤ 3 → 10 ^ n ≤ 1000 := by
        intro n hn
        calc 10 ^ n ≤ 10 ^ 3 := Nat.pow_le_pow_right (by omega) hn
          _ = 1000 := rfl
      rcases hn with ⟨rfl, hn⟩ | ⟨rfl, hn⟩ | ⟨rfl, hn⟩
      · rw [hn]
        have := h10 ds.length (by omega)
        omega
      · rw [hn]
        have := h10 ds.length (by omega)
        omega
      · rw [hn]
        have h2 : ds.length ≤ 2 := by simp at hl; omega
        have : 10 ^ ds.length ≤ 100 := by
          calc 10 ^ ds.length ≤ 10 ^ 2 := Nat.pow_le_pow_right (by omega) h2
            _ = 100 := rfl
        omega
    · rw [h]; omega

/-- **C06.** A text that is too short, or absent, or has no number has code -1. -/
theorem C06_no_code (p : Option Bytes)
    (h : ∀ s, p = some s → (cstr s).length < 3 ∨ ¬ ∃ n, StartsWithNumber ((cstr s).take 3) n) :
    extractReturnCode p = -1 := by
  cases p with
  | none => rfl
  | some s =>
    rcases C06_code_of_any_text s with ⟨hlen, hn⟩ | ⟨_, h2⟩
    · rcases h s rfl with h1 | h1
      · omega
      · exact absurd ⟨_, hn⟩ h1
    · exact h2

/-- Non-vacuity: normal replies, a refused one, and the texts the code can be mistaken about: `0ab` reads as code 0, `-1x`
as -1. -/
example : extractReturnCode (some b!"250 OK\r\n") = 250 ∧ extractReturnCode (some b!"25") = -1 ∧
    extractReturnCode (some b!"abc") = -1 ∧ extractReturnCode (some b!"0ab") = 0 ∧ extractReturnCode (some b!"-1x") = -1 ∧
    extractReturnCode (some b!" 7") = -1 ∧ extractReturnCode (some b!"\r\n7") = 7 := by decide

/-- **C07.** The reply counts as complete iff its last line, one final CRLF ignored, starts with `250 `. -/
theorem C07_complete_iff (s t : Bytes) (h : withoutFinalCRLF s t) :
    containsAllOptions s = true ↔ ∃ pre l, lines t = pre ++ [l] ∧ b!"250 " <+: l := by
  have hstrip : (if 2 ≤ s.length ∧ s.drop (s.length - 2) = b!"\r\n" then s.take (s.length - 2) else s) = t := by
    rcases h with rfl | ⟨rfl, hno⟩
    · simp
    · rw [if_neg]
      rintro ⟨_, h2⟩
      exact hno ⟨s.take (s.length - 2), by conv => lhs; rw [← List.take_append_drop (s.length - 2) s, h2]⟩
  unfold containsAllOptions
  simp only [hstrip]
  have hlast : ∀ l : Bytes, (l.take 4 == b!"250 ") = true ↔ b!"250 " <+: l := by
    intro l
    rw [beq_iff_eq]
    exact Proofs.take_eq_iff_prefix b!"250 " l
  cases hr : rfindSub b!"\r\n" t with
  | none =>
    have hl := Proofs.rfindSub_none hr
    simp only [substr, List.drop_zero, hlast, hl]
    constructor
    · intro h; exact ⟨[], t, rfl, h⟩
    · rintro ⟨pre, l, e, h⟩
      cases pre with
      | nil => simp at e; rw [e]; exact h
      | cons p pre => simp at e
  | some i =>
    obtain ⟨h1, h2⟩ := Proofs.rfindSub_some hr
    have hl : lines t = lines (t.take i) ++ [t.drop (i + 2)] := by
      conv => lhs; rw [h1]
      rw [Proofs.lines_append, h2]
    simp only [substr, hlast, hl]
    constructor
    · intro h; exact ⟨_, _, rfl, h⟩
    · rintro ⟨pre, l, e, h⟩
      have := (List.append_inj' e rfl).2
      simp at this
      rw [this]; exact h

/-- Every text is covered: it has a version without final CRLF. -/
theorem C07_covers (s : Bytes) : ∃ t, withoutFinalCRLF s t := by
  by_cases h : ∃ u, s = u ++ [13, 10]
  · obtain ⟨u, hu⟩ := h; exact ⟨u, Or.inl hu⟩
  · exact ⟨s, Or.inr ⟨rfl, h⟩⟩

example : withoutFinalCRLF b!"250-SIZE\r\n250 OK\r\n" b!"250-SIZE\r\n250 OK" ∧
    containsAllOptions b!"250-SIZE\r\n250 OK\r\n" = true ∧ containsAllOptions b!"250-SIZE\r\n250-OK\r\n" = false ∧
    containsAllOptions b!"250 OK\r\n\r\n" = false ∧ containsAllOptions b!"" = false := by
  refine ⟨Or.inl rfl, ?_⟩; decide

/-- The mechanisms in `o` are exactly the known names among the words of `l`. -/
def MechanismsOf (l : Bytes) (o : AuthOptions) : Prop :=
  (o.plain = true ↔ HasWord b!"PLAIN" l) ∧ (o.login = true ↔ HasWord b!"LOGIN" l) ∧
  (o.xoauth2 = true ↔ HasWord b!"XOAUTH2" l) ∧ (o.plainClientToken = true ↔ HasWord b!"PLAIN-CLIENTTOKEN" l) ∧
  (o.oauthBearer = true ↔ HasWord b!"OAUTHBEARER" l) ∧ (o.xoauth = true ↔ HasWord b!"XOAUTH" l)

theorem mechanismsOf_optionsOf (l : Bytes) : MechanismsOf l (Proofs.optionsOf l) := by
  obtain ⟨h1, h2, h3, h4, h5, h6⟩ := Proofs.foldl_setOption (splitSpace l) {}
  unfold MechanismsOf Proofs.optionsOf
  rw [h1, h2, h3, h4, h5, h6]
  simp [Proofs.mem_splitSpace]

/-- **C08.** If some line of the reply advertises authentication, the mechanisms reported are those of the first such line. -/
theorem C08_mechanisms_of_first_auth_line (s : Bytes) (pre post : List Bytes) (l : Bytes)
    (hcr : 2 ≤ (lines (cstr s)).length) (hl : lines (cstr s) = pre ++ l :: post) (ha : IsAuthLine l)
    (hfirst : ∀ m ∈ pre, ¬ IsAuthLine m) :
    ∃ o, extractAuthOptions (some s) = some o ∧ MechanismsOf l o := by
  rcases Proofs.extractAuthLoop_spec (cstr s).length (cstr s) none (Nat.le_refl _) (Or.inl rfl)
      (fun _ _ => Or.inr hcr) with ⟨_, h⟩ | ⟨pre', l', post', h1, h2, h3, h4⟩
  · exact absurd ha (h l (by rw [hl]; simp))
  · have hll : l = l' := by
      have e : pre ++ l :: post = pre' ++ l' :: post' := by rw [← hl, h1]
      clear hcr hl h1 h4
      induction pre generalizing pre' with
      | nil =>
        cases pre' with
        | nil => simp at e; exact e.1
        | cons p pre' => simp at e; exact absurd ha (h3 l (by simp [e.1]))
      | cons p pre ih =>
        cases pre' with
        | nil => simp at e; exact absurd h2 (hfirst l' (by simp [e.1]))
        | cons p' pre' =>
          simp at e
          exact ih (fun m hm => hfirst m (by simp [hm])) pre' (fun m hm => h3 m (by simp [hm])) e.2
    subst hll
    exact ⟨_, h4, mechanismsOf_optionsOf l⟩

/-- **C08.** If no line does, nothing is reported (also for texts without CRLF and for a null pointer). -/
theorem C08_nothing_reported (p : Option Bytes) (h : ∀ s, p = some s → ∀ l ∈ lines (cstr s), ¬ IsAuthLine l) :
    extractAuthOptions p = none := by
  cases p with
  | none => rfl
  | some s =>
    rcases Proofs.extractAuthLoop_spec (cstr s).length (cstr s) none (Nat.le_refl _) (Or.inl rfl)
        (fun hne ha => by
          exfalso
          cases hl : lines (cstr s) with
          | nil => exact Proofs.lines_ne_nil _ hl
          | cons l ls => exact h s rfl l (by simp [hl]) ((Proofs.isAuthLine_first hl).mp ha)) with
      ⟨h1, _⟩ | ⟨pre, l, post, h1, h2, _, _⟩
    · exact h1
    · exact absurd h2 (h s rfl l (by rw [h1]; simp))

/-- **C08.** A text without CRLF reports nothing: the precondition of the first theorem is needed. -/
theorem C08_no_crlf (s : Bytes) (h : lines (cstr s) = [cstr s]) : extractAuthOptions (some s) = none := by
  unfold extractAuthOptions
  simp only
  cases hc : (cstr s).length with
  | zero => rfl
  | succ n =>
    rw [extractAuthLoop]
    cases hf : findSub b!"\r\n" (cstr s) with
    | none => rfl
    | some i =>
      have := Proofs.lines_of_findSub hf
      rw [h] at this
      simp at this
      exact absurd this.2 (Proofs.lines_ne_nil _)

example : extractAuthOptions (some b!"250-SIZE\r\n250-AUTH LOGIN XOAUTH2\r\n250 AUTH PLAIN\r\n")
      = some { login := true, xoauth2 := true } ∧
    lines (cstr b!"250-SIZE\r\n250-AUTH LOGIN XOAUTH2\r\n250 OK") = [b!"250-SIZE"] ++ b!"250-AUTH LOGIN XOAUTH2" :: [b!"250 OK"] ∧
    extractAuthOptions (some b!"250-SIZE\r\n250 AUTH PLAIN") = some { plain := true } ∧
    extractAuthOptions (some b!"250-SIZE\r\n250-AUTH=PLAIN\r\n") = some {} ∧
    extractAuthOptions (some b!"250 AUTH PLAIN") = none := by decide

end Verif.Props
