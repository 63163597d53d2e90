import Verif.Proofs.Address
import Verif.Props.StringUtils
/-!
# C11, C12, C13, C15: e-mail addresses
-/
namespace Verif.Props
open Verif Verif.Model Verif.Spec

/-- `s` has the shape of an accepted address when letter case is ignored. -/
def EmailShapeIgnoringCase (s : Bytes) : Prop :=
  ∃ t, EqIgnoringCase s t ∧ (∀ c ∈ t, ¬ (65 ≤ c ∧ c ≤ 90)) ∧ EmailShape t

theorem lower_unique (s t : Bytes) (h : EqIgnoringCase s t) (hl : ∀ c ∈ t, ¬ (65 ≤ c ∧ c ≤ 90)) : t = toLower s := by
  have h1 : toLower s = toLower t := (Proofs.map_eq_iff_ignoringCase tolower Proofs.tolower_eq s t).mpr h
  rw [h1]
  have h2 : ∀ c : UInt8, ¬ (65 ≤ c ∧ c ≤ 90) → tolower c = c := by apply forall_byte; decide +kernel
  induction t generalizing s with
  | nil => rfl
  | cons c t ih =>
    simp only [toLower, List.map_cons]
    rw [h2 c (hl c (by simp))]
    congr 1
    exact ih (toLower t) ((Proofs.map_eq_iff_ignoringCase tolower Proofs.tolower_eq _ _).mp (by
      simp [(fun c => (Proofs.tolower_facts c).1), toLower])) (fun x hx => hl x (by simp [hx])) (by
      simp [(fun c => (Proofs.tolower_facts c).1), toLower])

/-- **C11.** The validity check accepts exactly the texts of the documented shape, ignoring letter case. -/
theorem C11_valid_iff (s : Bytes) : isEmailAddressValid s = true ↔ EmailShapeIgnoringCase s := by
  unfold isEmailAddressValid
  rw [Proofs.emailPattern_iff]
  constructor
  · intro h
    refine ⟨toLower s, ?_, ?_, h⟩
    · exact (Proofs.map_eq_iff_ignoringCase tolower Proofs.tolower_eq _ _).mp (by
        simp [(fun c => (Proofs.tolower_facts c).1), toLower])
    · intro c hc
      have : ∀ c : UInt8, ¬ (65 ≤ tolower c ∧ tolower c ≤ 90) := by apply forall_byte; decide +kernel
      simp only [toLower, List.mem_map] at hc
      obtain ⟨d, _, rfl⟩ := hc
      exact this d
  · rintro ⟨t, h1, h2, h3⟩
    rw [← lower_unique s t h1 h2]; exact h3

/-- **C11.** Acceptance does not depend on letter case. -/
theorem C11_case_insensitive (s t : Bytes) (h : EqIgnoringCase s t) : isEmailAddressValid s = isEmailAddressValid t := by
  unfold isEmailAddressValid
  rw [(Proofs.map_eq_iff_ignoringCase tolower Proofs.tolower_eq s t).mpr h |> (fun (h : toLower s = toLower t) => h)]

/-- **C11.** The constructor (non-null arguments) succeeds exactly on the texts of that shape, and then shows the given texts up
to their first NUL; otherwise it throws, or runs into the undefined behaviour of `isspace` when the text starts or ends (after
white space) with a byte outside the domain. -/
theorem C11_constructor (e n : Bytes) :
    (EmailShapeIgnoringCase (cstr e) ∧
      MessageAddress.new (some e) (some n) = .ok { email := cstr e, displayName := cstr n }) ∨
    (¬ EmailShapeIgnoringCase (cstr e) ∧ (MessageAddress.new (some e) (some n) = .error .invalidArgument ∨
      (¬ ScanOk (cstr e) ∧ MessageAddress.new (some e) (some n) = .error (.ub .isspaceDomain)))) := by
  rw [Proofs.new_eq, ← C11_valid_iff]
  by_cases hv : isEmailAddressValid (cstr e) = true
  · left
    obtain ⟨h1, h2⟩ := Proofs.valid_trim hv
    simp [hv, h1, h2]
  · right
    refine ⟨hv, ?_⟩
    by_cases h0 : cstr e = []
    · simp [h0]
    · rcases C04_trim_total (cstr e) with ⟨hs, t, _, ht⟩ | ⟨hs, ht⟩
      · left; by_cases h : t = [] <;> simp [h0, h, hv, ht]
      · right; simp [h0, hs, ht]

example : isEmailAddressValid b!"John.Doe@Example.com" = true ∧ isEmailAddressValid b!"a@b" = false ∧
    isEmailAddressValid b!"test@domain" = true ∧ isEmailAddressValid b!"a@b@domain.org" = true ∧
    isEmailAddressValid b!"a@b.c\r\nX" = false ∧ isEmailAddressValid b!"a..b@c.com" = false := by decide +kernel

/-- **C12.** An accepted address has no CR, no LF, an '@' and at least six characters. -/
theorem C12_accepted_address_facts (s : Bytes) (h : isEmailAddressValid s = true) :
    NoBreak s ∧ 64 ∈ s ∧ 6 ≤ s.length := by
  have hs := (Proofs.emailPattern_iff _).mp h
  obtain ⟨h1, h2, h3, _, _⟩ := Proofs.emailShape_facts hs
  refine ⟨?_, ?_, by simpa [toLower] using h3⟩
  · intro c hc
    apply Proofs.tolower_break
    exact h1 (tolower c) (by simp only [toLower, List.mem_map]; exact ⟨c, hc, rfl⟩)
  · have : ∀ c : UInt8, tolower c = 64 → c = 64 := by apply forall_byte; decide +kernel
    simp only [toLower, List.mem_map] at h2
    obtain ⟨c, hc, e⟩ := h2
    rw [this c e] at hc; exact hc

/-- A command of exactly one line: one text without CR and LF, then CRLF. -/
def OneLine (cmd : Bytes) : Prop := ∃ l, NoBreak l ∧ cmd = l ++ b!"\r\n" ∧ lines cmd = [l, []]

theorem oneLine_of_noBreak (l : Bytes) (h : NoBreak l) : OneLine (l ++ b!"\r\n") :=
  ⟨l, h, rfl, by rw [Proofs.lines_append_crlf l [] (fun c hc => (h c hc).1)]; rfl⟩

theorem noBreak_append {a b : Bytes} (ha : NoBreak a) (hb : NoBreak b) : NoBreak (a ++ b) := by
  intro c hc
  rcases List.mem_append.mp hc with h | h
  · exact ha c h
  · exact hb c h

/-- **C12.** RCPT TO with an accepted address is one command line. -/
theorem C12_rcpt_one_line (a : MessageAddress) (h : isEmailAddressValid a.email = true) : OneLine (rcptTo a) := by
  have hb := (C12_accepted_address_facts a.email h).1
  have : rcptTo a = (b!"RCPT TO: <" ++ a.email ++ b!">") ++ b!"\r\n" := by simp [rcptTo]
  rw [this]
  exact oneLine_of_noBreak _ (noBreak_append (noBreak_append (by unfold NoBreak; decide) hb) (by unfold NoBreak; decide))

/-- **C12.** So is each of the three MAIL FROM forms, when the display name has no CR or LF. -/
theorem C12_mail_from_one_line (a : MessageAddress) (h : isEmailAddressValid a.email = true) (hn : NoBreak a.displayName) :
    ∀ f ∈ mailFormats a, OneLine f := by
  have hb := (C12_accepted_address_facts a.email h).1
  intro f hf
  simp only [mailFormats, List.mem_cons, List.not_mem_nil, or_false] at hf
  have lit : ∀ l : Bytes, (∀ c ∈ l, c ≠ 13 ∧ c ≠ 10) → NoBreak l := fun _ h => h
  rcases hf with rfl | rfl | rfl
  · have : b!"MAIL FROM: <" ++ a.email ++ b!">\r\n" = (b!"MAIL FROM: <" ++ a.email ++ b!">") ++ b!"\r\n" := by simp
    rw [this]
    exact oneLine_of_noBreak _ (noBreak_append (noBreak_append (lit _ (by decide)) hb) (lit _ (by decide)))
  · have : b!"MAIL FROM: <" ++ a.displayName ++ b!" " ++ a.email ++ b!">\r\n"
        = (b!"MAIL FROM: <" ++ a.displayName ++ b!" " ++ a.email ++ b!">") ++ b!"\r\n" := by simp
    rw [this]
    exact oneLine_of_noBreak _ (noBreak_append (noBreak_append (noBreak_append (noBreak_append (lit _ (by decide)) hn)
      (lit _ (by decide))) hb) (lit _ (by decide)))
  · exact oneLine_of_noBreak _ (noBreak_append (lit _ (by decide)) hb)

/-- **C12.** The hypothesis on the display name is needed: the second form with a display name containing CRLF is more than one
line. -/
theorem C12_display_name_can_break : ∃ a : MessageAddress, isEmailAddressValid a.email = true ∧
    ¬ ∀ f ∈ mailFormats a, OneLine f := by
  refine ⟨⟨b!"me@domain.com", b!"x>\r\nRSET\r\n"⟩, by decide +kernel, ?_⟩
  intro h
  obtain ⟨l, hl, e, hlines⟩ := h _ (by simp [mailFormats]; right; left; rfl)
  have := congrArg List.length hlines
  simp only [List.length_cons, List.length_nil] at this
  revert this
  decide

example : isEmailAddressValid b!"me@domain.com" = true ∧ NoBreak b!"My Name" := by
  constructor
  · decide +kernel
  · unfold NoBreak; decide

/-- **C13** (exact). The server gets the address the user gave iff the address contains no '>'. -/
theorem C13_server_reads_address_iff (a : MessageAddress) :
    addressOfRcptLine (rcptTo a) = some a.email ↔ (62 : UInt8) ∉ a.email := by
  unfold addressOfRcptLine
  rw [if_pos ⟨⟨a.email ++ b!">\r\n", by simp [rcptTo]⟩, by simp [rcptTo]⟩]
  have hd : (rcptTo a).drop 10 = a.email ++ b!">\r\n" := by simp [rcptTo]
  rw [hd, Option.some.injEq]
  constructor
  · intro h hm
    rw [← h] at hm
    have := List.all_eq_true.mp (List.all_takeWhile (p := fun c : UInt8 => decide (c ≠ 62)) (l := a.email ++ b!">\r\n")) 62 hm
    simp at this
  · intro h
    generalize a.email = e at h
    induction e with
    | nil => simp
    | cons c e ih =>
      simp only [List.mem_cons, not_or] at h
      rw [List.cons_append, List.takeWhile_cons_of_pos (by simp [Ne.symm h.1]), ih h.2]

/-- **C13, partial.** For accepted addresses without '>' the server reads exactly the address. Missing: accepted addresses with
'>', for which it is false (next theorem). -/
theorem C13_address_unambiguous_partial (e n : Bytes) (a : MessageAddress)
    (_h : MessageAddress.new (some e) (some n) = .ok a) (h62 : (62 : UInt8) ∉ a.email) :
    addressOfRcptLine (rcptTo a) = some a.email := (C13_server_reads_address_iff a).mpr h62

/-- **C13, refuted**: an accepted address that the server reads as a different one. -/
theorem C13_address_ambiguous : ∃ a, MessageAddress.new (some b!"a>b@c.com") (some []) = .ok a ∧
    addressOfRcptLine (rcptTo a) = some b!"a" := by
  refine ⟨⟨b!"a>b@c.com", []⟩, ?_, ?_⟩
  · have hv : isEmailAddressValid (cstr b!"a>b@c.com") = true := by decide +kernel
    rw [Proofs.new_eq, (Proofs.valid_trim hv).1, if_neg (Proofs.valid_trim hv).2]
    simp only [if_neg (Proofs.valid_trim hv).2, if_pos hv]
    rfl
  · decide

/-- How one address is shown in a header. -/
def Shown (a : MessageAddress) (t : Bytes) : Prop :=
  (a.displayName = [] ∧ t = a.email) ∨ (a.displayName ≠ [] ∧ t = a.displayName ++ b!" <" ++ a.email ++ b!">")

/-- **C15.** The header value is the shown addresses in order, separated by comma and space. -/
theorem C15_header_value (l : List MessageAddress) : ∃ ts : List Bytes, ts.length = l.length ∧
    (∀ p ∈ l.zip ts, Shown p.1 p.2) ∧ generateHeaderAddressValues l = List.intercalate b!", " ts := by
  refine ⟨l.map MessageAddress.toText, by simp, ?_, ?_⟩
  · intro p hp
    have : p.2 = p.1.toText := by
      rw [List.zip_map_right] at hp
      simp only [List.mem_map] at hp
      obtain ⟨q, hq, rfl⟩ := hp
      have : q.1 = q.2 := by
        induction l with
        | nil => simp at hq
        | cons a l ih =>
          simp only [List.zip_cons_cons, List.mem_cons] at hq
          rcases hq with rfl | hq
          · rfl
          · exact ih hq
      simp [this]
    rw [this]
    unfold Shown MessageAddress.toText
    by_cases h : p.1.displayName = []
    · left; simp [h]
    · right; simp [h]
  · have key : ∀ (l : List MessageAddress) (i : Nat), 0 < i →
        headerAddressLoop i l = (l.map (fun a => b!", " ++ a.toText)).flatten := by
      intro l
      induction l with
      | nil => intros; rfl
      | cons a l ih =>
        intro i hi
        simp [headerAddressLoop, hi, ih (i + 1) (by omega)]
    unfold generateHeaderAddressValues
    cases l with
    | nil => rfl
    | cons a l =>
      simp only [headerAddressLoop, Nat.lt_irrefl, gt_iff_lt, if_false, List.nil_append, List.map_cons]
      rw [key l 1 (by omega)]
      clear key
      induction l generalizing a with
      | nil => simp [List.intercalate]
      | cons b l ih =>
        simp only [List.map_cons, List.flatten_cons]
        unfold List.intercalate at ih ⊢
        rw [List.intersperse_cons_cons, List.flatten_cons, List.flatten_cons, ← ih b]
        simp

/-- **C15.** A reader who cuts the value at comma-space gets back the shown addresses, one per recipient and in order, provided
none of them contains a comma-space itself. -/
theorem C15_header_value_parses (a : MessageAddress) (l : List MessageAddress)
    (h : ∀ b ∈ a :: l, NoSeparator b.toText) :
    items (generateHeaderAddressValues (a :: l)) = (a :: l).map MessageAddress.toText := by
  have key : ∀ (l : List MessageAddress) (a : MessageAddress) (i : Nat), (∀ b ∈ a :: l, NoSeparator b.toText) →
      items (a.toText ++ headerAddressLoop (i + 1) l) = (a :: l).map MessageAddress.toText := by
    intro l
    induction l with
    | nil =>
      intro a i h
      simp [headerAddressLoop, Proofs.items_noSep (h a (by simp))]
    | cons b l ih =>
      intro a i h
      have : a.toText ++ headerAddressLoop (i + 1) (b :: l)
          = a.toText ++ 44 :: 32 :: (b.toText ++ headerAddressLoop (i + 1 + 1) l) := by
        simp [headerAddressLoop]
      rw [this, Proofs.items_append (h a (by simp)), ih b (i + 1) (fun x hx => h x (by simp at hx ⊢; right; exact hx))]
      simp
  have := key l a 0 h
  simpa [generateHeaderAddressValues, headerAddressLoop] using this

/-- **C15.** That proviso is needed: a display name with a comma makes the value ambiguous. -/
theorem C15_comma_ambiguous : ∃ a : MessageAddress, isEmailAddressValid a.email = true ∧
    (items (generateHeaderAddressValues [a])).length = 2 :=
  ⟨⟨b!"john@doe.com", b!"Doe, John"⟩, by decide +kernel, by decide⟩

example : generateHeaderAddressValues [⟨b!"a@b.com", []⟩, ⟨b!"c@d.com", b!"Mr C"⟩] = b!"a@b.com, Mr C <c@d.com>" ∧
    items b!"a@b.com, Mr C <c@d.com>" = [b!"a@b.com", b!"Mr C <c@d.com>"] := by decide

end Verif.Props
