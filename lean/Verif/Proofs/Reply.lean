import Verif.Model.Reply
import Verif.Spec.Reply
import Verif.Proofs.Byte
import Verif.Proofs.Lines
/-! Helper lemmas on reading replies. -/
namespace Verif.Proofs
open Verif Verif.Spec Verif.Model

/-! ### numbers -/

theorem stolSpace_iff (c : UInt8) : stolSpace c = true ↔ IsWs c := by
  revert c; apply forall_byte; decide +kernel

theorem isDigit_iff (c : UInt8) : isDigit c = true ↔ IsDigit c := by
  revert c; apply forall_byte; decide +kernel

theorem digit_not_ws_sign : ∀ c : UInt8, IsDigit c → ¬ IsWs c ∧ c ≠ 43 ∧ c ≠ 45 := by
  apply forall_byte; decide +kernel

theorem sign_not_ws : ¬ IsWs 43 ∧ ¬ IsWs 45 := by decide

theorem foldl_digits (ds : Bytes) (a : Nat) :
    ds.foldl (fun a c => a * 10 + (c.toNat - 48)) a = a * 10 ^ ds.length + decimal ds := by
  induction ds generalizing a with
  | nil => simp [decimal]
  | cons c ds ih =>
    simp only [List.foldl_cons, ih, decimal, List.length_cons, Nat.pow_succ]
    rw [Nat.add_mul, Nat.mul_assoc, Nat.mul_comm 10, Nat.add_assoc]

theorem digitsVal_eq (ds : Bytes) : digitsVal ds = decimal ds := by
  rw [digitsVal, foldl_digits]; simp

theorem span_split {p : UInt8 → Bool} (s : Bytes) : s = s.takeWhile p ++ s.dropWhile p :=
  (List.takeWhile_append_dropWhile (p := p)).symm

theorem head_dropWhile {p : UInt8 → Bool} (s : Bytes) : ∀ c, (s.dropWhile p).head? = some c → p c = false := by
  intro c hc
  have := List.head?_dropWhile_not p s
  rw [hc] at this
  exact this

theorem mem_takeWhile {p : UInt8 → Bool} {s : Bytes} {c : UInt8} (h : c ∈ s.takeWhile p) : p c = true :=
  (List.all_eq_true.mp (List.all_takeWhile (p := p) (l := s))) c h

theorem takeWhile_append_stop {p : UInt8 → Bool} {a b : Bytes} (ha : ∀ c ∈ a, p c = true)
    (hb : ∀ c, b.head? = some c → p c = false) : (a ++ b).takeWhile p = a := by
  induction a with
  | nil =>
    cases b with
    | nil => rfl
    | cons c b => simp [hb c rfl]
  | cons c a ih =>
    simp only [List.cons_append, List.takeWhile, ha c (by simp)]
    rw [ih (fun x hx => ha x (by simp [hx]))]

theorem dropWhile_append_stop {p : UInt8 → Bool} {a b : Bytes} (ha : ∀ c ∈ a, p c = true)
    (hb : ∀ c, b.head? = some c → p c = false) : (a ++ b).dropWhile p = b := by
  induction a with
  | nil =>
    cases b with
    | nil => rfl
    | cons c b => simp [hb c rfl]
  | cons c a ih =>
    simp only [List.cons_append, List.dropWhile, ha c (by simp)]
    rw [ih (fun x hx => ha x (by simp [hx]))]

theorem stoi_some {s : Bytes} {n : Int} (h : stoi s = some n) : StartsWithNumber s n := by
  unfold stoi at h
  have hsplit := span_split (p := stolSpace) s
  cases hd : s.dropWhile stolSpace with
  | nil => simp [hd] at h
  | cons c r =>
    simp only [hd] at h
    rw [hd] at hsplit
    have hws : AllWs (s.takeWhile stolSpace) := fun x hx => (stolSpace_iff x).mp (mem_takeWhile hx)
    by_cases hsign : (c == 45 || c == 43) = true
    · rw [if_pos hsign] at h
      by_cases he : (r.takeWhile isDigit).isEmpty = true
      · simp [he] at h
      · simp only [he] at h
        refine ⟨s.takeWhile stolSpace, [c], r.takeWhile isDigit, r.dropWhile isDigit, ?_, hws, by simpa using he,
          fun x hx => (isDigit_iff x).mp (mem_takeWhile hx), ?_, ?_⟩
        · simpa using hsplit
        · intro x hx
          rw [← isDigit_iff]
          simp [head_dropWhile r x hx]
        · simp only [Bool.or_eq_true, beq_iff_eq] at hsign
          rcases hsign with rfl | rfl
          · right; right
            simp [digitsVal_eq] at h
            exact ⟨rfl, h.symm⟩
          · right; left
            simp [digitsVal_eq] at h
            exact ⟨rfl, h.symm⟩
    · rw [if_neg hsign] at h
      by_cases he : ((c :: r).takeWhile isDigit).isEmpty = true
      · simp [he] at h
      · simp only [he] at h
        refine ⟨s.takeWhile stolSpace, [], (c :: r).takeWhile isDigit, (c :: r).dropWhile isDigit, ?_, hws, by simpa using he,
          fun x hx => (isDigit_iff x).mp (mem_takeWhile hx), ?_, ?_⟩
        · simpa using hsplit
        · intro x hx
          rw [← isDigit_iff]
          simp [head_dropWhile _ x hx]
        · left
          have : (c == 45) = false := by
            cases h45 : (c == 45)
            · rfl
            · rw [h45] at hsign; simp at hsign
          simp only [this, Bool.false_eq_true, if_false, digitsVal_eq, Option.some.injEq] at h
          exact ⟨rfl, h.symm⟩

theorem stoi_of_number {s : Bytes} {n : Int} (h : StartsWithNumber s n) : stoi s = some n := by
  obtain ⟨ws, sign, ds, rest, e, hws, hne, hds, hrest, hn⟩ := h
  have hw : ∀ c ∈ ws, stolSpace c = true := fun c hc => (stolSpace_iff c).mpr (hws c hc)
  have hd' : ∀ c ∈ ds, isDigit c = true := fun c hc => (isDigit_iff c).mpr (hds c hc)
  have hr' : ∀ c, rest.head? = some c → isDigit c = false := by
    intro c hc
    have := hrest c hc
    rw [← isDigit_iff] at this
    simpa using this
  cases ds with
  | nil => exact absurd rfl hne
  | cons d ds =>
    have hdd := digit_not_ws_sign d (hds d (by simp))
    have htake : (d :: ds ++ rest).takeWhile isDigit = d :: ds := takeWhile_append_stop hd' hr'
    rcases hn with ⟨rfl, rfl⟩ | ⟨rfl, rfl⟩ | ⟨rfl, rfl⟩
    · have hdrop : s.dropWhile stolSpace = d :: ds ++ rest := by
        rw [e]
        simp only [List.append_nil, List.append_assoc]
        apply dropWhile_append_stop hw
        intro c hc
        simp at hc
        subst hc
        have := hdd.1
        rw [← stolSpace_iff] at this
        simpa using this
      unfold stoi
      simp only [hdrop, List.cons_append]
      have h1 : (d == 45 || d == 43) = false := by simp [hdd.2.1, hdd.2.2]
      have h2 : (d == 45) = false := by simp [hdd.2.2]
      simp only [List.cons_append] at htake
      rw [h1, h2]
      simp only [Bool.false_eq_true, if_false, htake, List.isEmpty_cons, digitsVal_eq]
    · have hdrop : s.dropWhile stolSpace = 43 :: (d :: ds ++ rest) := by
        rw [e]
        simp only [List.append_assoc]
        apply dropWhile_append_stop hw
        intro c hc
        simp at hc
        subst hc
        decide
      unfold stoi
      simp only [List.cons_append] at hdrop htake
      simp only [hdrop]
      simp [htake, digitsVal_eq]
    · have hdrop : s.dropWhile stolSpace = 45 :: (d :: ds ++ rest) := by
        rw [e]
        simp only [List.append_assoc]
        apply dropWhile_append_stop hw
        intro c hc
        simp at hc
        subst hc
        decide
      unfold stoi
      simp only [List.cons_append] at hdrop htake
      simp only [hdrop]
      simp [htake, digitsVal_eq]

theorem digit_val : ∀ c : UInt8, IsDigit c → c.toNat - 48 ≤ 9 := by
  apply forall_byte; decide +kernel

theorem decimal_lt (ds : Bytes) (h : ∀ c ∈ ds, IsDigit c) : decimal ds < 10 ^ ds.length := by
  induction ds with
  | nil => simp [decimal]
  | cons c ds ih =>
    have h1 := digit_val c (h c (by simp))
    have h2 := ih (fun x hx => h x (by simp [hx]))
    simp only [decimal, List.length_cons, Nat.pow_succ]
    have : (c.toNat - 48) * 10 ^ ds.length ≤ 9 * 10 ^ ds.length := Nat.mul_le_mul_right _ h1
    omega

/-! ### lines and occurrences of CRLF -/

theorem lines_append (a b : Bytes) : lines (a ++ 13 :: 10 :: b) = lines a ++ lines b := by
  induction a using lines.induct with
  | case1 => simp [lines]
  | case2 c =>
    simp only [List.singleton_append]
    by_cases h : c = 13
    · subst h; simp [lines, consFirst]
    · rw [lines_cons_ne c _ h, lines_crlf]; simp [lines, consFirst]
  | case3 c d rest h ih =>
    obtain ⟨rfl, rfl⟩ := h
    simp only [List.cons_append, lines_crlf, ih]
  | case4 c d rest h ih =>
    simp only [List.cons_append, lines, h, if_false]
    rw [List.cons_append] at ih
    rw [ih]
    cases hl : lines (d :: rest) with
    | nil => exact absurd hl (lines_ne_nil _)
    | cons l ls => simp [consFirst]

theorem findSub_none {s : Bytes} (h : findSub [13, 10] s = none) : lines s = [s] := by
  induction s with
  | nil => rfl
  | cons c s ih =>
    rw [findSub] at h
    by_cases hp : ([13, 10] : Bytes).isPrefixOf (c :: s) = true
    · simp [hp] at h
    · simp only [hp, Bool.false_eq_true, if_false, Option.map_eq_none_iff] at h
      have h1 := ih h
      cases s with
      | nil => rfl
      | cons d s =>
        have : ¬ (c = 13 ∧ d = 10) := by
          rintro ⟨rfl, rfl⟩
          simp [List.isPrefixOf] at hp
        rw [lines, if_neg this, h1]; rfl

theorem findSub_some {s : Bytes} {i : Nat} (h : findSub [13, 10] s = some i) :
    s = s.take i ++ 13 :: 10 :: s.drop (i + 2) ∧ lines (s.take i) = [s.take i] := by
  induction s generalizing i with
  | nil => simp [findSub, List.isPrefixOf] at h
  | cons c s ih =>
    rw [findSub] at h
    by_cases hp : ([13, 10] : Bytes).isPrefixOf (c :: s) = true
    · simp only [hp, if_true, Option.some.injEq] at h
      subst h
      cases s with
      | nil => simp [List.isPrefixOf] at hp
      | cons d s =>
        simp only [List.isPrefixOf, Bool.and_true, Bool.and_eq_true, beq_iff_eq] at hp
        simp [lines, hp.1.symm, hp.2.symm]
    · simp only [hp, Bool.false_eq_true, if_false, Option.map_eq_some_iff] at h
      obtain ⟨j, hj, rfl⟩ := h
      obtain ⟨h1, h2⟩ := ih hj
      refine ⟨by simpa using h1, ?_⟩
      rw [List.take_succ_cons]
      cases ht : s.take j with
      | nil => rfl
      | cons d t =>
        rw [ht] at h2 h1
        have : ¬ (c = 13 ∧ d = 10) := by
          rintro ⟨rfl, rfl⟩
          rw [List.cons_append] at h1
          rw [h1] at hp
          simp [List.isPrefixOf] at hp
        rw [lines, if_neg this, h2]; rfl

theorem lines_of_findSub {s : Bytes} {i : Nat} (h : findSub [13, 10] s = some i) :
    lines s = s.take i :: lines (s.drop (i + 2)) := by
  obtain ⟨h1, h2⟩ := findSub_some h
  conv => lhs; rw [h1]
  rw [lines_append, h2]; rfl

theorem rfindSub_none {s : Bytes} (h : rfindSub [13, 10] s = none) : lines s = [s] := by
  induction s with
  | nil => rfl
  | cons c s ih =>
    rw [rfindSub] at h
    cases hr : rfindSub [13, 10] s with
    | some j => simp [hr] at h
    | none =>
      simp only [hr] at h
      by_cases hp : ([13, 10] : Bytes).isPrefixOf (c :: s) = true
      · simp [hp] at h
      · have h1 := ih hr
        cases s with
        | nil => rfl
        | cons d s =>
          have : ¬ (c = 13 ∧ d = 10) := by
            rintro ⟨rfl, rfl⟩
            simp [List.isPrefixOf] at hp
          rw [lines, if_neg this, h1]; rfl

theorem rfindSub_some {s : Bytes} {i : Nat} (h : rfindSub [13, 10] s = some i) :
    s = s.take i ++ 13 :: 10 :: s.drop (i + 2) ∧ lines (s.drop (i + 2)) = [s.drop (i + 2)] := by
  induction s generalizing i with
  | nil => simp [rfindSub, List.isPrefixOf] at h
  | cons c s ih =>
    rw [rfindSub] at h
    cases hr : rfindSub [13, 10] s with
    | some j =>
      simp only [hr, Option.some.injEq] at h
      subst h
      obtain ⟨h1, h2⟩ := ih hr
      exact ⟨by simpa using h1, by simpa using h2⟩
    | none =>
      simp only [hr] at h
      by_cases hp : ([13, 10] : Bytes).isPrefixOf (c :: s) = true
      · simp only [hp, if_true, Option.some.injEq] at h
        subst h
        cases s with
        | nil => simp [List.isPrefixOf] at hp
        | cons d s =>
          simp only [List.isPrefixOf, Bool.and_true, Bool.and_eq_true, beq_iff_eq] at hp
          refine ⟨by simp [hp.1.symm, hp.2.symm], ?_⟩
          have := rfindSub_none hr
          have hne : d ≠ 13 := by rw [← hp.2]; decide
          rw [lines_cons_ne d s hne] at this
          simp only [Nat.zero_add, List.drop_succ_cons, List.drop_zero]
          cases hl : lines s with
          | nil => exact absurd hl (lines_ne_nil _)
          | cons l ls => rw [hl] at this; simp [consFirst] at this; simp [this]
      · simp [hp] at h

/-! ### words -/

theorem splitSpace_ne_nil (s : Bytes) : splitSpace s ≠ [] := by
  cases s with
  | nil => simp [splitSpace]
  | cons c s =>
    rw [splitSpace]
    cases splitSpace s with
    | nil => simp
    | cons w ws => by_cases h : c = 32 <;> simp [h]

/-- The first word, and what follows. -/
theorem splitSpace_cons (s : Bytes) : ∃ w ws, splitSpace s = w :: ws ∧ 32 ∉ w ∧
    ((ws = [] ∧ s = w) ∨ ∃ r, s = w ++ 32 :: r ∧ splitSpace r = ws) := by
  induction s with
  | nil => exact ⟨[], [], rfl, by simp, Or.inl ⟨rfl, rfl⟩⟩
  | cons c s ih =>
    obtain ⟨w, ws, e, hw, h⟩ := ih
    by_cases hc : c = 32
    · refine ⟨[], w :: ws, by simp [splitSpace, e, hc], by simp, Or.inr ⟨s, by simp [hc], e⟩⟩
    · refine ⟨c :: w, ws, by simp [splitSpace, e, hc], by simp [hw, Ne.symm hc], ?_⟩
      rcases h with ⟨h1, h2⟩ | ⟨r, h1, h2⟩
      · exact Or.inl ⟨h1, by rw [h2]⟩
      · exact Or.inr ⟨r, by rw [h1]; rfl, h2⟩

theorem split_first_space {u v r q : Bytes} (hu : 32 ∉ u) (hv : 32 ∉ v) (e : u ++ 32 :: r = v ++ 32 :: q) :
    u = v ∧ r = q := by
  induction u generalizing v with
  | nil =>
    cases v with
    | nil => simpa using e
    | cons c v => simp at e; simp [← e.1] at hv
  | cons c u ih =>
    cases v with
    | nil => simp at e; simp [e.1] at hu
    | cons d v =>
      simp only [List.cons_append, List.cons.injEq] at e
      simp only [List.mem_cons, not_or] at hu hv
      obtain ⟨h1, h2⟩ := ih hu.2 hv.2 e.2
      exact ⟨by rw [e.1, h1], h2⟩

theorem hasWord_cons_space {w r : Bytes} (u : Bytes) (hu : 32 ∉ u) :
    HasWord w (u ++ 32 :: r) ↔ w = u ∨ HasWord w r := by
  constructor
  · rintro ⟨pre, post, e, hw, hpre, hpost⟩
    rcases hpre with rfl | ⟨p, rfl⟩
    · left
      rcases hpost with rfl | ⟨p, rfl⟩
      · simp only [List.nil_append, List.append_nil] at e
        exact absurd (by rw [← e]; simp : (32 : UInt8) ∈ w) hw
      · simp only [List.nil_append] at e
        exact (split_first_space hu hw e).1.symm
    · right
      have e : u ++ 32 :: r = p ++ 32 :: (w ++ post) := by simpa using e
      obtain ⟨v, vs, _, hv, h⟩ := splitSpace_cons p
      rcases h with ⟨_, rfl⟩ | ⟨q, rfl, _⟩
      · obtain ⟨_, rfl⟩ := split_first_space hu hv e
        exact ⟨[], post, rfl, hw, Or.inl rfl, hpost⟩
      · obtain ⟨_, rfl⟩ := split_first_space hu hv (by simpa using e)
        exact ⟨q ++ [32], post, by simp, hw, Or.inr ⟨q, rfl⟩, hpost⟩
  · rintro (rfl | ⟨pre, post, rfl, hw, hpre, hpost⟩)
    · exact ⟨[], 32 :: r, rfl, hu, Or.inl rfl, Or.inr ⟨r, rfl⟩⟩
    · refine ⟨u ++ 32 :: pre, post, by simp, hw, Or.inr ?_, hpost⟩
      rcases hpre with rfl | ⟨p, rfl⟩
      · exact ⟨u, rfl⟩
      · exact ⟨u ++ 32 :: p, by simp⟩

theorem hasWord_single {w u : Bytes} (hu : 32 ∉ u) : HasWord w u ↔ w = u := by
  constructor
  · rintro ⟨pre, post, rfl, hw, hpre, hpost⟩
    rcases hpre with rfl | ⟨p, rfl⟩
    · rcases hpost with rfl | ⟨p, rfl⟩
      · simp
      · simp at hu
    · simp at hu
  · rintro rfl
    exact ⟨[], [], by simp, hu, Or.inl rfl, Or.inl rfl⟩

theorem mem_splitSpace (w s : Bytes) : w ∈ splitSpace s ↔ HasWord w s := by
  generalize hn : s.length = n
  induction n using Nat.strongRecOn generalizing s with
  | _ n ih =>
    obtain ⟨u, ws, e, hu, h⟩ := splitSpace_cons s
    rw [e]
    rcases h with ⟨rfl, rfl⟩ | ⟨r, rfl, rfl⟩
    · rw [hasWord_single hu]; simp
    · rw [hasWord_cons_space u hu, List.mem_cons, ih r.length (by simp at hn; omega) r rfl]

theorem foldl_setOption (ws : List Bytes) (o : AuthOptions) :
    (ws.foldl setOption o).plain = (o.plain || decide (b!"PLAIN" ∈ ws)) ∧
    (ws.foldl setOption o).login = (o.login || decide (b!"LOGIN" ∈ ws)) ∧
    (ws.foldl setOption o).xoauth2 = (o.xoauth2 || decide (b!"XOAUTH2" ∈ ws)) ∧
    (ws.foldl setOption o).plainClientToken = (o.plainClientToken || decide (b!"PLAIN-CLIENTTOKEN" ∈ ws)) ∧
    (ws.foldl setOption o).oauthBearer = (o.oauthBearer || decide (b!"OAUTHBEARER" ∈ ws)) ∧
    (ws.foldl setOption o).xoauth = (o.xoauth || decide (b!"XOAUTH" ∈ ws)) := by
  induction ws generalizing o with
  | nil => simp
  | cons w ws ih =>
    simp only [List.foldl_cons]
    obtain ⟨h1, h2, h3, h4, h5, h6⟩ := ih (setOption o w)
    rw [h1, h2, h3, h4, h5, h6]
    unfold setOption
    by_cases e1 : w = b!"PLAIN"
    · subst e1; simp
    by_cases e2 : w = b!"LOGIN"
    · subst e2; simp
    by_cases e3 : w = b!"XOAUTH2"
    · subst e3; simp
    by_cases e4 : w = b!"PLAIN-CLIENTTOKEN"
    · subst e4; simp
    by_cases e5 : w = b!"OAUTHBEARER"
    · subst e5; simp
    by_cases e6 : w = b!"XOAUTH"
    · subst e6; simp
    simp [e1, e2, e3, e4, e5, e6, eq_comm (b := w)]

/-! ### AUTH lines -/

theorem take_eq_iff_prefix (p l : Bytes) : l.take p.length = p ↔ p <+: l := by
  constructor
  · intro h; exact ⟨l.drop p.length, by conv => rhs; rw [← List.take_append_drop p.length l, h]⟩
  · rintro ⟨t, rfl⟩; simp

/-- What the parser returns for a line. -/
def optionsOf (l : Bytes) : AuthOptions := (splitSpace l).foldl setOption {}

theorem parse_auth {l : Bytes} (h : IsAuthLine l) : parseAuthOptions l = some (optionsOf l) := by
  unfold parseAuthOptions
  rw [if_pos]
  · rfl
  · rcases h with h | h
    · exact Or.inl ((take_eq_iff_prefix b!"250-AUTH" l).mpr h)
    · exact Or.inr ((take_eq_iff_prefix b!"250 AUTH" l).mpr h)

theorem parse_none {l : Bytes} (h : ¬ IsAuthLine l) : parseAuthOptions l = none := by
  unfold parseAuthOptions
  rw [if_neg]
  rintro (h1 | h1)
  · exact h (Or.inl ((take_eq_iff_prefix b!"250-AUTH" l).mp h1))
  · exact h (Or.inr ((take_eq_iff_prefix b!"250 AUTH" l).mp h1))

/-- Whether a text starts with a block without CR only depends on its first line. -/
theorem prefix_first_line {p : Bytes} (hp : ∀ c ∈ p, c ≠ 13) {s l : Bytes} {ls : List Bytes} (h : lines s = l :: ls) :
    p <+: s ↔ p <+: l := by
  induction p generalizing s l ls with
  | nil => simp
  | cons c p ih =>
    have hc := hp c (by simp)
    cases s with
    | nil => simp [lines] at h; simp [← h.1]
    | cons d s =>
      by_cases hd : d = 13
      · subst hd
        constructor
        · rintro ⟨t, ht⟩; simp at ht; exact absurd ht.1 hc
        · rintro ⟨t, ht⟩
          exfalso
          cases s with
          | nil => simp [lines] at h; rw [← h.1] at ht; simp at ht; exact hc ht.1
          | cons e s =>
            by_cases he : e = 10
            · subst he; rw [lines_crlf] at h; simp at h; rw [h.1] at ht; simp at ht
            · rw [lines, if_neg (by simp [he])] at h
              cases hl : lines (e :: s) with
              | nil => exact absurd hl (lines_ne_nil _)
              | cons m ms =>
                rw [hl] at h; simp [consFirst] at h; rw [← h.1] at ht; simp at ht; exact hc ht.1
      · rw [lines_cons_ne d s hd] at h
        cases hl : lines s with
        | nil => exact absurd hl (lines_ne_nil _)
        | cons m ms =>
          rw [hl] at h
          simp [consFirst] at h
          rw [← h.1, List.cons_prefix_cons, List.cons_prefix_cons,
            ih (fun x hx => hp x (by simp [hx])) hl]

theorem isAuthLine_first {s l : Bytes} {ls : List Bytes} (h : lines s = l :: ls) : IsAuthLine s ↔ IsAuthLine l := by
  unfold IsAuthLine
  rw [prefix_first_line (by decide) h, prefix_first_line (by decide) h]

/-- The loop, as a search through the lines. `first` tells whether we are at the very first line: a single line that is not
followed by CRLF is only looked at when something preceded it. -/
theorem extractAuthLoop_spec (fuel : Nat) (s : Bytes) (ret : Option AuthOptions) (hf : s.length ≤ fuel)
    (hret : ret = none ∨ (IsAuthLine s ∧ ret = some (optionsOf s))) (hne : s ≠ [] → IsAuthLine s → ret ≠ none ∨ 2 ≤ (lines s).length) :
    (extractAuthLoop fuel s ret = none ∧ (∀ l ∈ lines s, ¬ IsAuthLine l)) ∨
    ∃ pre l post, lines s = pre ++ l :: post ∧ IsAuthLine l ∧ (∀ m ∈ pre, ¬ IsAuthLine m) ∧
      extractAuthLoop fuel s ret = some (optionsOf l) := by
  induction fuel generalizing s ret with
  | zero =>
    have : s = [] := by cases s <;> simp_all
    subst this
    left
    have hno : ¬ IsAuthLine [] := by rintro (⟨t, h⟩ | ⟨t, h⟩) <;> simp at h
    rcases hret with rfl | ⟨h, _⟩
    · exact ⟨rfl, by simpa [lines] using hno⟩
    · exact absurd h hno
  | succ fuel ih =>
    rw [extractAuthLoop]
    cases hfs : findSub b!"\r\n" s with
    | none =>
      have hl := findSub_none hfs
      simp only [hl]
      rcases hret with rfl | ⟨h, rfl⟩
      · left
        refine ⟨rfl, ?_⟩
        intro l hmem
        simp at hmem; subst hmem
        intro hauth
        by_cases hs : l = []
        · subst hs; rcases hauth with ⟨t, h⟩ | ⟨t, h⟩ <;> simp at h
        · rcases hne hs hauth with h | h
          · exact h rfl
          · rw [hl] at h; simp at h
      · right
        exact ⟨[], s, [], by simp, h, by simp, rfl⟩
    | some i =>
      have hl := lines_of_findSub hfs
      obtain ⟨hs, _⟩ := findSub_some hfs
      simp only
      by_cases hauth : IsAuthLine (s.take i)
      · right
        rw [parse_auth hauth]
        exact ⟨[], s.take i, lines (s.drop (i + 2)), by simpa using hl, hauth, by simp, rfl⟩
      · rw [parse_none hauth]
        simp only
        have hret' : ret = none := by
          rcases hret with h | ⟨h, _⟩
          · exact h
          · exact absurd ((isAuthLine_first hl).mp h) hauth
        subst hret'
        have hlen : (s.drop (i + 2)).length ≤ fuel := by
          have := congrArg List.length hs
          simp at this
          simp; omega
        have key := ih (s.drop (i + 2))
          (if !(s.drop (i + 2)).isEmpty && (none : Option AuthOptions).isNone then parseAuthOptions (s.drop (i + 2)) else none)
          hlen ?_ ?_
        · rcases key with ⟨h1, h2⟩ | ⟨pre, l, post, h1, h2, h3, h4⟩
          · left
            refine ⟨h1, ?_⟩
            rw [hl]
            intro l hmem
            rcases List.mem_cons.mp hmem with rfl | hmem
            · exact hauth
            · exact h2 l hmem
          · right
            refine ⟨s.take i :: pre, l, post, by rw [hl, h1]; rfl, h2, ?_, h4⟩
            intro m hm
            rcases List.mem_cons.mp hm with rfl | hm
            · exact hauth
            · exact h3 m hm
        · by_cases he : (s.drop (i + 2)).isEmpty = true
          · left; simp [he]
          · by_cases ha : IsAuthLine (s.drop (i + 2))
            · right; refine ⟨ha, ?_⟩; simp [he, parse_auth ha]
            · left; simp [parse_none ha]
        · intro hne' ha
          left
          have he : (s.drop (i + 2)).isEmpty = false := by
            cases h : s.drop (i + 2) with
            | nil => exact absurd h hne'
            | cons => rfl
          simp [he, parse_auth ha]

end Verif.Proofs
