import Verif.Model.Regex
import Verif.Spec.Email
import Verif.Proofs.Byte
/-! The derivative matcher decides the language of the expression; the language of the e-mail pattern. -/
namespace Verif.Proofs
open Verif Verif.Spec Verif.Model

/-- The language of an expression. -/
inductive Lang : Re → Bytes → Prop
  | eps : Lang .eps []
  | cls {p c} (h : p c = true) : Lang (.cls p) [c]
  | seq {a b s t} (h1 : Lang a s) (h2 : Lang b t) : Lang (.seq a b) (s ++ t)
  | altl {a b s} (h : Lang a s) : Lang (.alt a b) s
  | altr {a b s} (h : Lang b s) : Lang (.alt a b) s
  | starNil {a} : Lang (.star a) []
  | starCons {a s t} (h1 : Lang a s) (h2 : Lang (.star a) t) : Lang (.star a) (s ++ t)

theorem lang_none {s} : ¬ Lang .none s := by intro h; cases h
theorem lang_eps {s} : Lang .eps s ↔ s = [] :=
  ⟨fun h => by cases h; rfl, fun h => h ▸ .eps⟩
theorem lang_cls {p s} : Lang (.cls p) s ↔ ∃ c, s = [c] ∧ p c = true :=
  ⟨fun h => by cases h with | cls h => exact ⟨_, rfl, h⟩, fun ⟨_, e, h⟩ => e ▸ .cls h⟩
theorem lang_seq {a b s} : Lang (.seq a b) s ↔ ∃ u v, s = u ++ v ∧ Lang a u ∧ Lang b v :=
  ⟨fun h => by cases h with | seq h1 h2 => exact ⟨_, _, rfl, h1, h2⟩, fun ⟨_, _, e, h1, h2⟩ => e ▸ .seq h1 h2⟩
theorem lang_alt {a b s} : Lang (.alt a b) s ↔ Lang a s ∨ Lang b s :=
  ⟨fun h => by cases h with | altl h => exact .inl h | altr h => exact .inr h,
   fun h => h.elim .altl .altr⟩

theorem nullable_iff (r : Re) : r.nullable = true ↔ Lang r [] := by
  induction r with
  | none => simp [Re.nullable, lang_none]
  | eps => simp [Re.nullable, lang_eps]
  | cls p => simp [Re.nullable, lang_cls]
  | seq a b iha ihb =>
    simp only [Re.nullable, Bool.and_eq_true, iha, ihb, lang_seq]
    constructor
    · rintro ⟨h1, h2⟩; exact ⟨[], [], rfl, h1, h2⟩
    · rintro ⟨u, v, e, h1, h2⟩
      have := List.append_eq_nil_iff.mp e.symm
      rw [this.1] at h1; rw [this.2] at h2; exact ⟨h1, h2⟩
  | alt a b iha ihb => simp [Re.nullable, iha, ihb, lang_alt]
  | star a _ => simp only [Re.nullable, true_iff]; exact .starNil

/-- A nonempty word of a star starts with a nonempty word of its body. -/
theorem star_cons {a : Re} {c : UInt8} {s : Bytes} (h : Lang (.star a) (c :: s)) :
    ∃ u v, s = u ++ v ∧ Lang a (c :: u) ∧ Lang (.star a) v := by
  generalize hr : Re.star a = r at h
  generalize hw : c :: s = w at h
  induction h with
  | eps => simp at hr
  | cls => simp at hr
  | seq => simp at hr
  | altl => simp at hr
  | altr => simp at hr
  | starNil => simp at hw
  | @starCons b x y h1 h2 _ ih2 =>
    simp only [Re.star.injEq] at hr
    subst hr
    cases x with
    | nil => exact ih2 rfl (by simpa using hw)
    | cons d x =>
      simp only [List.cons_append, List.cons.injEq] at hw
      exact ⟨x, y, hw.2, hw.1 ▸ h1, h2⟩

theorem deriv_iff (r : Re) (c : UInt8) (s : Bytes) : Lang (r.deriv c) s ↔ Lang r (c :: s) := by
  induction r generalizing s with
  | none => simp [Re.deriv, lang_none]
  | eps => simp [Re.deriv, lang_none, lang_eps]
  | cls p =>
    rw [Re.deriv, lang_cls]
    by_cases h : p c = true
    · simp only [h, if_true, lang_eps]
      exact ⟨fun e => ⟨c, by rw [e], h⟩, fun ⟨d, e, _⟩ => (List.cons.inj e).2⟩
    · simp only [h, Bool.false_eq_true, if_false, lang_none, false_iff]
      rintro ⟨d, e, hd⟩
      rw [(List.cons.inj e).1] at h
      exact h hd
  | seq a b iha ihb =>
    have key : Lang (.seq (a.deriv c) b) s ↔ ∃ u v, s = u ++ v ∧ Lang a (c :: u) ∧ Lang b v := by
      rw [lang_seq]
      constructor
      · rintro ⟨u, v, e, h1, h2⟩; exact ⟨u, v, e, (iha u).mp h1, h2⟩
      · rintro ⟨u, v, e, h1, h2⟩; exact ⟨u, v, e, (iha u).mpr h1, h2⟩
    rw [Re.deriv, lang_seq]
    have right : (∃ u v, c :: s = u ++ v ∧ Lang a u ∧ Lang b v) ↔
        (∃ u v, s = u ++ v ∧ Lang a (c :: u) ∧ Lang b v) ∨ (Lang a [] ∧ Lang b (c :: s)) := by
      constructor
      · rintro ⟨u, v, e, h1, h2⟩
        cases u with
        | nil => right; simp at e; rw [e]; exact ⟨h1, h2⟩
        | cons d u =>
          simp only [List.cons_append, List.cons.injEq] at e
          left; exact ⟨u, v, e.2, e.1 ▸ h1, h2⟩
      · rintro (⟨u, v, e, h1, h2⟩ | ⟨h1, h2⟩)
        · exact ⟨c :: u, v, by simp [e], h1, h2⟩
        · exact ⟨[], c :: s, rfl, h1, h2⟩
    rw [right]
    by_cases hn : a.nullable = true
    · simp only [hn, if_true, lang_alt, key, ihb, (nullable_iff a).mp hn, true_and]
    · have hn' : ¬ Lang a [] := fun h => hn ((nullable_iff a).mpr h)
      simp only [hn, Bool.false_eq_true, if_false, key, hn', false_and, or_false]
  | alt a b iha ihb => simp [Re.deriv, lang_alt, iha, ihb]
  | star a ih =>
    rw [Re.deriv, lang_seq]
    constructor
    · rintro ⟨u, v, e, h1, h2⟩
      rw [e]
      exact .starCons ((ih u).mp h1) h2
    · intro h
      obtain ⟨u, v, e, h1, h2⟩ := star_cons h
      exact ⟨u, v, e, (ih u).mpr h1, h2⟩

theorem fullMatch_iff (r : Re) (s : Bytes) : r.fullMatch s = true ↔ Lang r s := by
  induction s generalizing r with
  | nil => exact nullable_iff r
  | cons c s ih => rw [Re.fullMatch, ih, deriv_iff]

/-! ### the pieces of the pattern -/

theorem lang_plus_cls {p : UInt8 → Bool} {s : Bytes} :
    Lang (.plus (.cls p)) s ↔ s ≠ [] ∧ ∀ c ∈ s, p c = true := by
  have star : ∀ s, Lang (.star (.cls p)) s ↔ ∀ c ∈ s, p c = true := by
    intro s
    induction s with
    | nil => simp [Lang.starNil]
    | cons c s ih =>
      constructor
      · intro h
        obtain ⟨u, v, e, h1, h2⟩ := star_cons h
        obtain ⟨d, hd, hp⟩ := lang_cls.mp h1
        simp only [List.cons.injEq] at hd
        obtain ⟨rfl, rfl⟩ := hd
        simp at e; subst e
        intro x hx
        rcases List.mem_cons.mp hx with rfl | hx
        · exact hp
        · exact ih.mp h2 x hx
      · intro h
        exact .starCons (s := [c]) (.cls (h c (by simp))) (ih.mpr (fun x hx => h x (by simp [hx])))
  unfold Re.plus
  rw [lang_seq]
  constructor
  · rintro ⟨u, v, rfl, h1, h2⟩
    obtain ⟨d, rfl, hp⟩ := lang_cls.mp h1
    refine ⟨by simp, ?_⟩
    intro x hx
    rcases List.mem_cons.mp hx with rfl | hx
    · exact hp
    · exact (star v).mp h2 x hx
  · rintro ⟨hne, h⟩
    cases s with
    | nil => exact absurd rfl hne
    | cons c s => exact ⟨[c], s, rfl, .cls (h c (by simp)), (star s).mpr (fun x hx => h x (by simp [hx]))⟩

/-- The tail of a dotted text: nothing or a separator followed by a dotted text. -/
theorem lang_dotted_tail {p : UInt8 → Bool} {s : Bytes} (h : Lang (.star (.seq (.cls clsDot) (.plus (.cls p)))) s) :
    (∀ c ∈ s, p c = true ∨ clsDot c = true) ∧ (s = [] ∨ ∃ c, s.getLast? = some c ∧ p c = true) ∧
    (∀ a x y b, s = a ++ x :: y :: b → p x = true ∨ p y = true) := by
  generalize hn : s.length = n
  induction n using Nat.strongRecOn generalizing s with
  | _ n ih =>
    cases s with
    | nil => exact ⟨by simp, Or.inl rfl, by intro a x y b e; simp at e⟩
    | cons c s =>
      obtain ⟨u, v, rfl, h1, h2⟩ := star_cons h
      obtain ⟨x, y, e, hx, hy⟩ := lang_seq.mp h1
      obtain ⟨d, rfl, hd⟩ := lang_cls.mp hx
      simp only [List.singleton_append, List.cons.injEq] at e
      obtain ⟨rfl, rfl⟩ := e
      obtain ⟨hne, hall⟩ := lang_plus_cls.mp hy
      obtain ⟨i1, i2, i3⟩ := ih v.length (by simp at hn; omega) h2 rfl
      refine ⟨?_, Or.inr ?_, ?_⟩
      · intro z hz
        simp at hz
        rcases hz with rfl | hz | hz
        · exact Or.inr hd
        · exact Or.inl (hall z hz)
        · exact i1 z hz
      · rcases i2 with rfl | ⟨z, hz, hp⟩
        · simp only [List.append_nil]
          cases hl : u.getLast? with
          | none => simp at hl; exact absurd hl hne
          | some z =>
            refine ⟨z, ?_, hall z (List.mem_of_getLast? hl)⟩
            rw [List.getLast?_cons, hl]; rfl
        · exact ⟨z, by rw [List.getLast?_cons, List.getLast?_append, hz]; rfl, hp⟩
      · intro a x y b e
        -- neighbours
        cases a with
        | nil =>
          simp at e
          right
          cases u with
          | nil => exact absurd rfl hne
          | cons k u => simp at e; rw [← e.2.1]; exact hall k (by simp)
        | cons k a =>
          simp only [List.cons_append, List.cons.injEq] at e
          -- inside u ++ v
          have e' := e.2
          rcases List.append_eq_append_iff.mp e' with ⟨t, h1', h2'⟩ | ⟨t, h1', h2'⟩
          · -- a = u ++ t, v = t ++ x :: y :: b
            exact i3 t x y b h2'
          · -- u = a ++ t, x :: y :: b = t ++ v
            cases t with
            | nil =>
              simp at h2'
              exact i3 [] x y b (by simpa using h2'.symm)
            | cons m t =>
              simp at h2'
              left
              rw [h2'.1]
              exact hall m (by rw [h1']; simp)

theorem lang_dotted {p : UInt8 → Bool} {W : UInt8 → Prop} (hW : ∀ c, p c = true ↔ W c)
    (hnb : ∀ c, W c → c ≠ 13 ∧ c ≠ 10) {s : Bytes} :
    (∃ u v, s = u ++ v ∧ Lang (.plus (.cls p)) u ∧ Lang (.star (.seq (.cls clsDot) (.plus (.cls p)))) v) ↔ Dotted W s := by
  constructor
  · rintro ⟨u, v, rfl, h1, h2⟩
    obtain ⟨hne, hall⟩ := lang_plus_cls.mp h1
    obtain ⟨i1, i2, i3⟩ := lang_dotted_tail h2
    cases u with
    | nil => exact absurd rfl hne
    | cons k u =>
      refine ⟨?_, ⟨k, rfl, (hW k).mp (hall k (by simp))⟩, ?_, ?_⟩
      · intro c hc
        rcases List.mem_append.mp hc with hc | hc
        · exact hnb c ((hW c).mp (hall c hc))
        · rcases i1 c hc with h | h
          · exact hnb c ((hW c).mp h)
          · simp [clsDot] at h; exact ⟨h.2, h.1⟩
      · rcases i2 with rfl | ⟨z, hz, hp⟩
        · simp only [List.append_nil]
          cases hl : (k :: u).getLast? with
          | none => simp at hl
          | some z => exact ⟨z, rfl, (hW z).mp (hall z (List.mem_of_getLast? hl))⟩
        · exact ⟨z, by rw [List.getLast?_append, hz]; rfl, (hW z).mp hp⟩
      · intro a x y b e
        rw [← hW, ← hW]
        rcases List.append_eq_append_iff.mp e with ⟨t, h1', h2'⟩ | ⟨t, h1', h2'⟩
        · exact i3 t x y b h2'
        · cases t with
          | nil => exact i3 [] x y b (by simpa using h2'.symm)
          | cons m t =>
            simp at h2'
            left
            rw [h2'.1]
            exact hall m (by rw [h1']; simp)
  · intro h
    -- induction on the length: cut the first run
    have key : ∀ n, ∀ s : Bytes, s.length = n → Dotted W s →
        ∃ u v, s = u ++ v ∧ Lang (.plus (.cls p)) u ∧ Lang (.star (.seq (.cls clsDot) (.plus (.cls p)))) v := by
      intro n
      induction n using Nat.strongRecOn with
      | _ n ih =>
        intro s hn hd
        obtain ⟨hb, ⟨c, hc, hcW⟩, hlast, hsingle⟩ := hd
        cases s with
        | nil => simp at hc
        | cons c' s =>
          simp at hc; subst hc
          cases s with
          | nil => exact ⟨[c'], [], rfl, lang_plus_cls.mpr ⟨by simp, by simpa using (hW c').mpr hcW⟩, .starNil⟩
          | cons d s =>
            by_cases hdW : W d
            · -- the first run continues
              obtain ⟨u, v, e, h1, h2⟩ := ih (d :: s).length (by simp at hn ⊢; omega) (d :: s) rfl
                ⟨fun x hx => hb x (by simp at hx ⊢; right; exact hx), ⟨d, rfl, hdW⟩, by
                  obtain ⟨z, hz, hzW⟩ := hlast
                  exact ⟨z, by simpa using hz, hzW⟩,
                  fun a x y b e => hsingle (c' :: a) x y b (by simp [e])⟩
              obtain ⟨hne, hall⟩ := lang_plus_cls.mp h1
              refine ⟨c' :: u, v, by rw [e]; rfl, lang_plus_cls.mpr ⟨by simp, ?_⟩, h2⟩
              intro x hx
              rcases List.mem_cons.mp hx with rfl | hx
              · exact (hW x).mpr hcW
              · exact hall x hx
            · -- separator: the next one is in the class
              cases s with
              | nil =>
                obtain ⟨z, hz, hzW⟩ := hlast
                simp at hz; subst hz; exact absurd hzW hdW
              | cons e s =>
                have heW : W e := by
                  rcases hsingle [c'] d e s rfl with h | h
                  · exact absurd h hdW
                  · exact h
                obtain ⟨u, v, e', h1, h2⟩ := ih (e :: s).length (by simp at hn ⊢; omega) (e :: s) rfl
                  ⟨fun x hx => hb x (by simp at hx ⊢; right; right; exact hx), ⟨e, rfl, heW⟩, by
                    obtain ⟨z, hz, hzW⟩ := hlast
                    exact ⟨z, by simpa using hz, hzW⟩,
                    fun a x y b e' => hsingle (c' :: d :: a) x y b (by simp [e'])⟩
                refine ⟨[c'], d :: (u ++ v), by rw [e']; rfl,
                  lang_plus_cls.mpr ⟨by simp, by simpa using (hW c').mpr hcW⟩, ?_⟩
                have hdot : clsDot d = true := by
                  have := hb d (by simp)
                  simp [clsDot, this]
                have : Lang (.seq (.cls clsDot) (.plus (.cls p))) ([d] ++ u) := .seq (.cls hdot) h1
                exact .starCons this h2
    exact key s.length s rfl h

theorem lang_tld {s : Bytes} : Lang reTld s ↔ (2 ≤ s.length ∧ s.length ≤ 4 ∧ ∀ c ∈ s, 97 ≤ c ∧ c ≤ 122) := by
  have ha : ∀ c, clsAlpha c = true ↔ (97 ≤ c ∧ c ≤ 122) := by intro c; simp [clsAlpha]
  unfold reTld
  constructor
  · intro h
    obtain ⟨_, _, rfl, g1, k1⟩ := lang_seq.mp h
    obtain ⟨_, _, rfl, g2, k2⟩ := lang_seq.mp k1
    obtain ⟨a, rfl, h1⟩ := lang_cls.mp g1
    obtain ⟨b, rfl, h2⟩ := lang_cls.mp g2
    rcases lang_alt.mp k2 with k3 | k3
    · rw [lang_eps.mp k3]; simp [← ha, h1, h2]
    · obtain ⟨_, _, rfl, g3, k4⟩ := lang_seq.mp k3
      obtain ⟨c, rfl, h3⟩ := lang_cls.mp g3
      rcases lang_alt.mp k4 with k5 | k5
      · rw [lang_eps.mp k5]; simp [← ha, h1, h2, h3]
      · obtain ⟨d, rfl, h4⟩ := lang_cls.mp k5
        simp [← ha, h1, h2, h3, h4]
  · rintro ⟨hl, hu, h⟩
    match s, hl, hu, h with
    | [a, b], _, _, h =>
      simp [← ha] at h
      exact .seq (s := [a]) (t := [b]) (.cls h.1) (.seq (s := [b]) (t := []) (.cls h.2) (.altl .eps))
    | [a, b, c], _, _, h =>
      simp [← ha] at h
      exact .seq (s := [a]) (t := [b, c]) (.cls h.1) (.seq (s := [b]) (t := [c]) (.cls h.2.1)
        (.altr (.seq (s := [c]) (t := []) (.cls h.2.2) (.altl .eps))))
    | [a, b, c, d], _, _, h =>
      simp [← ha] at h
      exact .seq (s := [a]) (t := [b, c, d]) (.cls h.1) (.seq (s := [b]) (t := [c, d]) (.cls h.2.1)
        (.altr (.seq (s := [c]) (t := [d]) (.cls h.2.2.1) (.altr (.cls h.2.2.2)))))
    | [], hl, _, _ => simp at hl
    | [_], hl, _, _ => simp at hl
    | _ :: _ :: _ :: _ :: _ :: _, _, hu, _ => simp at hu

theorem clsDomain_iff (c : UInt8) : clsDomain c = true ↔ DomainChar c := by
  simp [clsDomain, DomainChar, or_assoc]

theorem clsLocal_iff (c : UInt8) : clsLocal c = true ↔ LocalChar c := by
  simp [clsLocal, LocalChar, clsDomain_iff, or_comm]

theorem domainChar_noBreak : ∀ c : UInt8, DomainChar c → c ≠ 13 ∧ c ≠ 10 := by
  apply forall_byte; decide +kernel

theorem localChar_noBreak : ∀ c : UInt8, LocalChar c → c ≠ 13 ∧ c ≠ 10 := by
  apply forall_byte; decide +kernel

theorem emailPattern_iff (s : Bytes) : emailPattern.fullMatch s = true ↔ EmailShape s := by
  rw [fullMatch_iff]
  unfold emailPattern EmailShape
  constructor
  · intro h
    obtain ⟨u, _, rfl, h1, k1⟩ := lang_seq.mp h
    obtain ⟨v, _, rfl, h2, k2⟩ := lang_seq.mp k1
    obtain ⟨_, _, rfl, g3, k3⟩ := lang_seq.mp k2
    obtain ⟨at', rfl, h3⟩ := lang_cls.mp g3
    obtain ⟨w, _, rfl, h4, k4⟩ := lang_seq.mp k3
    obtain ⟨x, _, rfl, h5, k5⟩ := lang_seq.mp k4
    obtain ⟨_, tld, rfl, g6, h7⟩ := lang_seq.mp k5
    obtain ⟨sep, rfl, h6⟩ := lang_cls.mp g6
    simp at h3; subst h3
    simp [clsDot] at h6
    obtain ⟨l1, l2, l3⟩ := lang_tld.mp h7
    exact ⟨u ++ v, w ++ x, sep, tld, by simp, (lang_dotted clsLocal_iff localChar_noBreak).mp ⟨u, v, rfl, h1, h2⟩,
      (lang_dotted clsDomain_iff domainChar_noBreak).mp ⟨w, x, rfl, h4, h5⟩, h6.1, h6.2, l1, l2, l3⟩
  · rintro ⟨loc, base, sep, tld, rfl, hl, hb, h10, h13, l1, l2, l3⟩
    obtain ⟨u, v, rfl, h1, h2⟩ := (lang_dotted clsLocal_iff localChar_noBreak).mpr hl
    obtain ⟨w, x, rfl, h4, h5⟩ := (lang_dotted clsDomain_iff domainChar_noBreak).mpr hb
    have hsep : clsDot sep = true := by simp [clsDot, h10, h13]
    have h67 := Lang.seq (Lang.cls hsep) (lang_tld.mpr ⟨l1, l2, l3⟩)
    have h := Lang.seq h1 (.seq h2 (.seq (Lang.cls (p := (· == 64)) (c := 64) rfl) (.seq h4 (.seq h5 h67))))
    simpa using h

end Verif.Proofs
