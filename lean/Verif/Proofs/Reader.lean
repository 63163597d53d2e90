import Verif.Spec.Reader
import Verif.Spec.Delivery
/-!
# Reading header sections
-/
namespace Verif.Proofs
open Verif Verif.Model Verif.Spec

theorem cut_plain {sep : UInt8} (s : Bytes) (hs : ∀ c ∈ s, c ≠ 34 ∧ c ≠ 40 ∧ c ≠ 60 ∧ c ≠ sep) {t x : Bytes} {xs : List Bytes}
    (h : cutAt sep .plain t = x :: xs) : cutAt sep .plain (s ++ t) = (s ++ x) :: xs := by
  induction s with
  | nil => exact h
  | cons c s ih =>
    obtain ⟨h1, h2, h3, h4⟩ := hs c (by simp)
    simp [cutAt, Within.next, h1, h2, h3, h4, ih fun d hd => hs d (by simp [hd]), consFirst]

theorem cut_angle {sep : UInt8} (s : Bytes) (hs : ∀ c ∈ s, c ≠ 62) {t x : Bytes} {xs : List Bytes}
    (h : cutAt sep .plain t = x :: xs) : cutAt sep .angle (s ++ 62 :: t) = (s ++ 62 :: x) :: xs := by
  induction s with
  | nil => simp [cutAt, Within.next, h, consFirst]
  | cons c s ih =>
    have h1 := hs c (by simp)
    simp [cutAt, Within.next, h1, ih fun d hd => hs d (by simp [hd]), consFirst]

/-- An address that can be read back. -/
def Readable (a : MessageAddress) : Prop := PlainText a.displayName ∧ PlainText a.email

theorem cut_shown {a : MessageAddress} (h : Readable a) {t x : Bytes} {xs : List Bytes}
    (ht : cutAt 44 .plain t = x :: xs) : cutAt 44 .plain (32 :: shown a ++ t) = (32 :: shown a ++ x) :: xs := by
  obtain ⟨⟨hn, -⟩, ⟨he, -⟩⟩ := h
  unfold shown
  split
  · refine cut_plain (32 :: a.email) ?_ ht
    intro c hc
    rcases List.mem_cons.mp hc with rfl | hc
    · decide
    · obtain ⟨h1, h2, h3, h4, -⟩ := he c hc
      exact ⟨h1, h2, h4, h3⟩
  · have e1 : 32 :: (a.displayName ++ b!" <" ++ a.email ++ b!">") ++ t = (32 :: a.displayName ++ [32]) ++ (60 :: (a.email ++ 62 :: t)) := by simp
    have e2 : 32 :: (a.displayName ++ b!" <" ++ a.email ++ b!">") ++ x = (32 :: a.displayName ++ [32]) ++ (60 :: (a.email ++ 62 :: x)) := by simp
    rw [e1, e2]
    refine cut_plain _ ?_ ?_
    · intro c hc
      simp only [List.cons_append, List.mem_cons, List.mem_append, List.not_mem_nil, or_false] at hc
      rcases hc with rfl | hc | rfl
      · decide
      · obtain ⟨h1, h2, h3, h4, -⟩ := hn c hc
        exact ⟨h1, h2, h4, h3⟩
      · decide
    · have := cut_angle a.email (fun c hc => (he c hc).2.2.2.2) ht
      simp [cutAt, Within.next, this, consFirst]

theorem cut_list (a : MessageAddress) (l : List MessageAddress) (h : ∀ b ∈ a :: l, Readable b) :
    cutAt 44 .plain (32 :: List.intercalate b!", " ((a :: l).map shown)) = (a :: l).map fun b => 32 :: shown b := by
  induction l generalizing a with
  | nil =>
    have := cut_shown (h a (by simp)) (t := []) (x := []) (xs := []) rfl
    simpa [List.intercalate] using this
  | cons b l ih =>
    have hb := ih b fun c hc => h c (by simp [List.mem_cons.mp hc])
    have e : 32 :: List.intercalate b!", " ((a :: b :: l).map shown)
        = 32 :: shown a ++ (44 :: 32 :: List.intercalate b!", " ((b :: l).map shown)) := by
      simp [List.intercalate, List.intersperse]
    rw [e]
    have := cut_shown (h a (by simp)) (t := 44 :: 32 :: List.intercalate b!", " ((b :: l).map shown)) (x := [])
      (xs := (b :: l).map fun b => 32 :: shown b) (by rw [cutAt, if_pos ⟨rfl, rfl⟩, hb])
    rw [this]
    simp

theorem trimmed_cons (s : Bytes) : trimmed (32 :: s) = trimmed s := by
  unfold trimmed
  rw [List.dropWhile_cons_of_pos (by decide)]

theorem dropWhile_snoc (s : Bytes) : (s.dropWhile isBlank = [] ∧ (s ++ [32]).dropWhile isBlank = []) ∨
    (s ++ [32]).dropWhile isBlank = s.dropWhile isBlank ++ [32] := by
  induction s with
  | nil => exact .inl (by decide)
  | cons c s ih =>
    by_cases h : isBlank c = true
    · simpa [List.dropWhile_cons, h] using ih
    · exact .inr (by simp [List.dropWhile_cons, h])

theorem trimmed_snoc (s : Bytes) : trimmed (s ++ [32]) = trimmed s := by
  unfold trimmed
  rcases dropWhile_snoc s with ⟨h1, h2⟩ | h
  · rw [h1, h2]
  · rw [h, List.reverse_append, List.reverse_singleton, List.singleton_append, List.dropWhile_cons_of_pos (by decide)]

theorem mailbox_shown {a : MessageAddress} (h : Readable a) : mailbox (32 :: shown a) = (a.displayName, a.email) := by
  obtain ⟨⟨hn, tn⟩, ⟨he, te⟩⟩ := h
  have ok : ∀ s : Bytes, (∀ c ∈ s, c ≠ 34 ∧ c ≠ 40 ∧ c ≠ 44 ∧ c ≠ 60 ∧ c ≠ 62) → ∀ c ∈ s, c ≠ 34 ∧ c ≠ 40 ∧ c ≠ 60 ∧ c ≠ 60 :=
    fun s hs c hc => ⟨(hs c hc).1, (hs c hc).2.1, (hs c hc).2.2.2.1, (hs c hc).2.2.2.1⟩
  by_cases h0 : a.displayName = []
  · unfold shown mailbox
    rw [if_pos h0]
    have := cut_plain (sep := 60) (32 :: a.email) (t := []) (x := []) (xs := []) (by
      intro c hc
      rcases List.mem_cons.mp hc with rfl | hc
      · decide
      · exact ok _ he c hc) rfl
    rw [List.append_nil] at this
    rw [this]
    simp only [trimmed_cons, te, h0]
  · have tail : cutAt 60 .plain (a.email ++ b!">") = [a.email ++ b!">"] := cut_plain _ (ok _ he) (t := b!">") (by decide)
    have e1 : 32 :: (a.displayName ++ b!" <" ++ a.email ++ b!">") = (32 :: a.displayName ++ [32]) ++ (60 :: (a.email ++ b!">")) := by simp
    have := cut_plain (sep := 60) (32 :: a.displayName ++ [32]) (t := 60 :: (a.email ++ b!">")) (x := []) (xs := [a.email ++ b!">"]) (by
      intro c hc
      simp only [List.cons_append, List.mem_cons, List.mem_append, List.not_mem_nil, or_false] at hc
      rcases hc with rfl | hc | rfl
      · decide
      · exact ok _ hn c hc
      · decide) (by rw [cutAt, if_pos ⟨rfl, rfl⟩, tail])
    unfold shown mailbox
    rw [if_neg h0, e1, this]
    have tw : (a.email ++ b!">").takeWhile (· ≠ 62) = a.email := by
      rw [List.takeWhile_append_of_pos (fun c hc => by simpa using (he c hc).2.2.2.2)]
      simp
    simp only [List.append_nil]
    rw [tw, trimmed_snoc, trimmed_cons, tn]

theorem mailboxes_list (l : List MessageAddress) (hl : l ≠ []) (h : ∀ b ∈ l, Readable b) :
    mailboxes (32 :: List.intercalate b!", " (l.map shown)) = l.map fun a => (a.displayName, a.email) := by
  cases l with
  | nil => exact absurd rfl hl
  | cons a l =>
    unfold mailboxes
    rw [cut_list a l h, List.map_map]
    exact List.map_congr_left fun b hb => mailbox_shown (h b hb)

theorem unfolded_flat (ls : List Bytes) (h : ∀ l ∈ ls, (l.head?.any isBlank) = false) : unfolded ls = ls := by
  induction ls with
  | nil => rfl
  | cons l ls ih =>
    rw [unfolded, ih fun k hk => h k (by simp [hk])]
    cases ls with
    | nil => rfl
    | cons n ns => simp [h n (by simp)]

/-- Names of the fields the library writes. -/
def fieldNames : List Bytes := [b!"From", b!"To", b!"Cc", b!"Subject", b!"Content-Type"]

theorem fields_names (m : Message) : ∀ f ∈ fields m, f.1 ∈ fieldNames := by
  intro f hf
  unfold fields at hf
  simp only [List.mem_append, List.mem_cons, List.not_mem_nil, or_false] at hf
  rcases hf with ((rfl | hf) | hf) | rfl | rfl
  · simp [fieldNames]
  · split at hf
    · simp at hf
    · rw [List.mem_singleton.mp hf]; simp [fieldNames]
  · split at hf
    · simp at hf
    · rw [List.mem_singleton.mp hf]; simp [fieldNames]
  · simp [fieldNames]
  · simp [fieldNames]

theorem fieldOf_line (f : Bytes × Bytes) (h : f.1 ∈ fieldNames) : fieldOf (f.1 ++ b!": " ++ f.2) = (f.1, 32 :: f.2) := by
  have hc : ∀ c ∈ f.1, (decide (c ≠ 58)) = true := by
    obtain ⟨n, v⟩ := f
    have : ∀ n ∈ fieldNames, ∀ c ∈ n, decide (c ≠ 58) = true := by decide
    exact this n h
  unfold fieldOf
  have e : f.1 ++ b!": " ++ f.2 = f.1 ++ 58 :: 32 :: f.2 := by simp
  rw [e, List.takeWhile_append_of_pos hc, List.dropWhile_append_of_pos hc]
  simp

theorem bodies_fields (m : Message) (n : Bytes) :
    bodies n ((fields m).map fun f => f.1 ++ b!": " ++ f.2) =
      ((fields m).filter fun f => decide (EqIgnoringCase f.1 n)).map fun f => 32 :: f.2 := by
  have hn := fields_names m
  unfold bodies
  rw [unfolded_flat]
  · generalize fields m = fs at hn
    induction fs with
    | nil => rfl
    | cons f fs ih =>
      have hf := fieldOf_line f (hn f (by simp))
      have := ih fun g hg => hn g (by simp [hg])
      simp only [List.map_cons, hf, List.filter_cons]
      split
      · simp only [List.map_cons]
        rw [this]
      · exact this
  · intro l hl
    obtain ⟨f, hf, rfl⟩ := List.mem_map.mp hl
    have := hn f hf
    obtain ⟨k, v⟩ := f
    simp only [fieldNames, List.mem_cons, List.not_mem_nil, or_false] at this
    rcases this with rfl | rfl | rfl | rfl | rfl <;> rfl

end Verif.Proofs
