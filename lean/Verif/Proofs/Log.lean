import Verif.Proofs.Frame
import Verif.Proofs.Lines
import Verif.Spec.Text
import Verif.Spec.Log
/-!
# Lemmas about the communication log
-/
namespace Verif.Proofs
open Verif Verif.Model Verif.Spec

/-- The log buffer is as large as recorded, and the text with its NUL fits. -/
def LogOk (l : Log) : Prop := l.size = l.cap ∧ l.content.length < l.cap

theorem logOk_fresh : LogOk .fresh := by simp [LogOk, Log.fresh, initialLogLength]

theorem log_add_ok {l : Log} (h : LogOk l) (item pfx : Bytes) :
    ∃ l', l.add item pfx = .ok l' ∧ LogOk l' ∧ l'.content = l.content ++ b!"\n" ++ pfx ++ b!": " ++ logItem item pfx ∧ l.cap ≤ l'.cap := by
  obtain ⟨hs, hc⟩ := h
  unfold Log.add sizeSub
  simp only [strncat]
  have hle : l.content.length ≤ l.size := by omega
  simp only [hle, if_true]
  generalize hit : logItem item pfx = it
  generalize hap : 1 + pfx.length + 2 + it.length + 1 = ap
  by_cases hg : l.size - l.content.length ≤ ap
  · simp only [hg, if_true]
    generalize hn : l.content.length + ap + initialLogLength = n
    have hn' : 4096 + ap ≤ n := by simp [initialLogLength] at hn; omega
    have e1 : List.take (n - 1) b!"\n" = b!"\n" := List.take_of_length_le (by simp; omega)
    have e2 : List.take (n - 1) pfx = pfx := List.take_of_length_le (by omega)
    have e3 : List.take (n - 1) b!": " = b!": " := List.take_of_length_le (by simp; omega)
    have e4 : List.take (n - 1) it = it := List.take_of_length_le (by omega)
    rw [e1, e2, e3, e4]
    have hlen : (l.content ++ b!"\n" ++ pfx ++ b!": " ++ it).length < n := by
      simp [initialLogLength] at hn ⊢; omega
    rw [if_pos ⟨hlen, by omega, Nat.le_refl _⟩]
    refine ⟨_, rfl, ⟨rfl, ?_⟩, ?_, ?_⟩
    · show (List.take _ _).length < n
      rw [List.length_take]; omega
    · exact List.take_of_length_le (by omega)
    · show l.cap ≤ n
      simp [initialLogLength] at hn; omega
  · simp only [hg, if_false]
    generalize hn : l.size = n at *
    have e1 : List.take (n - 1) b!"\n" = b!"\n" := List.take_of_length_le (by simp; omega)
    have e2 : List.take (n - 1) pfx = pfx := List.take_of_length_le (by omega)
    have e3 : List.take (n - 1) b!": " = b!": " := List.take_of_length_le (by simp; omega)
    have e4 : List.take (n - 1) it = it := List.take_of_length_le (by omega)
    rw [e1, e2, e3, e4]
    have hlen : (l.content ++ b!"\n" ++ pfx ++ b!": " ++ it).length < n := by
      simp; omega
    rw [if_pos ⟨by omega, by omega, by omega⟩]
    refine ⟨_, rfl, ⟨by simpa using hs, ?_⟩, ?_, Nat.le_refl _⟩
    · show (List.take _ _).length < l.cap
      rw [List.length_take]; omega
    · exact List.take_of_length_le (by omega)

/-- A buffer of another size is there exactly when the item needed one. -/
theorem log_add_cap {l l' : Log} {item pfx : Bytes} (h : l.add item pfx = .ok l') :
    l'.cap = if l.grows item pfx then l.content.length + (1 + pfx.length + 2 + (logItem item pfx).length + 1) + initialLogLength else l.cap := by
  unfold Log.add at h
  extract_lets it cur appendSize newSize grow cap size text at h
  by_cases hc : text.length < cap ∧ 0 < size ∧ size ≤ cap
  · rw [if_pos hc] at h
    injection h with h
    rw [← h]
    simp [Log.grows, cap, grow, newSize, appendSize, cur, it]
  · rw [if_neg hc] at h
    cases h

/-- The replacement loop, said with lines. -/
theorem escapeCRLF_eq (s : Bytes) : escapeCRLF s = showBreaks s := by
  have hne : ∀ s, lines s ≠ [] := lines_ne_nil
  have step : ∀ (c : UInt8) (ls : List Bytes), ls ≠ [] →
      List.intercalate b!"\\r\\n" (consFirst c ls) = c :: List.intercalate b!"\\r\\n" ls := by
    intro c ls h
    cases ls with
    | nil => exact absurd rfl h
    | cons l ls => cases ls <;> simp [consFirst, List.intercalate, List.intersperse]
  unfold showBreaks
  fun_induction escapeCRLF s with
  | case1 => simp [lines, List.intercalate]
  | case2 c =>
    by_cases hc : c = 13
    · subst hc; simp [lines, List.intercalate]
    · rw [lines_cons_ne _ _ hc, step _ _ (hne _)]; simp [lines, List.intercalate]
  | case3 c d rest h ih =>
    obtain ⟨rfl, rfl⟩ := h
    rw [lines_crlf, ih]
    cases h : lines rest with
    | nil => exact absurd h (hne _)
    | cons l ls => simp [List.intercalate, List.intersperse]
  | case4 c d rest h ih =>
    rw [ih]
    by_cases hc : c = 13
    · subst hc
      have hd : d ≠ 10 := fun hd => h ⟨rfl, hd⟩
      rw [show lines (13 :: d :: rest) = consFirst 13 (lines (d :: rest)) by rw [lines]; simp [hd]]
      rw [step _ _ (hne _)]
    · rw [lines_cons_ne _ _ hc, step _ _ (hne _)]

theorem escapeCRLF_head (s : Bytes) (h : (escapeCRLF s).head? = some 10) : s.head? = some 10 := by
  fun_cases escapeCRLF s with
  | case1 => simp [escapeCRLF] at h
  | case2 c => simpa [escapeCRLF] using h
  | case3 c d rest hc => simp [escapeCRLF, hc] at h
  | case4 c d rest hc => simpa [escapeCRLF, hc] using h

theorem escapeCRLF_oneLine (s : Bytes) : lines (escapeCRLF s) = [escapeCRLF s] := by
  fun_induction escapeCRLF s with
  | case1 => simp [lines]
  | case2 c => simp [lines]
  | case3 c d rest h ih => simp [lines, ih, consFirst, lines_cons_ne]
  | case4 c d rest h ih =>
    by_cases hc : c = 13
    · subst hc
      have hd : d ≠ 10 := fun hd => h ⟨rfl, hd⟩
      cases he : escapeCRLF (d :: rest) with
      | nil => simp [lines]
      | cons x xs =>
        have hx : x ≠ 10 := by
          rintro rfl
          have := escapeCRLF_head (d :: rest) (by rw [he]; rfl)
          simp at this; exact hd this
        rw [lines]
        simp only [hx, and_false, if_false]
        rw [← he, ih]; rfl
    · rw [lines_cons_ne _ _ hc, ih]; rfl

theorem readBreaks_cons {c : UInt8} (h : c ≠ 92) (s : Bytes) : readBreaks (c :: s) = c :: readBreaks s := by
  rw [readBreaks]
  intro rest e
  exact absurd e h

theorem readBreaks_escape (s : Bytes) (h : 92 ∉ s) : readBreaks (escapeCRLF s) = s := by
  fun_induction escapeCRLF s with
  | case1 => simp [readBreaks]
  | case2 c => rw [readBreaks_cons (by simpa [eq_comm] using h)]; simp [readBreaks]
  | case3 c d rest hc ih =>
    obtain ⟨rfl, rfl⟩ := hc
    simp [readBreaks, ih (by simpa using h)]
  | case4 c d rest hc ih =>
    simp only [List.mem_cons, not_or] at h
    rw [readBreaks_cons (Ne.symm h.1), ih (by simpa using h.2)]

end Verif.Proofs
