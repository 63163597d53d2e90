import Verif.Proofs.StringUtils
import Verif.Props.StringUtils
import Verif.Model.Session
/-!
# Lemmas about names, passwords and setters
-/
namespace Verif.Proofs
open Verif Verif.Model Verif.Spec

theorem cstr_ctext (m : Bytes) : CText m (cstr m) := by
  refine ⟨?_, m.dropWhile (· ≠ 0), ?_, ?_⟩
  · intro h
    have := List.all_takeWhile (p := fun x : UInt8 => decide (x ≠ 0)) (l := m)
    have := List.all_eq_true.mp this _ h
    simp at this
  · exact (List.takeWhile_append_dropWhile ..).symm
  · cases h : m.dropWhile (· ≠ 0) with
    | nil => exact .inl rfl
    | cons c l =>
      right
      have := List.head?_dropWhile_not (fun x : UInt8 => decide (x ≠ 0)) m
      rw [h] at this
      simp at this
      simp [this]

theorem CText.eq {m t : Bytes} (h : CText m t) : t = cstr m := by
  obtain ⟨h0, rest, e, hr⟩ := h
  subst e
  unfold cstr
  rw [List.takeWhile_append_of_pos]
  · rcases hr with rfl | hr
    · simp
    · cases rest with
      | nil => simp
      | cons c l => simp at hr; subst hr; simp
  · intro c hc
    simp
    rintro rfl
    exact h0 hc

theorem ctext_iff {m t : Bytes} : CText m t ↔ t = cstr m := ⟨CText.eq, fun h => h ▸ cstr_ctext m⟩

theorem shows_iff {p : Option Bytes} {t : Bytes} : Shows p t ↔ p.map cstr = some t := by
  unfold Shows
  cases p with
  | none => simp
  | some m => simp [ctext_iff, eq_comm]

/-- The three possible results of the test of a text for blanks. -/
theorem trimEmpty_cases (s : Bytes) (h : ScanOk s) :
    (AllWs s ∧ trimEmpty s = .ok true) ∨ (¬ AllWs s ∧ trimEmpty s = .ok false) := by
  rcases Verif.Props.C04_trim_total s with ⟨_, t, ht, e⟩ | ⟨h', _⟩
  · unfold trimEmpty
    rw [e]
    cases t with
    | nil => left; exact ⟨(Verif.Props.C04_trim_empty_iff s).mp e, rfl⟩
    | cons c t =>
      right
      refine ⟨?_, rfl⟩
      intro ha
      have := (Verif.Props.C04_trim_empty_iff s).mpr ha
      rw [this] at e; cases e
  · exact absurd h h'

theorem trimEmpty_ub (s : Bytes) (h : ¬ ScanOk s) : trimEmpty s = .error (.ub .isspaceDomain) := by
  rcases Verif.Props.C04_trim_total s with ⟨h', _⟩ | ⟨_, e⟩
  · exact absurd h' h
  · simp [trimEmpty, e]

theorem checkName_cases (p : Option Bytes) :
    (BlankArg p ∧ checkName p = .error .invalidArgument) ∨
    (∃ t, Shows p t ∧ ¬ AllWs t ∧ ScanOk t ∧ checkName p = .ok t) ∨
    (¬ ScanArg p ∧ checkName p = .error (.ub .isspaceDomain)) := by
  cases p with
  | none => left; exact ⟨(fun _ _ h => by cases h), rfl⟩
  | some m =>
    by_cases h0 : cstr m = []
    · left
      refine ⟨?_, by simp [checkName, h0]; rfl⟩
      intro m' t e ht
      cases e
      rw [CText.eq ht, h0]; simp [AllWs]
    · by_cases hs : ScanOk (cstr m)
      · rcases trimEmpty_cases _ hs with ⟨ha, e⟩ | ⟨ha, e⟩
        · left
          refine ⟨?_, by simp [checkName, h0, e]; rfl⟩
          intro m' t e' ht
          cases e'
          rw [CText.eq ht]; exact ha
        · right; left
          exact ⟨cstr m, ⟨m, rfl, cstr_ctext m⟩, ha, hs, by simp [checkName, h0, e]; rfl⟩
      · right; right
        refine ⟨fun h => hs (h m _ rfl (cstr_ctext m)), ?_⟩
        simp [checkName, h0, trimEmpty_ub _ hs]; rfl

theorem checkPassword_cases (p : Option Bytes) :
    (EmptyArg p ∧ checkPassword p = .error .invalidArgument) ∨ (∃ t, Shows p t ∧ t ≠ [] ∧ checkPassword p = .ok t) := by
  cases p with
  | none => left; exact ⟨(fun _ _ h => by cases h), rfl⟩
  | some m =>
    by_cases h0 : cstr m = []
    · left
      refine ⟨?_, by simp [checkPassword, h0]⟩
      intro m' t e ht
      cases e
      rw [CText.eq ht, h0]
    · right
      exact ⟨cstr m, ⟨m, rfl, cstr_ctext m⟩, h0, by simp [checkPassword, h0]⟩

end Verif.Proofs
