import Verif.Model.Bytes
/-! Helper lemmas on bytes and lists. -/
namespace Verif

/-- To prove a decidable statement for all bytes it is enough to let the kernel check 256 cases. -/
theorem forall_byte {p : UInt8 → Prop} (h : ∀ n : Fin 256, p (UInt8.ofNat n.val)) : ∀ c, p c := by
  intro c
  have := h ⟨c.toNat, c.toNat_lt⟩
  simpa using this

theorem forall_lt {p : Nat → Prop} (n : Nat) (h : ∀ i : Fin n, p i.val) : ∀ i, i < n → p i :=
  fun i hi => h ⟨i, hi⟩

end Verif
