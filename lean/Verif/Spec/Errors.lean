import Verif.Spec.Text
/-!
# The documented error codes (specification)
-/
namespace Verif.Spec

/-- The codes the library itself can produce, as published in the three public headers: socket -1..-10, EHLO -20, -21, STARTTLS
-30, -31, TLS -51..-60, client -81..-99. -/
def IsLibraryCode (c : Int) : Prop :=
  (-10 ≤ c ∧ c ≤ -1) ∨ (-21 ≤ c ∧ c ≤ -20) ∨ (-31 ≤ c ∧ c ≤ -30) ∨ (-60 ≤ c ∧ c ≤ -51) ∨ (-99 ≤ c ∧ c ≤ -81)

instance (c : Int) : Decidable (IsLibraryCode c) := inferInstanceAs (Decidable (_ ∨ _))

/-- The reply codes of a server that have an explanation. -/
def IsExplainedReply (c : Int) : Prop := c = 334 ∨ c = 530 ∨ c = 534 ∨ c = 535 ∨ c = 538

instance (c : Int) : Decidable (IsExplainedReply c) := inferInstanceAs (Decidable (_ ∨ _))

/-- The codes that stand for a timeout. -/
def IsTimeoutCode (c : Int) : Prop :=
  c = -3 ∨ c = -21 ∨ c = -31 ∨ c = -60 ∨ c = -82 ∨ c = -86 ∨ c = -88 ∨ c = -90 ∨ c = -98

instance (c : Int) : Decidable (IsTimeoutCode c) := inferInstanceAs (Decidable (_ ∨ _))

end Verif.Spec
