import Verif.Model.Bytes
/-!
# Lines of a text (specification)

RFC 5321 section 2.3.8: lines are separated by the two bytes CR LF and by nothing else.
-/
namespace Verif.Spec
open Verif

/-- Put a byte in front of the first line. -/
def consFirst (c : UInt8) : List Bytes → List Bytes
  | [] => [[c]]
  | l :: ls => (c :: l) :: ls

/-- The lines of a text; a text with n CRLFs has n+1 lines, the last one possibly empty. -/
def lines : Bytes → List Bytes
  | [] => [[]]
  | [c] => [[c]]
  | c :: d :: rest => if c = 13 ∧ d = 10 then [] :: lines rest else consFirst c (lines (d :: rest))

/-- A text free of CR and LF. -/
def NoBreak (s : Bytes) : Prop := ∀ c ∈ s, c ≠ 13 ∧ c ≠ 10

end Verif.Spec
