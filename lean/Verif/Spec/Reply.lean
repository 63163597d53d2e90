import Verif.Spec.Text
/-!
# Specifications about server replies

RFC 5321 section 4.2: a reply starts with a three digit code; the last line has a space after the code.
-/
namespace Verif.Spec
open Verif

/-- Value of a decimal numeral, most significant digit first. -/
def decimal : Bytes → Nat
  | [] => 0
  | c :: s => (c.toNat - 48) * 10 ^ s.length + decimal s

/-- `s` starts with the number `n`: white space, an optional sign and as many digits as there are, at least one. -/
def StartsWithNumber (s : Bytes) (n : Int) : Prop :=
  ∃ ws sign ds rest, s = ws ++ sign ++ ds ++ rest ∧ AllWs ws ∧ ds ≠ [] ∧ (∀ c ∈ ds, IsDigit c) ∧
    (∀ c, rest.head? = some c → ¬ IsDigit c) ∧
    ((sign = [] ∧ n = decimal ds) ∨ (sign = [43] ∧ n = decimal ds) ∨ (sign = [45] ∧ n = - (decimal ds : Int)))

/-- A text without one final CRLF, if it has one. -/
def withoutFinalCRLF (s : Bytes) (t : Bytes) : Prop :=
  s = t ++ [13, 10] ∨ (s = t ∧ ¬ ∃ u, s = u ++ [13, 10])

/-- A line that advertises authentication mechanisms. -/
def IsAuthLine (l : Bytes) : Prop := b!"250-AUTH" <+: l ∨ b!"250 AUTH" <+: l

end Verif.Spec
