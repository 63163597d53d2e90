import Verif.Spec.Text
/-!
# Which e-mail addresses the pattern describes (specification)

Written without regular expressions.
-/
namespace Verif.Spec
open Verif

/-- Lower-case letter, digit or hyphen. -/
def DomainChar (c : UInt8) : Prop := (97 ≤ c ∧ c ≤ 122) ∨ (48 ≤ c ∧ c ≤ 57) ∨ c = 45

/-- The same or underscore. -/
def LocalChar (c : UInt8) : Prop := DomainChar c ∨ c = 95

instance (c : UInt8) : Decidable (DomainChar c) := inferInstanceAs (Decidable (_ ∨ _))
instance (c : UInt8) : Decidable (LocalChar c) := inferInstanceAs (Decidable (_ ∨ _))

/-- Runs of characters from `W`, separated by single arbitrary characters: no line breaks, first and last character in `W`, and
of two neighbours at least one in `W`. -/
structure Dotted (W : UInt8 → Prop) (l : Bytes) : Prop where
  noBreak : NoBreak l
  first : ∃ c, l.head? = some c ∧ W c
  last : ∃ c, l.getLast? = some c ∧ W c
  single : ∀ a x y b, l = a ++ x :: y :: b → W x ∨ W y

/-- local-part, '@', domain ending in a separator and 2 to 4 letters. The separators can be any character except CR and LF,
because the dots of the pattern are not escaped. -/
def EmailShape (s : Bytes) : Prop :=
  ∃ loc base sep tld, s = loc ++ 64 :: base ++ sep :: tld ∧ Dotted LocalChar loc ∧ Dotted DomainChar base ∧
    sep ≠ 10 ∧ sep ≠ 13 ∧ 2 ≤ tld.length ∧ tld.length ≤ 4 ∧ ∀ c ∈ tld, 97 ≤ c ∧ c ≤ 122

end Verif.Spec

namespace Verif.Spec
open Verif

/-- The address a server takes from a RCPT TO line: after `<`, up to the first `>`. -/
def addressOfRcptLine (l : Bytes) : Option Bytes :=
  if b!"RCPT TO: <" <+: l ∧ (62 : UInt8) ∈ l then some ((l.drop 10).takeWhile (· ≠ 62)) else none

/-- Cut a text at every comma-space. -/
def items : Bytes → List Bytes
  | [] => [[]]
  | [c] => [[c]]
  | c :: d :: rest => if c = 44 ∧ d = 32 then [] :: items rest else consFirst c (items (d :: rest))

/-- No comma-space. -/
def NoSeparator (s : Bytes) : Prop := ¬ Occurs [44, 32] s

end Verif.Spec
