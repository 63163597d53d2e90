import Verif.Spec.Lines
/-!
# Specifications about text: white space, letter case, words, occurrence
-/
namespace Verif.Spec
open Verif

/-- White space of the "C" locale: tab, LF, VT, FF, CR, space. -/
def IsWs (c : UInt8) : Prop := c ∈ ([9, 10, 11, 12, 13, 32] : Bytes)

instance (c : UInt8) : Decidable (IsWs c) := inferInstanceAs (Decidable (_ ∈ _))

/-- A text consisting of white space only. -/
def AllWs (s : Bytes) : Prop := ∀ c ∈ s, IsWs c

/-- `t` is `s` without the surrounding white space. -/
structure Trimmed (s t : Bytes) : Prop where
  /-- only white space is removed, and only at the ends -/
  surround : ∃ a b, s = a ++ t ++ b ∧ AllWs a ∧ AllWs b
  /-- nothing is left to remove -/
  first : ∀ c, t.head? = some c → ¬ IsWs c
  last : ∀ c, t.getLast? = some c → ¬ IsWs c

/-- Bytes for which `isspace` of a signed `char` is defined. -/
def InCtypeDomain (c : UInt8) : Prop := c < 128 ∨ c = 255

/-- ASCII letters. -/
def IsLetter (c : UInt8) : Prop := (65 ≤ c ∧ c ≤ 90) ∨ (97 ≤ c ∧ c ≤ 122)

instance (c : UInt8) : Decidable (IsLetter c) := inferInstanceAs (Decidable (_ ∨ _))

/-- Two bytes are the same character up to ASCII letter case. -/
def SameUpToCase (c d : UInt8) : Prop := c = d ∨ (IsLetter c ∧ IsLetter d ∧ c.toNat % 32 = d.toNat % 32)

instance (c d : UInt8) : Decidable (SameUpToCase c d) := inferInstanceAs (Decidable (_ ∨ _))

/-- Two strings are equal up to ASCII letter case. -/
def EqIgnoringCase (s t : Bytes) : Prop := s.length = t.length ∧ ∀ p ∈ s.zip t, SameUpToCase p.1 p.2

/-- `w` occurs in `l` as a whole word, words being separated by single spaces. -/
def HasWord (w l : Bytes) : Prop :=
  ∃ pre post, l = pre ++ w ++ post ∧ 32 ∉ w ∧ (pre = [] ∨ ∃ p, pre = p ++ [32]) ∧ (post = [] ∨ ∃ p, post = 32 :: p)

/-- `p` occurs somewhere in `s`. -/
def Occurs (p s : Bytes) : Prop := ∃ a b, s = a ++ p ++ b

/-- A decimal digit. -/
def IsDigit (c : UInt8) : Prop := 48 ≤ c ∧ c ≤ 57

instance (c : UInt8) : Decidable (IsDigit c) := inferInstanceAs (Decidable (_ ∧ _))

/-- The first and the last byte that is not white space are in the domain of `isspace`. -/
def ScanOk (s : Bytes) : Prop := ∀ t, Trimmed s t → ∀ c, t.head? = some c ∨ t.getLast? = some c → InCtypeDomain c

/-- `t` is the C string at the start of the memory `m`: everything before the first NUL byte. -/
def CText (m t : Bytes) : Prop := 0 ∉ t ∧ ∃ rest, m = t ++ rest ∧ (rest = [] ∨ rest.head? = some 0)

/-- A pointer argument that shows nothing but white space: null, or a C string without visible characters. -/
def BlankArg (p : Option Bytes) : Prop := ∀ m t, p = some m → CText m t → AllWs t

/-- A pointer argument whose text can be examined with `isspace`. -/
def ScanArg (p : Option Bytes) : Prop := ∀ m t, p = some m → CText m t → ScanOk t

/-- A pointer argument without text: null, or an empty C string. -/
def EmptyArg (p : Option Bytes) : Prop := ∀ m t, p = some m → CText m t → t = []

/-- The argument shows the text `t`. -/
def Shows (p : Option Bytes) (t : Bytes) : Prop := ∃ m, p = some m ∧ CText m t

end Verif.Spec
