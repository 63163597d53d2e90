import Verif.Model.Bytes
/-!
# A small regular-expression matcher

Stands for `std::regex` / `std::regex_match` (libstdc++, ECMAScript grammar, "C" locale) as used in
messageaddress.cpp:120-121. Only the constructs of that pattern are needed. A matcher by derivatives is used: whether a whole
text matches a pattern without back references does not depend on the search strategy. Simplified: the real matcher recurses
once per character and can exhaust the stack on very long texts.
-/
namespace Verif.Model
open Verif

/-- Regular expressions over bytes; `cls` is a character class. -/
inductive Re where
  | none
  | eps
  | cls (p : UInt8 → Bool)
  | seq (a b : Re)
  | alt (a b : Re)
  | star (a : Re)

namespace Re

/-- `a+`, as in messageaddress.cpp:120. -/
def plus (a : Re) : Re := seq a (star a)

/-- Whether the empty text matches. -/
def nullable : Re → Bool
  | none => false
  | eps => true
  | cls _ => false
  | seq a b => a.nullable && b.nullable
  | alt a b => a.nullable || b.nullable
  | star _ => true

/-- The expression for what may follow after reading `c`. -/
def deriv (c : UInt8) : Re → Re
  | none => none
  | eps => none
  | cls p => if p c then eps else none
  | seq a b => if a.nullable then alt (seq (a.deriv c) b) (b.deriv c) else seq (a.deriv c) b
  | alt a b => alt (a.deriv c) (b.deriv c)
  | star a => seq (a.deriv c) (star a)

/-- `std::regex_match`: the whole text matches. -/
def fullMatch (r : Re) : Bytes → Bool
  | [] => r.nullable
  | c :: s => (r.deriv c).fullMatch s

end Re

/-- `[a-z0-9-]`, messageaddress.cpp:120. -/
def clsDomain (c : UInt8) : Bool := (97 ≤ c && c ≤ 122) || (48 ≤ c && c ≤ 57) || c == 45

/-- `[_a-z0-9-]`, messageaddress.cpp:120. -/
def clsLocal (c : UInt8) : Bool := c == 95 || clsDomain c

/-- `.`, messageaddress.cpp:120: every character except the line terminators LF and CR (the Unicode ones are no single bytes). -/
def clsDot (c : UInt8) : Bool := c != 10 && c != 13

/-- `[a-z]`, messageaddress.cpp:120. -/
def clsAlpha (c : UInt8) : Bool := 97 ≤ c && c ≤ 122

/-- `[a-z]{2,4}`, messageaddress.cpp:120. -/
def reTld : Re :=
  .seq (.cls clsAlpha) (.seq (.cls clsAlpha) (.alt .eps (.seq (.cls clsAlpha) (.alt .eps (.cls clsAlpha)))))

/-- The pattern of `isEmailAddressValid`, messageaddress.cpp:120:
`^[_a-z0-9-]+(.[_a-z0-9-]+)*@[a-z0-9-]+(.[a-z0-9-]+)*(.[a-z]{2,4})$`. The anchors are implied by `regex_match`. -/
def emailPattern : Re :=
  .seq (.plus (.cls clsLocal)) (.seq (.star (.seq (.cls clsDot) (.plus (.cls clsLocal)))) (.seq (.cls (· == 64))
    (.seq (.plus (.cls clsDomain)) (.seq (.star (.seq (.cls clsDot) (.plus (.cls clsDomain)))) (.seq (.cls clsDot) reTld)))))

end Verif.Model
