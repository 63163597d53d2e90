import Verif.Model.Outcome
/-!
# Model of `src/stringutils.cpp`
-/
namespace Verif.Model
open Verif

/-- `std::isspace(ch)` with `ch` a `char` converted to `int` (stringutils.cpp:11-12). `char` is signed, so bytes
0x80..0xFE become negative values other than `EOF`, for which `isspace` is undefined; 0xFF is `EOF`, not a space.
"C" locale. -/
def isspace (c : UInt8) : Except UB Bool :=
  if 0x80 ≤ c ∧ c < 0xFF then .error .isspaceDomain
  else .ok ((9 ≤ c && c ≤ 13) || c == 32)

/-- `StringUtils::trimLeft`, stringutils.cpp:9-15: `find_if` from the left for the first non-space. -/
def trimLeft : Bytes → Except UB Bytes
  | [] => .ok []
  | c :: s =>
    match isspace c with
    | .error u => .error u
    | .ok true => trimLeft s
    | .ok false => .ok (c :: s)

/-- `StringUtils::trimRight`, stringutils.cpp:18-24: the same on the reverse iterators. -/
def trimRight (s : Bytes) : Except UB Bytes :=
  match trimLeft s.reverse with
  | .error u => .error u
  | .ok r => .ok r.reverse

/-- `StringUtils::trim`, stringutils.cpp:27-32. -/
def trim (s : Bytes) : Except UB Bytes :=
  match trimLeft s with
  | .error u => .error u
  | .ok r => trimRight r

/-- `std::tolower` on an `unsigned char`, "C" locale. -/
def tolower (c : UInt8) : UInt8 := if 65 ≤ c ∧ c ≤ 90 then c + 32 else c

/-- `std::toupper` on an `unsigned char`, "C" locale. -/
def toupper (c : UInt8) : UInt8 := if 97 ≤ c ∧ c ≤ 122 then c - 32 else c

/-- `StringUtils::toLower`, stringutils.cpp:34-39. -/
def toLower (s : Bytes) : Bytes := s.map tolower

/-- `StringUtils::toUpper`, stringutils.cpp:41-46. -/
def toUpper (s : Bytes) : Bytes := s.map toupper

end Verif.Model
