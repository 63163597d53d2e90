/-!
# Byte strings

`std::string` and C character arrays are lists of bytes. This file only fixes the representation; it models no
particular function of the library, except for the standard-library string functions the code uses.
-/
namespace Verif

/-- A byte string: the content of a `std::string` or of a C array. -/
abbrev Bytes := List UInt8

open Lean in
/-- `b!"text"` is the list of the UTF-8 bytes of a string literal, written out as numerals. -/
macro:max "b!" s:str : term => do
  let bs := s.getString.toUTF8.toList
  let nums := bs.map fun b => Syntax.mkNumLit (toString b.toNat)
  let elems : TSyntaxArray `term := nums.toArray.map fun n => ⟨n.raw⟩
  `(([$elems,*] : List UInt8))

/-- NUL, CR, LF, space and '='; used in several files. -/
def NUL : UInt8 := 0
def CR : UInt8 := 13
def LF : UInt8 := 10
def SP : UInt8 := 32

/-- The text a C string function sees in a block of memory with content `s`: everything before the first NUL
(`strlen`, `std::string(const char*)`, `operator+=(const char*)`). -/
def cstr (s : Bytes) : Bytes := s.takeWhile (· ≠ 0)

/-- `std::string::find(pat)`: index of the first occurrence of a pattern. `none` is `npos`. -/
def findSub (pat : Bytes) : Bytes → Option Nat
  | [] => if pat.isPrefixOf [] then some 0 else none
  | c :: s => if pat.isPrefixOf (c :: s) then some 0 else (findSub pat s).map (· + 1)

/-- `std::string::rfind(pat)`: index of the last occurrence of a pattern. `none` is `npos`. -/
def rfindSub (pat : Bytes) : Bytes → Option Nat
  | [] => if pat.isPrefixOf [] then some 0 else none
  | c :: s =>
    match rfindSub pat s with
    | some i => some (i + 1)
    | none => if pat.isPrefixOf (c :: s) then some 0 else none

/-- `std::string::substr(pos, len)` for `pos ≤ size`. -/
def substr (s : Bytes) (pos len : Nat) : Bytes := (s.drop pos).take len

end Verif
