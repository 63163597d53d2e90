import Verif.Model.Bytes
/-!
# Independent specification of base64 (RFC 4648 section 4, RFC 2045 section 6.8)

Written from the RFC, without reference to the code: characters have a value given by ranges, four characters are read
as one 24-bit number, line breaks are skipped, padding must be exact and the unused bits zero.
-/
namespace Verif.Spec.Base64
open Verif

/-- RFC 4648 table 1. -/
def value (c : UInt8) : Option Nat :=
  let n := c.toNat
  if 65 ≤ n ∧ n ≤ 90 then some (n - 65)
  else if 97 ≤ n ∧ n ≤ 122 then some (n - 97 + 26)
  else if 48 ≤ n ∧ n ≤ 57 then some (n - 48 + 52)
  else if n = 43 then some 62
  else if n = 47 then some 63
  else none

/-- The three bytes of a 24-bit number, most significant first. -/
def bytes3 (n : Nat) : Bytes := [UInt8.ofNat (n / 65536), UInt8.ofNat (n / 256 % 256), UInt8.ofNat (n % 256)]

/-- Decoding of text without line breaks; `none` if it is not well-formed base64. -/
def decodeQuads : Bytes → Option Bytes
  | [] => some []
  | [p, q, 61, 61] =>
    match value p, value q with
    | some p, some q => if q % 16 = 0 then some ((bytes3 (p * 2 ^ 18 + q * 2 ^ 12)).take 1) else none
    | _, _ => none
  | [p, q, r, 61] =>
    match value p, value q, value r with
    | some p, some q, some r =>
      if r % 4 = 0 then some ((bytes3 (p * 2 ^ 18 + q * 2 ^ 12 + r * 2 ^ 6)).take 2) else none
    | _, _, _ => none
  | p :: q :: r :: s :: rest =>
    match value p, value q, value r, value s, decodeQuads rest with
    | some p, some q, some r, some s, some out => some (bytes3 (p * 2 ^ 18 + q * 2 ^ 12 + r * 2 ^ 6 + s) ++ out)
    | _, _, _, _, _ => none
  | _ => none

/-- RFC 2045: line breaks are not part of the data. -/
def decode (s : Bytes) : Option Bytes := decodeQuads (s.filter fun c => c != 13 && c != 10)

/-- A byte of the base64 alphabet, including padding. -/
def Alphabet (c : UInt8) : Prop := (value c).isSome ∨ c = 61

end Verif.Spec.Base64
