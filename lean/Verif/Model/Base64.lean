import Verif.Model.Bytes
/-!
# Model of `src/base64.cpp`
-/
namespace Verif.Model.Base64
open Verif

/-- `base64_chars`, base64.cpp:33-36. -/
def chars : Bytes := b!"ABCDEFGHIJKLMNOPQRSTUVWXYZabcdefghijklmnopqrstuvwxyz0123456789+/"

/-- `base64_chars[i]`, base64.cpp:59 and 81 (the code only uses indices below 64, where `getD` does not matter). -/
def charAt (i : Nat) : UInt8 := chars.getD i 0

/-- The bit operations of base64.cpp:53-56 (and again 75-78) on the three bytes `char_array_3`, giving `char_array_4`.
The values are below 64, so storing them into `unsigned char` changes nothing. -/
def split3 (a b c : Nat) : Nat × Nat × Nat × Nat :=
  ((a &&& 0xfc) >>> 2,
   ((a &&& 0x03) <<< 4) + ((b &&& 0xf0) >>> 4),
   ((b &&& 0x0f) <<< 2) + ((c &&& 0xc0) >>> 6),
   c &&& 0x3f)

/-- `Base64::Encode`, base64.cpp:43-90. `outLen` is the local `out_len` (only full groups count). The first case is one
turn of the `while` loop that completes a group (lines 52-68), the others are the tail after the loop (71-86). -/
def encodeFrom : Bytes → Nat → Bytes
  | a :: b :: c :: rest, outLen =>
    let (p, q, r, s) := split3 a.toNat b.toNat c.toNat
    [charAt p, charAt q, charAt r, charAt s]
      ++ (if (outLen + 4) % (64 * 1024) = 0 then b!"\r\n" else [])
      ++ encodeFrom rest (outLen + 4)
  | [a, b], _ =>
    let (p, q, r, _) := split3 a.toNat b.toNat 0
    [charAt p, charAt q, charAt r] ++ b!"="
  | [a], _ =>
    let (p, q, _, _) := split3 a.toNat 0 0
    [charAt p, charAt q] ++ b!"=="
  | [], _ => []

/-- `Base64::Encode(bytes, in_len)`, base64.cpp:43. -/
def encode (s : Bytes) : Bytes := encodeFrom s 0

/-- `isalnum` in the "C" locale. -/
def isalnum (c : UInt8) : Bool :=
  (48 ≤ c && c ≤ 57) || (65 ≤ c && c ≤ 90) || (97 ≤ c && c ≤ 122)

/-- `is_base64`, base64.cpp:39-41. -/
def isBase64 (c : UInt8) : Bool := isalnum c || c == 43 || c == 47

/-- `static_cast<unsigned char>(base64_chars.find(c))`, base64.cpp:103 and 120; `npos` becomes 255. -/
def indexOf (c : UInt8) : Nat := ((chars.idxOf? c).getD 255) % 256

/-- The bit operations of base64.cpp:105-107 and 122-124; results are stored into `unsigned char`, hence modulo 256. -/
def join4 (p q r s : Nat) : UInt8 × UInt8 × UInt8 :=
  (UInt8.ofNat ((p <<< 2) + ((q &&& 0x30) >>> 4)),
   UInt8.ofNat (((q &&& 0xf) <<< 4) + ((r &&& 0x3c) >>> 2)),
   UInt8.ofNat (((r &&& 0x3) <<< 6) + s))

/-- The decoding of the characters accepted by the loop condition, base64.cpp:99-127. In the tail the missing
positions hold the character 0, which is not in the alphabet. -/
def decodeGroups : Bytes → Bytes
  | p :: q :: r :: s :: rest =>
    let (a, b, c) := join4 (indexOf p) (indexOf q) (indexOf r) (indexOf s)
    a :: b :: c :: decodeGroups rest
  | [p, q, r] =>
    let (a, b, _) := join4 (indexOf p) (indexOf q) (indexOf r) (indexOf 0)
    [a, b]
  | [p, q] =>
    let (a, _, _) := join4 (indexOf p) (indexOf q) (indexOf 0) (indexOf 0)
    [a]
  | [_] => []
  | [] => []

/-- `Base64::Decode`, base64.cpp:92-130. The loop stops at the first `=` or character outside the alphabet (line 99).
Simplification: `int in_` is unbounded (inputs above 2 GiB overflow it). -/
def decode (s : Bytes) : Bytes :=
  decodeGroups (s.takeWhile fun c => c != 61 && isBase64 c)

end Verif.Model.Base64
