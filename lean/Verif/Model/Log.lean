import Verif.Model.Outcome
/-!
# Model of the communication log (`addCommunicationLogItem`)
-/
namespace Verif.Model
open Verif

/-- `mCommunicationLog` and `mCommunicationLogSize` (smtpclientbase.h). `content` is what `strlen`/the getter see (without the
final NUL), `cap` the number of bytes really allocated, `size` the number the object has recorded. -/
structure Log where
  content : Bytes
  cap : Nat
  size : Nat
  deriving DecidableEq, Repr

/-- `INITIAL_COMM_LOG_LENGTH`, smtpclientbase.h:25. -/
def initialLogLength : Nat := 4096

/-- The fresh log of a session, smtpclientbase.cpp:376-379. -/
def Log.fresh : Log := { content := [], cap := initialLogLength, size := initialLogLength }

/-- The replacement loop, smtpclientbase.cpp:1016-1022: every CRLF, from left to right, becomes the four characters `\r\n`. -/
def escapeCRLF : Bytes → Bytes
  | [] => []
  | [c] => [c]
  | c :: d :: rest => if c = 13 ∧ d = 10 then b!"\\r\\n" ++ escapeCRLF rest else c :: escapeCRLF (d :: rest)

/-- The item as it is appended, smtpclientbase.cpp:1013-1023. -/
def logItem (item pfx : Bytes) : Bytes := if pfx = b!"c" then escapeCRLF (cstr item) else cstr item

/-- `strncat(dst, src, n)` on the text `dst`: at most `n` characters of `src`. -/
def strncat (dst src : Bytes) (n : Nat) : Bytes := dst ++ src.take n

/-- Subtraction of two `size_t` numbers (64 bits) below 2^64: wraps around (smtpclientbase.cpp:1028). -/
def sizeSub (a b : Nat) : Nat := if b ≤ a then a - b else 2 ^ 64 - (b - a)

/-- Whether the item needs a new buffer, smtpclientbase.cpp:1024-1028; the `grow` of `Log.add` (`Proofs.log_add_cap`). -/
def Log.grows (l : Log) (item pfx : Bytes) : Bool :=
  sizeSub l.size l.content.length ≤ 1 + pfx.length + 2 + (logItem item pfx).length + 1

/-- `addCommunicationLogItem`, smtpclientbase.cpp:1024-1043, on a log that is not null. The subtraction is that of `size_t`.
Undefined behaviour when one of the `strncat`s, or the final write, leaves the allocated block. -/
def Log.add (l : Log) (item pfx : Bytes) : Except UB Log :=
  let it := logItem item pfx
  let cur := l.content.length
  let appendSize := 1 + pfx.length + 2 + it.length + 1
  let newSize := cur + appendSize + initialLogLength
  let grow := sizeSub l.size cur ≤ appendSize
  let cap := if grow then newSize else l.cap
  let size := if grow then newSize else l.size
  let text := strncat (strncat (strncat (strncat l.content b!"\n" (size - 1)) pfx (size - 1)) b!": " (size - 1)) it (size - 1)
  if text.length < cap ∧ 0 < size ∧ size ≤ cap then .ok { content := text.take (size - 1), cap := cap, size := size }
  else .error .outOfBounds

end Verif.Model
