import Verif.Spec.Lines
import Verif.Spec.Text
import Verif.Spec.Trace
/-!
# What a receiver of the message sees

RFC 5321 section 4.5.2 (end of data, transparency), RFC 5322 section 2.1 (header section), RFC 2046 section 5.1.1 (multipart). Written from the
RFCs, on lines; nothing of the client's code is used.
-/
namespace Verif.Spec
open Verif

/-- A text without CRLF. -/
def CrlfFree (s : Bytes) : Prop := ¬ Occurs [13, 10] s

/-- RFC 5321 4.5.2: the receiver removes the first character of a line when it is a period. -/
def unstuff : Bytes → Bytes
  | [] => []
  | c :: l => if c = 46 then l else c :: l

/-- RFC 5321 4.5.2: what the receiver takes for the mail data, and the lines it then takes for commands; `none` while the line with the single
period has not arrived. -/
def receive : List Bytes → Option (List Bytes × List Bytes)
  | [] => none
  | l :: ls => if l = [46] then some ([], ls) else (receive ls).map fun r => (unstuff l :: r.1, r.2)

/-- RFC 5322 2.1: the header section ends at the first empty line. -/
def headerSection (ls : List Bytes) : List Bytes := ls.takeWhile (· ≠ [])

/-- The lines after the empty line. -/
def afterHeader (ls : List Bytes) : List Bytes := (ls.dropWhile (· ≠ [])).drop 1

/-- RFC 2046 5.1.1: a line that begins with the boundary after two hyphens. -/
def IsDelimiter (b l : Bytes) : Prop := b!"--" ++ b <+: l

/-- RFC 2046 5.1.1: the last delimiter has two more hyphens. -/
def IsClose (b l : Bytes) : Prop := b!"--" ++ b ++ b!"--" <+: l

instance (b l : Bytes) : Decidable (IsDelimiter b l) := inferInstanceAs (Decidable (_ <+: _))
instance (b l : Bytes) : Decidable (IsClose b l) := inferInstanceAs (Decidable (_ <+: _))

/-- Put a line in front of the first part. -/
def consPart (l : Bytes) : List (List Bytes) → List (List Bytes)
  | [] => [[l]]
  | p :: ps => (l :: p) :: ps

/-- The parts that follow a delimiter; `none` if the last one is not closed. -/
def bodyParts (b : Bytes) : List Bytes → Option (List (List Bytes))
  | [] => none
  | l :: ls =>
    if IsClose b l then some [[]]
    else if IsDelimiter b l then (bodyParts b ls).map ([] :: ·)
    else (bodyParts b ls).map (consPart l)

/-- RFC 2046 5.1.1: the parts of a multipart body; lines before the first delimiter do not belong to any part. -/
def multipart (b : Bytes) : List Bytes → Option (List (List Bytes))
  | [] => none
  | l :: ls =>
    if IsClose b l then none
    else if IsDelimiter b l then bodyParts b ls
    else multipart b ls

/-- The text made of these lines. -/
def joined (ls : List Bytes) : Bytes := List.intercalate [13, 10] ls

/-- All bytes said, in order. -/
def said (items : List Item) : Bytes :=
  (items.map fun
    | .cmd _ t _ => t
    | .content _ t => t
    | .quit _ t => t).flatten

end Verif.Spec
