import Verif.Spec.Delivery
/-!
# Line ends (specification)

RFC 5321 section 2.3.8: CR and LF are only sent together, as CR LF. A server that takes a lone LF for a line end reads other commands than a server that does not.
-/
namespace Verif.Spec
open Verif Verif.Model

/-- A text in which CR and LF occur only together. -/
inductive LineEnds : Bytes → Prop
  | nil : LineEnds []
  | crlf {t : Bytes} : LineEnds t → LineEnds (13 :: 10 :: t)
  | char {c : UInt8} {t : Bytes} : c ≠ 13 → c ≠ 10 → LineEnds t → LineEnds (c :: t)

/-- In all texts of the message CR and LF occur only together. -/
structure LineEndsOf (m : Message) : Prop where
  addresses : ∀ a ∈ m.from :: recipients m, LineEnds a.email ∧ LineEnds a.displayName
  subject : LineEnds m.subject
  body : LineEnds m.body
  mime : LineEnds m.mime
  attachments : ∀ a ∈ elems m.attachments, LineEnds a.name ∧ LineEnds a.contentId

end Verif.Spec
