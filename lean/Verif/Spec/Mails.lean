import Verif.Model.MessageHeap
/-!
# Messages as values (specification)

What each operation on messages does to their contents, without memory. A step is `none` when it breaks a rule. `MOp` and `MailArgs` are the
vocabulary of programs; nothing else of the model is used.
-/
namespace Verif.Spec
open Verif Verif.Model

/-- A list of a message: its elements (texts of address or attachment), and whether it is stale: the message was assigned from one that has no such
element while it had some; and whether the message has an array for it, be it one without elements. -/
structure Part where
  stale : Bool
  elems : List (List Bytes)
  array : Bool
  deriving DecidableEq, Repr

/-- A message: sender (`none` when moved away), subject, body, and To, Cc, Bcc, attachments. -/
structure Mail where
  sender : List (Option Bytes)
  subject : Option Bytes
  body : Option Bytes
  parts : List Part
  deriving DecidableEq, Repr

/-- Messages by name. -/
abbrev MailValues := Nat → Option Mail

/-- Rebind a name. -/
def bindMail (s : MailValues) (x : Nat) (v : Option Mail) : MailValues := fun y => if y = x then v else s y

/-- Not moved from. -/
def Intact (m : Mail) : Prop := none ∉ m.sender ∧ m.subject ≠ none ∧ m.body ≠ none

instance (m : Mail) : Decidable (Intact m) := inferInstanceAs (Decidable (_ ∧ _))

/-- No list is stale. -/
def Sound (m : Mail) : Prop := ∀ p ∈ m.parts, p.stale = false

instance (m : Mail) : Decidable (Sound m) := inferInstanceAs (Decidable (∀ p ∈ m.parts, _))

/-- A message as constructed. -/
def constructed (t : MailArgs) : Mail :=
  { sender := t.sender.map some, subject := t.subject, body := t.body,
    parts := t.arrays.map fun a => { stale := false, elems := a.getD [], array := a.isSome } }

/-- A list after copying: the same elements. -/
def copiedPart (p : Part) : Part := { stale := false, elems := p.elems, array := p.elems ≠ [] }

/-- A list after assignment: the elements of the source. -/
def assignedPart (self other : Part) : Part :=
  { stale := other.elems = [] ∧ (self.stale ∨ self.elems ≠ []), elems := other.elems,
    array := other.elems ≠ [] ∨ self.array }

/-- What a move leaves behind, apart from the sender. -/
def left (m : Mail) : Mail := { m with subject := none, body := none, parts := m.parts.map fun _ => { stale := false, elems := [], array := false } }

/-- One operation on values. -/
def mailStep (s : MailValues) : MOp → Option MailValues
  | .construct x t =>
    if s x = none ∧ t.subject ≠ none ∧ t.body ≠ none ∧ t.arrays.length = 4 then some (bindMail s x (some (constructed t))) else none
  | .copy x y =>
    match s y with
    | some w => if s x = none ∧ Intact w then some (bindMail s x (some { w with parts := w.parts.map copiedPart })) else none
    | none => none
  | .assign x y =>
    match s x, s y with
    | some v, some w =>
      if x = y then some s
      else if Intact w then
        some (bindMail s x (some { sender := v.sender, subject := w.subject, body := w.body, parts := List.zipWith assignedPart v.parts w.parts }))
      else none
    | _, _ => none
  | .move x y =>
    match s y with
    | some w => if s x = none then some (bindMail (bindMail s y (some { left w with sender := w.sender.map fun _ => none })) x (some w)) else none
    | none => none
  | .moveAssign x y =>
    match s x, s y with
    | some v, some w =>
      if x = y then some s
      else if Sound v ∧ none ∉ w.sender then some (bindMail (bindMail s y (some (left w))) x (some w))
      else none
    | _, _ => none
  | .destroy x =>
    match s x with
    | some v => if Sound v then some (bindMail s x none) else none
    | none => none

/-- A program on values. -/
def mailRun (s : MailValues) : List MOp → Option MailValues
  | [] => some s
  | p :: ps => (mailStep s p).bind fun s' => mailRun s' ps

/-- The blocks lost when a list is assigned to: the array of the target, when it has no elements and the source has some. -/
def lostPart (self other : Part) : Nat := if self.array ∧ self.stale = false ∧ self.elems = [] ∧ other.elems ≠ [] then 1 else 0

/-- The blocks lost in one operation. -/
def lostIn (s : MailValues) : MOp → Nat
  | .assign x y =>
    match s x, s y with
    | some v, some w => if x = y then 0 else (List.zipWith lostPart v.parts w.parts).sum
    | _, _ => 0
  | _ => 0

/-- The blocks lost by a program. -/
def lostArrays (s : MailValues) : List MOp → Nat
  | [] => 0
  | p :: ps => lostIn s p + match mailStep s p with
    | some s' => lostArrays s' ps
    | none => 0

end Verif.Spec
