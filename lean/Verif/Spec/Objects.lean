import Verif.Model.Heap
/-!
# Objects as values (specification)

The same operations when objects are plain values: no memory, no sharing. A step is `none` when the program breaks a rule: a name used twice or
not existing, reading a member of a moved-from object, or giving a setter of a credential the very text it is about to replace. `VOp`, `Arg`, `Cls` are the
vocabulary of programs; nothing else of the model is used.
-/
namespace Verif.Spec
open Verif Verif.Model

/-- A value: the texts of its members (`none` after a move) and the method. -/
structure Value where
  cls : Cls
  texts : List (Option Bytes)
  method : AuthMethod
  deriving DecidableEq, Repr

/-- Values by name. -/
abbrev Values := Nat → Option Value

/-- Rebind a name. -/
def bindTo (s : Values) (x : Nat) (v : Option Value) : Values := fun y => if y = x then v else s y

/-- The text of an argument, if it may be read. -/
def argText (s : Values) : Arg → Option Bytes
  | .text t => some t
  | .field x i => (s x).bind fun v => (v.texts[i]?).bind id

/-- Number of members of each class. -/
def members : Cls → Nat
  | .address => 2
  | .credential => 2
  | .attachment => 3
  | .error => 1

/-- Which members have setters: user name and password of a credential, content id of an attachment. -/
def Settable : Cls → Nat → Prop
  | .address, _ => False
  | .credential, i => i < 2
  | .attachment, i => i = 2
  | .error, _ => False

instance : ∀ c i, Decidable (Settable c i)
  | .address, _ => inferInstanceAs (Decidable False)
  | .credential, i => inferInstanceAs (Decidable (i < 2))
  | .attachment, i => inferInstanceAs (Decidable (i = 2))
  | .error, _ => inferInstanceAs (Decidable False)

/-- All members have text. -/
def Whole (v : Value) : Prop := none ∉ v.texts

instance (v : Value) : Decidable (Whole v) := inferInstanceAs (Decidable (¬ _))

/-- One operation on values. -/
def valueStep (s : Values) : VOp → Option Values
  | .construct x c ts m =>
    if s x = none ∧ ts.length = members c ∧ ∀ t ∈ ts, (argText s t).isSome then
      some (bindTo s x (some { cls := c, texts := ts.map (argText s), method := m }))
    else none
  | .copy x y =>
    match s y with
    | some w => if s x = none ∧ Whole w then some (bindTo s x (some w)) else none
    | none => none
  | .assign x y =>
    match s x, s y with
    | some v, some w => if v.cls = w.cls ∧ (x = y ∨ Whole w) then some (bindTo s x (some w)) else none
    | _, _ => none
  | .move x y =>
    match s y with
    | some w => if s x = none then some (bindTo (bindTo s y (some { w with texts := w.texts.map fun _ => none })) x (some w)) else none
    | none => none
  | .moveAssign x y =>
    match s x, s y with
    | some v, some w =>
      if v.cls = w.cls then
        if x = y then some s else some (bindTo (bindTo s y (some { w with texts := w.texts.map fun _ => none })) x (some w))
      else none
    | _, _ => none
  | .set x i t =>
    match s x, argText s t with
    | some v, some text => if Settable v.cls i ∧ ¬ (v.cls = .credential ∧ t = .field x i) then some (bindTo s x (some { v with texts := v.texts.set i (some text) })) else none
    | _, _ => none
  | .setMethod x m =>
    match s x with
    | some v => if v.cls = .credential then some (bindTo s x (some { v with method := m })) else none
    | none => none
  | .destroy x =>
    match s x with
    | some _ => some (bindTo s x none)
    | none => none

/-- A program on values. -/
def valueRun (s : Values) : List VOp → Option Values
  | [] => some s
  | p :: ps => (valueStep s p).bind fun s' => valueRun s' ps

end Verif.Spec
