import Verif.Model.ClientHeap
import Verif.Spec.Reply
/-!
# Clients as values (specification)

What each operation does to the texts of client objects when objects are plain values, without memory. A step is `none` when it breaks a rule. `COp`,
`NameArg`, `CredArg` and `SessionOp` are the vocabulary of programs; nothing else of the model is used.
-/
namespace Verif.Spec
open Verif Verif.Model

/-- The members of a client that are texts, whether authentication options are known, and user name and password. -/
structure ClientValue where
  name : Option Bytes
  log : Option Bytes
  response : Option Bytes
  auth : Bool
  credential : Option (Bytes × Bytes)
  deriving DecidableEq, Repr

/-- Clients by name. -/
abbrev ClientValues := Nat → Option ClientValue

/-- Rebind a name. -/
def bindClient (s : ClientValues) (x : Nat) (v : Option ClientValue) : ClientValues := fun y => if y = x then v else s y

/-- What a move leaves behind. -/
def ClientValue.gone : ClientValue := { name := none, log := none, response := none, auth := false, credential := none }

/-- The text of an argument of `setServerName`, if it may be read. -/
def nameText (s : ClientValues) : NameArg → Option Bytes
  | .text t => some t
  | .nameOf x => (s x).bind (·.name)
  | .logOf x => (s x).bind fun v => some (v.log.getD [])

/-- User name and password of an argument of `setCredentials`, if it may be read. -/
def credentialTexts (s : ClientValues) : CredArg → Option (Bytes × Bytes)
  | .texts u p => some (u, p)
  | .of x => (s x).bind (·.credential)

/-- A reply offers authentication if it has at least two lines and one of them is an AUTH line. -/
def OffersAuth (t : Bytes) : Prop := 2 ≤ (lines t).length ∧ ∃ l ∈ lines t, IsAuthLine l

instance (l : Bytes) : Decidable (IsAuthLine l) := inferInstanceAs (Decidable (_ ∨ _))
instance (t : Bytes) : Decidable (OffersAuth t) := inferInstanceAs (Decidable (_ ∧ _))

/-- The first AUTH line of the reply is neither its first nor its last line. -/
def authInside (t : Bytes) : Bool :=
  match (lines t).findIdx? fun l => decide (IsAuthLine l) with
  | some i => 0 < i && i + 1 < (lines t).length
  | none => false

/-- A step of a session. -/
def sessionStep (v : ClientValue) : SessionOp → Option ClientValue
  | .freshLog => some { v with log := some [] }
  | .log _ t => if v.log = none then none else some { v with log := some t }
  | .response t => some { v with response := some t }
  | .options t => some { v with auth := decide (OffersAuth t) }

/-- One operation on values. A client must not be given its own name or credential to replace them with. -/
def clientStep (s : ClientValues) : COp → Option ClientValues
  | .create x t =>
    match nameText s t with
    | some n =>
      if s x = none then some (bindClient s x (some { name := some n, log := none, response := none, auth := false, credential := none })) else none
    | none => none
  | .copy x y =>
    match s y with
    | some w => if s x = none ∧ w.name ≠ none then some (bindClient s x (some w)) else none
    | none => none
  | .assign x y =>
    match s x, s y with
    | some _, some w => if x = y then some s else if w.name ≠ none then some (bindClient s x (some w)) else none
    | _, _ => none
  | .move x y =>
    match s y with
    | some w => if s x = none then some (bindClient (bindClient s y (some .gone)) x (some w)) else none
    | none => none
  | .moveAssign x y =>
    match s x, s y with
    | some _, some w => if x = y then some s else some (bindClient (bindClient s y (some .gone)) x (some w))
    | _, _ => none
  | .setName x t =>
    match s x, nameText s t with
    | some v, some n => if t = .nameOf x then none else some (bindClient s x (some { v with name := some n }))
    | _, _ => none
  | .setCredential x t =>
    match s x, credentialTexts s t with
    | some v, some c => if t = .of x then none else some (bindClient s x (some { v with credential := some c }))
    | _, _ => none
  | .session x op =>
    match s x with
    | some v => (sessionStep v op).map fun w => bindClient s x (some w)
    | none => none
  | .destroy x =>
    match s x with
    | some _ => some (bindClient s x none)
    | none => none

/-- A program on values. -/
def clientRun (s : ClientValues) : List COp → Option ClientValues
  | [] => some s
  | p :: ps => (clientStep s p).bind fun s' => clientRun s' ps

/-- The number of memory blocks of a log, a response and a credential (the object and its two texts). -/
def ClientValue.texts (v : ClientValue) : Nat :=
  (if v.log = none then 0 else 1) + (if v.response = none then 0 else 1) + if v.credential = none then 0 else 3

/-- How many blocks of memory nobody owns after this operation: assignment forgets the log, the response and the credential of its target, and a
reply with an AUTH line in its middle costs one block. -/
def lostBy (s : ClientValues) : COp → Nat
  | .assign x y => if x = y then 0 else ((s x).map (·.texts)).getD 0
  | .session _ (.options t) => if authInside t then 1 else 0
  | _ => 0

/-- … after a program. -/
def lostBlocks (s : ClientValues) : List COp → Nat
  | [] => 0
  | p :: ps => lostBy s p + ((clientStep s p).map fun s' => lostBlocks s' ps).getD 0

end Verif.Spec
