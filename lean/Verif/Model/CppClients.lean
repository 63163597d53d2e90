import Verif.Model.Heap
import Verif.Model.Values
/-!
# Memory of the cpp clients

`cpp::SmtpClient`, `cpp::OpportunisticSecureSMTPClient` and `cpp::ForcedSecureSMTPClient` have one member of their own,
`Credential* mCredential = nullptr` (cpp/smtpclient.hpp:146, cpp/opportunisticsecuresmtpclient.hpp:153,
cpp/forcedsecuresmtpclient.hpp:153). Destructor, copy and move are defaulted. Here a heap of `cpp::Credential` objects: the
memory inside a credential is the subject of `Verif.Model.Heap`. The base class has its own copy of the credential, built from a
temporary; it is not touched by what happens here and not modelled here.
-/
namespace Verif.Model
open Verif

/-- Live credential objects, the next address, and the member `mCredential` of every live client. -/
structure CppHeap where
  mem : Nat → Option Credential
  next : Nat
  client : Nat → Option Ptr

/-- No clients. -/
def CppHeap.empty : CppHeap := { mem := fun _ => none, next := 0, client := fun _ => none }

/-- Operations on cpp clients, identified by numbers. -/
inductive CppOp where
  /-- constructor -/
  | construct (x : Nat)
  /-- copy constructor of `x` from `y`; the move constructor does the same to a raw pointer -/
  | copy (x y : Nat)
  | move (x y : Nat)
  /-- copy and move assignment -/
  | assign (x y : Nat)
  | moveAssign (x y : Nat)
  | destroy (x : Nat)
  /-- `setCredentials` with a credential of the caller -/
  | setCredentials (x : Nat) (c : Credential)
  /-- `x.setCredentials(*y.getCredentials())` when `y` has credentials -/
  | setCredentialsFrom (x y : Nat)
  /-- reading what `getCredentials` points to, if not null -/
  | read (x : Nat)
  deriving DecidableEq, Repr

/-- Changing a client's member. -/
def CppHeap.put (h : CppHeap) (x : Nat) (v : Option Ptr) : CppHeap := { h with client := fun y => if y = x then v else h.client y }

/-- `delete mCredential`. -/
def CppHeap.delete (h : CppHeap) : Ptr → Except MemErr CppHeap
  | none => .ok h
  | some a =>
    match h.mem a with
    | none => .error .doubleFree
    | some _ => .ok { h with mem := fun b => if b = a then none else h.mem b }

/-- Reading a credential object through a reference. -/
def CppHeap.load (h : CppHeap) (a : Nat) : Except MemErr Credential :=
  match h.mem a with
  | none => .error .deadRead
  | some c => .ok c

/-- `new Credential(c)`. -/
def CppHeap.alloc (h : CppHeap) (c : Credential) : Nat × CppHeap :=
  (h.next, { h with mem := fun b => if b = h.next then some c else h.mem b, next := h.next + 1 })

/-- The last two lines of `setCredentials`, cpp/smtpclient.cpp:53-54, cpp/opportunisticsecuresmtpclient.cpp:58-59,
cpp/forcedsecuresmtpclient.cpp:58-59, for a credential of the caller. -/
def CppHeap.replace (h : CppHeap) (x : Nat) (p : Ptr) (c : Credential) : Except MemErr CppHeap :=
  match h.delete p with
  | .error e => .error e
  | .ok h1 => .ok ((h1.alloc c).2.put x (some (some (h1.alloc c).1)))

/-- `setCredentials` whose argument is the credential object at address `a`: it is read for the base class before, and for
`new Credential(pCredential)` after the old object was deleted. -/
def CppHeap.replaceFrom (h : CppHeap) (x : Nat) (p : Ptr) (a : Nat) : Except MemErr CppHeap :=
  match h.load a with
  | .error e => .error e
  | .ok _ =>
    match h.delete p with
    | .error e => .error e
    | .ok h1 =>
      match h1.load a with
      | .error e => .error e
      | .ok c => .ok ((h1.alloc c).2.put x (some (some (h1.alloc c).1)))

/-- One operation; operations on clients that do not exist do nothing. -/
def cppStep (h : CppHeap) : CppOp → Except MemErr CppHeap
  | .construct x =>
    match h.client x with
    | none => .ok (h.put x (some none))
    | some _ => .ok h
  | .copy x y | .move x y =>
    match h.client x, h.client y with
    | none, some p => .ok (h.put x (some p))
    | _, _ => .ok h
  | .assign x y | .moveAssign x y =>
    match h.client x, h.client y with
    | some _, some p => .ok (h.put x (some p))
    | _, _ => .ok h
  | .destroy x => .ok (h.put x none)
  | .setCredentials x c =>
    match h.client x with
    | none => .ok h
    | some p => h.replace x p c
  | .setCredentialsFrom x y =>
    match h.client x, h.client y with
    | some p, some (some a) => h.replaceFrom x p a
    | _, _ => .ok h
  | .read x =>
    match h.client x with
    | some (some a) =>
      match h.load a with
      | .error e => .error e
      | .ok _ => .ok h
    | _ => .ok h

/-- A program. -/
def cppRun (h : CppHeap) : List CppOp → Except MemErr CppHeap
  | [] => .ok h
  | o :: os =>
    match cppStep h o with
    | .error e => .error e
    | .ok h' => cppRun h' os

end Verif.Model
