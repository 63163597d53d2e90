import Verif.Proofs.Scarce
import Verif.Props.Objects
/-!
# C73: running out of memory

What `std::bad_alloc` leaves behind when it comes out of a constructor, an assignment or a setter of an address, a credential, an attachment or an error resolver.
-/
namespace Verif.Props
open Verif Verif.Model Verif.Spec Verif.Proofs

/-- **C73** (partial). Whichever allocations fail, a program that catches the exceptions, follows the rules of plain values and no longer uses an object whose
copy assignment, or a credential whose setter, failed, touches no memory that is not its own; only operations that allocate fail; and at the end every
other object displays exactly the value that the operations that succeeded give it. The full claim would let the program use, or at least destroy, an object after
a failed assignment (`C73_assigned_then_destroyed`, `C73_set_then_destroyed`), and would lose no memory (`C73_constructor_loses`). -/
theorem C73_out_of_memory_partial (g : Nat → Bool) (ops : List VOp) (n : Nat)
    (hc : Prudent noValues [] ops (srun g noObjs (n, Heap.empty) ops).1) :
    ∃ o h, (srun g noObjs (n, Heap.empty) ops).2 = .ok (o, h) ∧ FailsOnlyToAllocate ops (srun g noObjs (n, Heap.empty) ops).1 ∧
      ∀ x w, scarceRun noValues [] ops (srun g noObjs (n, Heap.empty) ops).1 x = some w → Displays h o x w := by
  obtain ⟨o, h, B, L, h1, h2, h3⟩ := srun_refines (g := g) (s := noValues) (B := []) (L := []) ops noObjs (n, Heap.empty)
    (by rw [hide_nil]; exact Rel.empty) hc
  refine ⟨o, h, h1, h2, fun x w hw => ?_⟩
  obtain ⟨v, hv, h4⟩ := rel_displays h3 hw
  refine ⟨v, ?_, h4⟩
  unfold hide at hv
  split at hv
  · cases hv
  · exact hv

/-- The fault, if there is one. -/
def faultOf {α : Type} : Except MemErr α → Option MemErr
  | .ok _ => none
  | .error e => some e

theorem of_faultOf {α : Type} {r : Except MemErr α} {e : MemErr} (h : faultOf r = some e) : r = .error e := by
  cases r with
  | ok a => cases h
  | error x => cases h; rfl

/-- `Prudent` as a test. -/
def prudent (s : Values) (B : List Nat) : List VOp → List Bool → Bool
  | [], _ => true
  | p :: ps, oks => (namesOf p).all (fun y => !B.contains y) && match valueStep s p with
    | none => false
    | some s' => match oks with
      | [] => true
      | ok :: rest => prudent (afterwards s s' B p ok).1 (afterwards s s' B p ok).2 ps rest

theorem of_prudent {s : Values} {B : List Nat} {ops : List VOp} {oks : List Bool} (h : prudent s B ops oks = true) : Prudent s B ops oks := by
  induction ops generalizing s B oks with
  | nil => trivial
  | cons p ps ih =>
    simp only [prudent, Bool.and_eq_true, List.all_eq_true] at h
    refine ⟨fun y hy => by simpa using h.1 y hy, ?_⟩
    have h2 := h.2
    cases hv : valueStep s p with
    | none => rw [hv] at h2; cases h2
    | some s' =>
      rw [hv] at h2
      refine ⟨s', rfl, ?_⟩
      cases oks with
      | nil => trivial
      | cons ok rest => exact ih h2

/-- Only the numbered attempt fails. -/
def allBut (k : Nat) : Nat → Bool := fun n => n != k

/-- Two addresses; the first is to become the second, which takes two attempts (6 and 7); then both are destroyed. -/
def twoAddresses : List VOp :=
  [ .construct 0 .address [.text (b!"Ann"), .text (b!"ann@a.ca")] .implicit,
    .construct 1 .address [.text (b!"Bob"), .text (b!"bob@b.ca")] .implicit,
    .assign 0 1, .destroy 1, .destroy 0 ]

/-- With enough memory the program is fine. -/
example : (srun (fun _ => true) noObjs (0, Heap.empty) twoAddresses).1 = [true, true, true, true, true] := by decide +kernel

/-- **C73**, refuted part. When the assignment fails, the destructor deletes again what the assignment had deleted. C++ runs the destructor
whatever the program does. -/
theorem C73_assigned_then_destroyed :
    (srun (allBut 6) noObjs (0, Heap.empty) twoAddresses).1 = [true, true, false, true] ∧
    (srun (allBut 6) noObjs (0, Heap.empty) twoAddresses).2 = .error .doubleFree :=
  ⟨by decide +kernel, of_faultOf (by decide +kernel)⟩

/-- A credential whose password is changed. -/
def newPassword : List VOp :=
  [ .construct 0 .credential [.text (b!"ann"), .text (b!"secret")] .login, .set 0 1 (.text (b!"other")), .destroy 0 ]

/-- **C73**, refuted part: the same for a setter of a credential. -/
theorem C73_set_then_destroyed :
    (srun (allBut 3) noObjs (0, Heap.empty) newPassword).1 = [true, false] ∧
    (srun (allBut 3) noObjs (0, Heap.empty) newPassword).2 = .error .doubleFree :=
  ⟨by decide +kernel, of_faultOf (by decide +kernel)⟩

/-- **C73**, refuted part. A constructor that fails after its first allocation leaves a block that no object owns. -/
theorem C73_constructor_loses :
    (srun (allBut 2) noObjs (0, Heap.empty) [.construct 0 .credential [.text (b!"ann"), .text (b!"secret")] .login]).1 = [false] ∧
    ∃ o h, (srun (allBut 2) noObjs (0, Heap.empty) [.construct 0 .credential [.text (b!"ann"), .text (b!"secret")] .login]).2 = .ok (o, h) ∧
      (∀ x, o x = none) ∧ h.mem 0 = some (.chars (b!"ann")) :=
  ⟨rfl, _, _, rfl, fun _ => rfl, rfl⟩

/-- A prudent program, in which four operations fail: a constructor, a copy, the setter of an attachment and an assignment. -/
def hardTimes : List VOp :=
  [ .construct 0 .address [.text (b!"Ann"), .text (b!"ann@a.ca")] .implicit,
    .construct 1 .address [.text (b!"Bob"), .text (b!"bob@b.ca")] .implicit,
    .construct 1 .address [.text (b!"Bob"), .text (b!"bob@b.ca")] .implicit,
    .copy 2 1, .copy 2 1,
    .construct 3 .attachment [.text (b!"a.png"), .text (b!"a"), .text (b!"")] .implicit,
    .set 3 2 (.text (b!"logo")),
    .assign 0 1, .move 4 3, .destroy 3, .destroy 2 ]

/-- Which attempts succeed there. -/
def scarce : Nat → Bool := fun n => !([5, 10, 17, 19].contains n)

/-- The hypothesis of `C73_out_of_memory_partial` holds there, and four operations fail. -/
example : (srun scarce noObjs (0, Heap.empty) hardTimes).1 = [true, false, true, false, true, true, false, false, true, true, true] ∧
    Prudent noValues [] hardTimes (srun scarce noObjs (0, Heap.empty) hardTimes).1 := by
  exact ⟨by decide +kernel, of_prudent (by decide +kernel)⟩

/-- What the objects are at the end: the second address is whole, the attachment was moved with its old content id, the first address is broken. -/
example : scarceRun noValues [] hardTimes (srun scarce noObjs (0, Heap.empty) hardTimes).1 1 = some ⟨.address, [some (b!"Bob"), some (b!"bob@b.ca")], .implicit⟩ ∧
    scarceRun noValues [] hardTimes (srun scarce noObjs (0, Heap.empty) hardTimes).1 4 =
      some ⟨.attachment, [some (b!"a.png"), some (b!"a"), some (b!"")], .implicit⟩ ∧
    scarceRun noValues [] hardTimes (srun scarce noObjs (0, Heap.empty) hardTimes).1 0 = none := by decide +kernel

end Verif.Props
