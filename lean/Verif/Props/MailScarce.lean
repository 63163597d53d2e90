import Verif.Proofs.MailScarce
import Verif.Props.Mails
import Verif.Props.Scarce
/-!
# C88: messages when memory runs out

What `std::bad_alloc` leaves behind when it comes out of a constructor or an assignment of a message.
-/
namespace Verif.Props
open Verif Verif.Model Verif.Spec Verif.Proofs

/-- **C88** (partial). Whichever attempts to get memory fail, a program that catches the exceptions, follows the rules of C20 and no longer uses a
message whose assignment failed touches no memory that is not its own. Moves into a new message and destructors do not fail. The program goes to its end,
where every message shows exactly what the operations that succeeded give it, unless a move assignment fails: that ends it at once. The full claim would let the
program destroy every message after a failure (`C88_assigned_then_destroyed`, `C88_array_then_destroyed`), would never end it
(`C88_move_assignment_ends_program`) and would lose no memory (`C88_copy_loses`). -/
theorem C88_messages_out_of_memory_partial (g : Nat → Bool) (ops : List MOp) (n : Nat)
    (hc : MailSparing noMailValues ops (tryMRun g noMails (n, Heap.empty) ops).1) :
    ∃ r, (tryMRun g noMails (n, Heap.empty) ops).2 = .ok r ∧ MailFailedRightly r.isNone ops (tryMRun g noMails (n, Heap.empty) ops).1 ∧
      ∀ o h, r = some (o, h) → ∀ x v, mailOutcomes noMailValues ops (tryMRun g noMails (n, Heap.empty) ops).1 x = some v →
        ∃ m, o x = some m ∧ face h m = mailFace v := by
  obtain ⟨r, h1, h2, h3⟩ := tryMRun_refines (g := g) ops noMails noMailValues (n, Heap.empty) 0 (by
    have : seenMails noMailValues noMails = fun _ => none := by funext x; rfl
    rw [this]
    exact MRel.empty) hc
  refine ⟨r, h1, h2, fun o h e x v hv => ?_⟩
  obtain ⟨k, hR⟩ := h3 o h e
  obtain ⟨m, hx, hf⟩ := mrel_face hR hv
  refine ⟨m, ?_, hf⟩
  unfold seenMails at hx
  split at hx
  · cases hx
  · exact hx

/-- **C88.** With plenty of memory no operation fails, and a program does what C19, C20 and C74 are about. -/
theorem C88_plenty_of_memory (ops : List MOp) (n : Nat) :
    (tryMRun (fun _ => true) noMails (n, Heap.empty) ops).2 = (mrun noMails ops Heap.empty).map some ∧
    false ∉ (tryMRun (fun _ => true) noMails (n, Heap.empty) ops).1 := tryMRun_plenty ops noMails _

/-- `MailSparing` as a test. -/
def mailSparing (s : MailValues) : List MOp → List Bool → Bool
  | [], _ => true
  | p :: ps, oks => match mailStep s p with
    | none => false
    | some s' => match oks with
      | [] => true
      | ok :: rest => (!ok && fatal p) || mailSparing (mailOutcome s s' p ok) ps rest

theorem of_mailSparing {s : MailValues} {ops : List MOp} {oks : List Bool} (h : mailSparing s ops oks = true) : MailSparing s ops oks := by
  induction ops generalizing s oks with
  | nil => trivial
  | cons p ps ih =>
    simp only [mailSparing] at h
    cases hv : mailStep s p with
    | none => rw [hv] at h; cases h
    | some s' =>
      rw [hv] at h
      refine ⟨s', hv, ?_⟩
      cases oks with
      | nil => trivial
      | cons ok rest =>
        simp only [Bool.or_eq_true, Bool.and_eq_true, Bool.not_eq_true'] at h
        exact h.imp_right ih

/-- A message from Ann to one recipient. -/
def short (subject : Bytes) (to : Bytes) : MailArgs :=
  { sender := [b!"ann@a.ca", b!"Ann"], subject := some subject, body := some b!"text", arrays := [some [[to, b!""]], none, none, none] }

/-- Two messages, one assigned to the other, which is then destroyed. The assignment takes attempts 16 (subject), 17 (body), 18 (array of recipients) and 19
to 21 (recipient). -/
def assignThenDestroy : List MOp := [.construct 0 (short b!"a" b!"bob@a.ca"), .construct 1 (short b!"b" b!"joe@a.ca"), .assign 0 1, .destroy 0]

/-- With enough memory the program is fine. -/
example : (tryMRun (fun _ => true) noMails (0, Heap.empty) assignThenDestroy).1 = [true, true, true, true] := by decide +kernel

/-- **C88**, refuted part. An assignment that runs out of memory for the subject leaves a message whose destructor deletes the old subject again. -/
theorem C88_assigned_then_destroyed :
    (tryMRun (allBut 16) noMails (0, Heap.empty) assignThenDestroy).1 = [true, true, false] ∧
    (tryMRun (allBut 16) noMails (0, Heap.empty) assignThenDestroy).2 = .error .doubleFree :=
  ⟨by decide +kernel, of_faultOf (by decide +kernel)⟩

/-- **C88**, refuted part. One that runs out of memory for the recipient leaves a message with the old count and an array that was not filled, and the
destructor deletes what it finds there. -/
theorem C88_array_then_destroyed :
    (tryMRun (allBut 19) noMails (0, Heap.empty) assignThenDestroy).1 = [true, true, false] ∧
    (tryMRun (allBut 19) noMails (0, Heap.empty) assignThenDestroy).2 = .error .deadRead :=
  ⟨by decide +kernel, of_faultOf (by decide +kernel)⟩

/-- How a program ended. -/
def endedEarly {α : Type} : Except MemErr (Option α) → Bool
  | .ok none => true
  | _ => false

/-- **C88**, refuted part. The move assignment is `noexcept`, but it copies the sender: when there is no memory for that, the program ends. -/
theorem C88_move_assignment_ends_program :
    (tryMRun (allBut 16) noMails (0, Heap.empty) [.construct 0 (short b!"a" b!"bob@a.ca"), .construct 1 (short b!"b" b!"joe@a.ca"), .moveAssign 0 1, .destroy 0]).1 =
      [true, true, false] ∧
    endedEarly (tryMRun (allBut 16) noMails (0, Heap.empty) [.construct 0 (short b!"a" b!"bob@a.ca"), .construct 1 (short b!"b" b!"joe@a.ca"), .moveAssign 0 1, .destroy 0]).2 =
      true := ⟨by decide +kernel, by decide +kernel⟩

/-- At the end of a program: is the message there, and what does the block hold? -/
def atEnd (x a : Nat) : Except MemErr (Option (Mails × Heap)) → Option (Option MailObj × Option Block)
  | .ok (some (o, h)) => some (o x, h.mem a)
  | _ => none

/-- **C88**, refuted part. A copy that fails at the body leaves the subject on the heap, and no message has it: here there is no message left. -/
theorem C88_copy_loses :
    (tryMRun (allBut 11) noMails (0, Heap.empty) [.construct 0 (short b!"a" b!"bob@a.ca"), .copy 1 0, .destroy 0]).1 = [true, false, true] ∧
    (∀ x, x = 0 ∨ x = 1 → atEnd x 10 (tryMRun (allBut 11) noMails (0, Heap.empty) [.construct 0 (short b!"a" b!"bob@a.ca"), .copy 1 0, .destroy 0]).2 =
      some (none, some (.chars b!"a"))) := by
  refine ⟨by decide +kernel, ?_⟩
  rintro x (rfl | rfl)
  · decide +kernel
  · decide +kernel

/-- A program that spares spoilt messages, in which a constructor, a copy and an assignment fail. The name of the spoilt message is given to a new one. -/
def hardMails : List MOp :=
  [ .construct 0 (short b!"a" b!"bob@a.ca"), .construct 0 (short b!"a" b!"bob@a.ca"), .copy 1 0, .copy 1 0, .construct 2 (short b!"c" b!"eve@a.ca"),
    .assign 1 2, .move 1 0, .assign 2 1, .moveAssign 0 2, .destroy 1 ]

/-- Which attempts succeed there. -/
def fewMails (k : Nat) : Nat → Bool := fun n => !([5, 16, 38, k].contains n)

/-- The hypothesis of `C88_messages_out_of_memory_partial` holds there, three operations fail, and the program goes to its end. -/
example : (tryMRun (fewMails 47) noMails (0, Heap.empty) hardMails).1 = [false, true, false, true, true, false, true, true, true, true] ∧
    MailSparing noMailValues hardMails (tryMRun (fewMails 47) noMails (0, Heap.empty) hardMails).1 ∧
    endedEarly (tryMRun (fewMails 47) noMails (0, Heap.empty) hardMails).2 = false :=
  ⟨by decide +kernel, of_mailSparing (by decide +kernel), by decide +kernel⟩

/-- It also holds when the move assignment fails and ends the program. -/
example : (tryMRun (fewMails 45) noMails (0, Heap.empty) hardMails).1 = [false, true, false, true, true, false, true, true, false] ∧
    MailSparing noMailValues hardMails (tryMRun (fewMails 45) noMails (0, Heap.empty) hardMails).1 ∧
    endedEarly (tryMRun (fewMails 45) noMails (0, Heap.empty) hardMails).2 = true :=
  ⟨by decide +kernel, of_mailSparing (by decide +kernel), by decide +kernel⟩

/-- What the messages are at the end of the first: the message called 0 shows the subject and the recipient of the message that was moved and assigned on. -/
example : (mailOutcomes noMailValues hardMails (tryMRun (fewMails 47) noMails (0, Heap.empty) hardMails).1 0).map (fun m => (m.subject, m.parts.map (·.elems))) =
      some (some b!"a", [[[b!"bob@a.ca", b!""]], [], [], []]) ∧
    mailOutcomes noMailValues hardMails (tryMRun (fewMails 47) noMails (0, Heap.empty) hardMails).1 1 = none := by decide +kernel

end Verif.Props
