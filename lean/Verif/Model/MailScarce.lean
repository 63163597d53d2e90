import Verif.Model.ClientScarce
/-!
# Messages when memory runs out

The member functions of `Verif.Model.MessageHeap`, when `new` can throw `std::bad_alloc`, on the programs of `Verif.Model.ClientScarce`. The exception
comes out of the constructor or of the assignment and the program catches it; but the move assignment is `noexcept` (message.cpp:287), and an exception
that would leave it calls `std::terminate`.

Simplifications: the memory of an object in `new T(...)`, which C++ gets first and gives back when the constructor throws, is taken when its
texts are there, though the attempt for it comes first; and when a constructor of `Message` throws, the texts of `mFrom`, which C++ destroys,
stay on the heap, where nobody can reach them.
-/
namespace Verif.Model
open Verif

variable {ε ε' α : Type}

/-- The array that a loop had begun to fill when memory ran out: the elements that were made are in it. -/
def halfFilled (mk : Ptr → ε) (done : List Ptr) (h : Heap) : ε × Heap :=
  (mk (some h.next), { mem := fun a => if a = h.next then some (.arr done) else h.mem a, next := h.next + 1 })

/-- `new T*[count]` and the loop that fills it. `old` is left behind when there is no array, `mk` of the array when a loop ends early. -/
def tryFill (old : ε) (mk : Ptr → ε) (loop : Attempt (List Ptr) (List Ptr)) : Attempt ε Ptr := fun g st =>
  if g st.1 then
    match loop g (st.1 + 1, st.2) with
    | .error e => .error e
    | .ok (.error done, st') =>
      let r := halfFilled mk done st'.2
      .ok (.error r.1, (st'.1, r.2))
    | .ok (.ok qs, st') => calm (do let a ← alloc (.arr qs); pure (some a)) g st'
  else .ok (.error old, (st.1 + 1, st.2))

/-- `new T(*p[i])` in a loop, message.cpp:154-156 and the same for the others. The elements made so far are left behind. -/
def tryCopyObjects (done : List Ptr) : List Ptr → Attempt (List Ptr) (List Ptr)
  | [] => pure []
  | p :: ps => do
    let q ← tryCopyObject done p
    let qs ← tryCopyObjects (done ++ [q]) ps
    pure (q :: qs)

/-- `new T*[count]` and its elements, message.cpp:153-156, 207-210 and the same for the others. -/
def tryCopyElements (old : ε) (mk : Ptr → ε) (a : MailArr) : Attempt ε Ptr := do
  let l ← calm (readArray a.ptr)
  if a.count ≤ l.length then tryFill old mk (tryCopyObjects [] (l.take a.count)) else calm (failH .deadRead)

/-- `new T(p[i])` in a loop from objects of the caller, message.cpp:64-66 and the same for the others. -/
def tryNewObjects (done : List Ptr) : List (List Bytes) → Attempt (List Ptr) (List Ptr)
  | [] => pure []
  | t :: ts => do
    room done
    let fs ← tryNewFields done t
    let a ← calm (alloc (.obj fs))
    let qs ← tryNewObjects (done ++ [some a]) ts
    pure (some a :: qs)

/-- An array argument of the constructor, message.cpp:62-88. -/
def tryNewArray (left : ε) : Option (List (List Bytes)) → Attempt ε MailArr
  | none => pure { ptr := none, count := 0 }
  | some ts => do
    let p ← tryFill left (fun _ => left) (tryNewObjects [] ts)
    pure { ptr := p, count := ts.length }

/-- All array arguments in order, message.cpp:62-88. -/
def tryNewArrays (left : ε) : List (Option (List (List Bytes))) → Attempt ε (List MailArr)
  | [] => pure []
  | t :: ts => do
    let a ← tryNewArray left t
    let as ← tryNewArrays left ts
    pure (a :: as)

/-- Subject or body in the constructor, message.cpp:44-60. -/
def tryNewText (left : ε) : Option Bytes → Attempt ε Ptr
  | none => do
    let a ← tryAlloc left .scalar
    pure (some a)
  | some s => do
    let a ← tryAlloc left (.chars s)
    pure (some a)

/-- The constructor, message.cpp:22-89. An object whose constructor throws never exists; its members are plain pointers, so that what they point to
stays. -/
def MailObj.tryConstruct (left : ε) (t : MailArgs) : Attempt ε MailObj := do
  let sender ← tryNewFields left t.sender
  let subject ← tryNewText left t.subject
  let body ← tryNewText left t.body
  let arrays ← tryNewArrays left t.arrays
  pure { sender := sender, subject := subject, body := body, arrays := arrays }

/-- `if (other.mToCount > 0) { ... }` in the copy constructor, message.cpp:152-157 and the same for the others. -/
def tryCopyIfAny (left : ε) (a : MailArr) : Attempt ε Ptr := if a.count > 0 then tryCopyElements left (fun _ => left) a else pure none

/-- All arrays in the copy constructor, message.cpp:151-181. -/
def tryCopyArrays (left : ε) : List MailArr → Attempt ε (List MailArr)
  | [] => pure []
  | a :: as => do
    let p ← tryCopyIfAny left a
    let qs ← tryCopyArrays left as
    pure ({ ptr := p, count := a.count } :: qs)

/-- The copy constructor, message.cpp:131-182. -/
def MailObj.tryCopy (left : ε) (m : MailObj) : Attempt ε MailObj := do
  let sender ← tryCopyFields left m.sender
  let subject ← tryCopyText left m.subject
  let body ← tryCopyText left m.body
  let arrays ← tryCopyArrays left m.arrays
  pure { sender := sender, subject := subject, body := body, arrays := arrays }

/-- `if (other.mToCount > 0) { ... }` in the copy assignment, message.cpp:206-211 and the same for the others. -/
def tryReplaceIfAny (old : ε) (mk : Ptr → ε) (p : Ptr) (b : MailArr) : Attempt ε Ptr := if b.count > 0 then tryCopyElements old mk b else pure p

/-- The arrays in the copy assignment, message.cpp:200-254. The count is written when the array is filled: a failure leaves the new array, if there is
one, with the old count. `mk` makes what is left behind from the arrays. -/
def tryAssignArrays (mk : List MailArr → ε) : List MailArr → List MailArr → Attempt ε (List MailArr)
  | a :: as, b :: bs => do
    calm (deleteIfAny a)
    let p ← tryReplaceIfAny (mk (a :: as)) (fun p => mk ({ a with ptr := p } :: as)) a.ptr b
    let qs ← tryAssignArrays (fun l => mk ({ ptr := p, count := b.count } :: l)) as bs
    pure ({ ptr := p, count := b.count } :: qs)
  | _, _ => pure []

/-- The copy assignment, message.cpp:185-257, when the objects are not the same. -/
def MailObj.tryAssign (self other : MailObj) : Attempt MailObj MailObj := do
  calm (deleteArray self.subject)
  let subject ← tryCopyText self other.subject
  calm (deleteArray self.body)
  let body ← tryCopyText { self with subject := subject } other.body
  let arrays ← tryAssignArrays (fun l => { self with subject := subject, body := body, arrays := l }) self.arrays other.arrays
  pure { sender := self.sender, subject := subject, body := body, arrays := arrays }

/-- The move assignment, message.cpp:287-346, when the objects are not the same: `mFrom = other.mFrom` (321) copies the sender. -/
def MailObj.tryMoveAssign (left : ε) (self other : MailObj) : Attempt ε (MailObj × MailObj) := do
  calm (deleteArray self.subject)
  calm (deleteArray self.body)
  calm (destroyArrays self.arrays)
  calm (deleteFields self.sender)
  let sender ← tryCopyFields left other.sender
  pure ({ other with sender := sender }, other.emptied)

/-- One operation. `none` is left behind when `std::terminate` was called. The move constructor (message.cpp:260-284) and the destructor (91-128) need no
memory. -/
def tryMStep (o : Mails) : MOp → Attempt (Option Mails) Mails
  | .construct x t => do pure (setMail o x (some (← MailObj.tryConstruct (some o) t)))
  | .copy x y =>
    match o y with
    | some w => do pure (setMail o x (some (← w.tryCopy (some o))))
    | none => calm (failH .deadRead)
  | .assign x y =>
    match o x, o y with
    | some v, some w => if x = y then pure o else do
      let r ← mapLeft (fun m => some (setMail o x (some m))) (v.tryAssign w)
      pure (setMail o x (some r))
    | _, _ => calm (failH .deadRead)
  | .moveAssign x y =>
    match o x, o y with
    | some v, some w => if x = y then pure o else do
      let r ← v.tryMoveAssign none w
      pure (setMail (setMail o y (some r.2)) x (some r.1))
    | _, _ => calm (failH .deadRead)
  | op => calm (mstep o op)

/-- A program that catches every `std::bad_alloc`: which operations succeeded, and the end, which has no messages when `std::terminate` was called. -/
def tryMRun (g : Nat → Bool) (o : Mails) (st : Nat × Heap) : List MOp → List Bool × Except MemErr (Option (Mails × Heap))
  | [] => ([], .ok (some (o, st.2)))
  | p :: ps =>
    match tryMStep o p g st with
    | .error e => ([], .error e)
    | .ok (.ok o', st') =>
      let r := tryMRun g o' st' ps
      (true :: r.1, r.2)
    | .ok (.error (some o'), st') =>
      let r := tryMRun g o' st' ps
      (false :: r.1, r.2)
    | .ok (.error none, _) => ([false], .ok none)

end Verif.Model
