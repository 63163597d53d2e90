import Verif.Model.Heap
/-!
# Messages on the heap

The special member functions of `Message` (message.cpp) on the heap of `Verif.Model.Heap`. The four arrays To, Cc, Bcc and attachments are treated
alike by the code and stand in one list in this order. `PlaintextMessage` and `HTMLMessage` add no members and no special member functions.
Filling an array of pointers is one step with its allocation. What the getters hand out (`MessageAddress **`) is only read.
-/
namespace Verif.Model
open Verif

/-- One of the arrays: pointer and count (`mTo` and `mToCount`, ...), message.h:124-133. -/
structure MailArr where
  ptr : Ptr
  count : Nat
  deriving DecidableEq, Repr

/-- A message object, message.h:123-133. `sender` are the members of `mFrom`. -/
structure MailObj where
  sender : List Ptr
  subject : Ptr
  body : Ptr
  arrays : List MailArr
  deriving DecidableEq, Repr

/-- The pointers in an array. -/
def readArray : Ptr → H (List Ptr)
  | none => failH .null
  | some a => fun h => match h.mem a with
    | some (.arr l) => .ok (l, h)
    | some _ => .error .mismatch
    | none => .error .deadRead

/-- The members of an object on the heap. -/
def readObject : Ptr → H (List Ptr)
  | none => failH .null
  | some a => fun h => match h.mem a with
    | some (.obj l) => .ok (l, h)
    | some _ => .error .mismatch
    | none => .error .deadRead

/-- `delete p` for a `MessageAddress *` or an `Attachment *`: the destructor, then the block. -/
def deleteObject : Ptr → H Unit
  | none => pure ()
  | some a => do
    let fs ← readObject (some a)
    deleteFields fs
    release a

/-- `delete` in a loop. -/
def deleteObjects : List Ptr → H Unit
  | [] => pure ()
  | p :: ps => do
    deleteObject p
    deleteObjects ps

/-- `for (i = 0; i < count; i++) delete p[i];` and `delete[] p;`. The array is not looked at when the count is 0. -/
def deleteElements (a : MailArr) : H Unit := do
  if a.count = 0 then
    deleteArray a.ptr
  else
    let l ← readArray a.ptr
    if a.count ≤ l.length then
      deleteObjects (l.take a.count)
      deleteArray a.ptr
    else failH .deadRead

/-- `new T(*p)`. -/
def copyObject (p : Ptr) : H Ptr := do
  let fs ← readObject p
  let qs ← copyFields fs
  let a ← alloc (.obj qs)
  pure (some a)

/-- `new T(*p[i])` in a loop. -/
def copyObjects : List Ptr → H (List Ptr)
  | [] => pure []
  | p :: ps => do
    let q ← copyObject p
    let qs ← copyObjects ps
    pure (q :: qs)

/-- `new T*[count]` and the loop that fills it. -/
def copyElements (a : MailArr) : H Ptr := do
  let l ← readArray a.ptr
  if a.count ≤ l.length then
    let qs ← copyObjects (l.take a.count)
    let n ← alloc (.arr qs)
    pure (some n)
  else failH .deadRead

/-- Texts into new blocks: constructing an address or attachment from one of the caller. -/
def newFields : List Bytes → H (List Ptr)
  | [] => pure []
  | s :: ss => do
    let a ← alloc (.chars s)
    let qs ← newFields ss
    pure (some a :: qs)

/-- `new T(p[i])` in a loop, from objects of the caller. -/
def newObjects : List (List Bytes) → H (List Ptr)
  | [] => pure []
  | t :: ts => do
    let fs ← newFields t
    let a ← alloc (.obj fs)
    let qs ← newObjects ts
    pure (some a :: qs)

/-- The constructor's treatment of an array argument (null, or the texts of its elements), message.cpp:60-88. The count of a null array is taken
to be 0. -/
def newArray : Option (List (List Bytes)) → H MailArr
  | none => pure { ptr := none, count := 0 }
  | some ts => do
    let qs ← newObjects ts
    let a ← alloc (.arr qs)
    pure { ptr := some a, count := ts.length }

/-- All array arguments in order. -/
def newArrays : List (Option (List (List Bytes))) → H (List MailArr)
  | [] => pure []
  | t :: ts => do
    let a ← newArray t
    let as ← newArrays ts
    pure (a :: as)

/-- Subject or body in the constructor, message.cpp:43-58: `new char('\0')` for null. -/
def newText : Option Bytes → H Ptr
  | none => do
    let a ← alloc .scalar
    pure (some a)
  | some s => do
    let a ← alloc (.chars s)
    pure (some a)

/-- The arguments of the constructor. -/
structure MailArgs where
  sender : List Bytes
  subject : Option Bytes
  body : Option Bytes
  arrays : List (Option (List (List Bytes)))
  deriving DecidableEq, Repr

/-- message.cpp:22-89. -/
def MailObj.construct (t : MailArgs) : H MailObj := do
  let sender ← newFields t.sender
  let subject ← newText t.subject
  let body ← newText t.body
  let arrays ← newArrays t.arrays
  pure { sender := sender, subject := subject, body := body, arrays := arrays }

/-- `if (mTo != nullptr) { ... }` in the destructor and in the move assignment, message.cpp:97-102 and the same for the others. -/
def deleteIfSet (a : MailArr) : H Unit := if a.ptr = none then pure () else deleteElements a

/-- All arrays. -/
def destroyArrays : List MailArr → H Unit
  | [] => pure ()
  | a :: as => do
    deleteIfSet a
    destroyArrays as

/-- message.cpp:91-128, and the destructor of `mFrom`. -/
def MailObj.destroy (m : MailObj) : H Unit := do
  deleteArray m.subject
  deleteArray m.body
  destroyArrays m.arrays
  deleteFields m.sender

/-- `if (other.mToCount > 0) { ... }` in the copy constructor, message.cpp:152-157 and the same for the others. -/
def copyIfAny (a : MailArr) : H Ptr := if a.count > 0 then copyElements a else pure none

/-- All arrays in the copy constructor. -/
def copyArrays : List MailArr → H (List MailArr)
  | [] => pure []
  | a :: as => do
    let p ← copyIfAny a
    let qs ← copyArrays as
    pure ({ ptr := p, count := a.count } :: qs)

/-- message.cpp:131-182. -/
def MailObj.copy (m : MailObj) : H MailObj := do
  let sender ← copyFields m.sender
  let subject ← copyText m.subject
  let body ← copyText m.body
  let arrays ← copyArrays m.arrays
  pure { sender := sender, subject := subject, body := body, arrays := arrays }

/-- `if (mToCount > 0) { ... }` in the copy assignment, message.cpp:200-205 and the same for the others. -/
def deleteIfAny (a : MailArr) : H Unit := if a.count > 0 then deleteElements a else pure ()

/-- `if (other.mToCount > 0) { ... }` in the copy assignment, message.cpp:206-211 and the same for the others: the old pointer stays when the
other's count is 0. -/
def replaceIfAny (old : Ptr) (b : MailArr) : H Ptr := if b.count > 0 then copyElements b else pure old

/-- The arrays in the copy assignment, message.cpp:200-253. -/
def assignArrays : List MailArr → List MailArr → H (List MailArr)
  | a :: as, b :: bs => do
    deleteIfAny a
    let p ← replaceIfAny a.ptr b
    let qs ← assignArrays as bs
    pure ({ ptr := p, count := b.count } :: qs)
  | _, _ => pure []

/-- message.cpp:185-257, when the objects are not the same. `mFrom` is not assigned. -/
def MailObj.assign (self other : MailObj) : H MailObj := do
  deleteArray self.subject
  let subject ← copyText other.subject
  deleteArray self.body
  let body ← copyText other.body
  let arrays ← assignArrays self.arrays other.arrays
  pure { sender := self.sender, subject := subject, body := body, arrays := arrays }

/-- What both moves leave behind, without the sender. -/
def MailObj.emptied (m : MailObj) : MailObj :=
  { m with subject := none, body := none, arrays := m.arrays.map fun _ => { ptr := none, count := 0 } }

/-- message.cpp:260-284. -/
def MailObj.move (m : MailObj) : H (MailObj × MailObj) :=
  pure (m, { m.emptied with sender := m.sender.map fun _ => none })

/-- message.cpp:287-346, when the objects are not the same. `mFrom` is copied. -/
def MailObj.moveAssign (self other : MailObj) : H (MailObj × MailObj) := do
  deleteArray self.subject
  deleteArray self.body
  destroyArrays self.arrays
  deleteFields self.sender
  let sender ← copyFields other.sender
  pure ({ other with sender := sender }, other.emptied)

/-- Operations of a program on messages with names. -/
inductive MOp where
  | construct (x : Nat) (t : MailArgs)
  | copy (x y : Nat)
  | assign (x y : Nat)
  | move (x y : Nat)
  | moveAssign (x y : Nat)
  | destroy (x : Nat)
  deriving DecidableEq, Repr

/-- Messages by name. -/
abbrev Mails := Nat → Option MailObj

/-- Rebind a name. -/
def setMail (o : Mails) (x : Nat) (v : Option MailObj) : Mails := fun y => if y = x then v else o y

/-- One operation. -/
def mstep (o : Mails) : MOp → H Mails
  | .construct x t => do pure (setMail o x (some (← MailObj.construct t)))
  | .copy x y =>
    match o y with
    | some w => do pure (setMail o x (some (← w.copy)))
    | none => failH .deadRead
  | .assign x y =>
    match o x, o y with
    | some v, some w => if x = y then pure o else do pure (setMail o x (some (← v.assign w)))
    | _, _ => failH .deadRead
  | .move x y =>
    match o y with
    | some w => do
      let r ← w.move
      pure (setMail (setMail o y (some r.2)) x (some r.1))
    | none => failH .deadRead
  | .moveAssign x y =>
    match o x, o y with
    | some v, some w => if x = y then pure o else do
      let r ← v.moveAssign w
      pure (setMail (setMail o y (some r.2)) x (some r.1))
    | _, _ => failH .deadRead
  | .destroy x =>
    match o x with
    | some v => do
      v.destroy
      pure (setMail o x none)
    | none => failH .deadRead

/-- A program. -/
def mrun (o : Mails) : List MOp → H Mails
  | [] => pure o
  | p :: ps => do
    let o' ← mstep o p
    mrun o' ps

end Verif.Model
