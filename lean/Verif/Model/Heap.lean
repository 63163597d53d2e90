import Verif.Model.Values
/-!
# Memory and the objects that own it

A heap of blocks, and the special member functions of `MessageAddress`, `Credential`, `Attachment` and `ErrorResolver` on it. These classes consist
of `char *` members and, for `Credential`, an enumeration and, for `ErrorResolver`, a number that is left out here; their special member functions all have the same shape. Writing into a new block
(`strncpy` and the terminating zero) is one step with its allocation.
-/
namespace Verif.Model
open Verif

/-- A pointer: `none` is null. -/
abbrev Ptr := Option Nat

/-- A block of memory: `new char[n + 1]` with a text, `new char('\0')`, a `new`-ed object with `char *` members, an array of pointers. -/
inductive Block where
  | chars (s : Bytes)
  | scalar
  | obj (fields : List Ptr)
  | arr (elems : List Ptr)
  deriving DecidableEq, Repr

/-- Ways to break the rules of memory. -/
inductive MemErr where
  | doubleFree
  | deadRead
  | null
  | mismatch
  deriving DecidableEq, Repr

/-- The heap: live blocks and the next address. Addresses are never used again, which only makes errors visible. -/
structure Heap where
  mem : Nat → Option Block
  next : Nat

/-- Nothing allocated. -/
def Heap.empty : Heap := { mem := fun _ => none, next := 0 }

/-- Programs on the heap; an error ends the program. -/
def H (α : Type) : Type := Heap → Except MemErr (α × Heap)

instance : Monad H where
  pure a := fun h => .ok (a, h)
  bind p f := fun h => match p h with
    | .ok (a, h') => f a h'
    | .error e => .error e

/-- The program breaks a rule. -/
def failH {α : Type} (e : MemErr) : H α := fun _ => .error e

/-- `new`. -/
def alloc (b : Block) : H Nat := fun h =>
  .ok (h.next, { mem := fun a => if a = h.next then some b else h.mem a, next := h.next + 1 })

/-- The end of a block. -/
def release (a : Nat) : H Unit := fun h => .ok ((), { h with mem := fun x => if x = a then none else h.mem x })

/-- `delete[] p` for `char *` and for arrays of pointers. -/
def deleteArray : Ptr → H Unit
  | none => pure ()
  | some a => fun h => match h.mem a with
    | some (.chars _) | some (.arr _) => release a h
    | some _ => .error .mismatch
    | none => .error .doubleFree

/-- `strlen` and `strncpy` reading from a pointer: the text. -/
def readText : Ptr → H Bytes
  | none => failH .null
  | some a => fun h => match h.mem a with
    | some (.chars s) => .ok (s, h)
    | some .scalar => .ok ([], h)
    | some _ => .error .mismatch
    | none => .error .deadRead

/-- `new char[strlen(p) + 1]` and copy. -/
def copyText (p : Ptr) : H Ptr := do
  let s ← readText p
  let a ← alloc (.chars s)
  pure (some a)

/-- Copy all members in order. -/
def copyFields : List Ptr → H (List Ptr)
  | [] => pure []
  | p :: ps => do
    let q ← copyText p
    let qs ← copyFields ps
    pure (q :: qs)

/-- `delete[]` all members in order: messageaddress.cpp:33-36, credential.cpp:33-38, attachment.cpp:34-41,
errorresolver.cpp:172-175. -/
def deleteFields : List Ptr → H Unit
  | [] => pure ()
  | p :: ps => do
    deleteArray p
    deleteFields ps

/-- The class of an object. -/
inductive Cls where
  | address
  | credential
  | attachment
  | error
  deriving DecidableEq, Repr

/-- An object of one of the classes: its `char *` members in the order in which the code treats them, and the recommended method of a
credential (messageaddress.h:66-67, credential.h, attachment.h, errorresolver.h). -/
structure Flat where
  cls : Cls
  fields : List Ptr
  method : AuthMethod
  deriving DecidableEq, Repr

/-- An argument of type `const char *`: the caller's own memory, or what a getter of an object returned. -/
inductive Arg where
  | text (s : Bytes)
  | field (x i : Nat)
  deriving DecidableEq, Repr

/-- Objects by name. -/
abbrev Objs := Nat → Option Flat

/-- Rebind a name. -/
def setObj (o : Objs) (x : Nat) (v : Option Flat) : Objs := fun y => if y = x then v else o y

/-- The pointer a getter returns (messageaddress.cpp:111-117, credential.cpp:111-117, attachment.cpp:120-130,
errorresolver.cpp:228-230). -/
def getter (o : Objs) (x i : Nat) : H Ptr :=
  match o x with
  | none => failH .deadRead
  | some v => pure (v.fields.getD i none)

/-- Read the text of an argument. -/
def readArg (o : Objs) : Arg → H Bytes
  | .text s => pure s
  | .field x i => do readText (← getter o x i)

/-- The constructors, messageaddress.cpp:10-31, credential.cpp:9-31 and 54-58, attachment.cpp:11-32: copy each argument. For an
`ErrorResolver` the argument is the text of its number (`Verif.Model.Errors`), errorresolver.cpp:166-169. The checks of the
arguments are in `Verif.Model.Values`; a call that throws has no effect on memory. -/
def constructFields (o : Objs) : List Arg → H (List Ptr)
  | [] => pure []
  | t :: ts => do
    let s ← readArg o t
    let a ← alloc (.chars s)
    let qs ← constructFields o ts
    pure (some a :: qs)

/-- Copy constructors, messageaddress.cpp:39-48, credential.cpp:41-52, attachment.cpp:44-57, errorresolver.cpp:178-184. -/
def Flat.copy (v : Flat) : H Flat := do
  let qs ← copyFields v.fields
  pure { v with fields := qs }

/-- Copy assignments, messageaddress.cpp:51-67, credential.cpp:61-79, attachment.cpp:60-82, errorresolver.cpp:187-197, when the objects are not the same. -/
def Flat.assign (self other : Flat) : H Flat := do
  deleteFields self.fields
  let qs ← copyFields other.fields
  pure { other with fields := qs }

/-- What a move leaves behind. -/
def Flat.movedFrom (v : Flat) : Flat := { v with fields := v.fields.map fun _ => none }

/-- Move constructors, messageaddress.cpp:70-78, credential.cpp:82-91, attachment.cpp:85-92, errorresolver.cpp:200-207: the new object and what remains of the old. -/
def Flat.move (v : Flat) : H (Flat × Flat) := pure (v, v.movedFrom)

/-- Move assignments, messageaddress.cpp:81-93, credential.cpp:94-108, attachment.cpp:95-111, errorresolver.cpp:210-222, when the objects are not the same. -/
def Flat.moveAssign (self other : Flat) : H (Flat × Flat) := do
  deleteFields self.fields
  pure (other, other.movedFrom)

/-- `Credential::setUsername` (member 0) and `setPassword` (member 1), credential.cpp:124-147: the argument is read for the checks, the old
text is deleted, the argument is read again and copied. -/
def setAfterDelete (o : Objs) (v : Flat) (i : Nat) (t : Arg) : H Flat := do
  let _ ← readArg o t
  deleteArray (v.fields.getD i none)
  let s ← readArg o t
  let a ← alloc (.chars s)
  pure { v with fields := v.fields.set i (some a) }

/-- `Attachment::setContentId`, attachment.cpp:113-118: the old text is not deleted. -/
def setWithoutDelete (o : Objs) (v : Flat) (i : Nat) (t : Arg) : H Flat := do
  let s ← readArg o t
  let a ← alloc (.chars s)
  pure { v with fields := v.fields.set i (some a) }

/-- Operations of a program on objects with names. -/
inductive VOp where
  | construct (x : Nat) (c : Cls) (ts : List Arg) (m : AuthMethod)
  | copy (x y : Nat)
  | assign (x y : Nat)
  | move (x y : Nat)
  | moveAssign (x y : Nat)
  | set (x i : Nat) (t : Arg)
  | setMethod (x : Nat) (m : AuthMethod)
  | destroy (x : Nat)
  deriving DecidableEq, Repr

/-- The state of a program: its objects; the heap is in `H`. Names that do not exist are an error of the program, not of the library. -/
def vstep (o : Objs) : VOp → H Objs
  | .construct x c ts m => do
    let ps ← constructFields o ts
    pure (setObj o x (some { cls := c, fields := ps, method := m }))
  | .copy x y =>
    match o y with
    | some w => do pure (setObj o x (some (← w.copy)))
    | none => failH .deadRead
  | .assign x y =>
    match o x, o y with
    | some v, some w => if x = y then pure o else do pure (setObj o x (some (← v.assign w)))
    | _, _ => failH .deadRead
  | .move x y =>
    match o y with
    | some w => do
      let (a, b) ← w.move
      pure (setObj (setObj o y (some b)) x (some a))
    | none => failH .deadRead
  | .moveAssign x y =>
    match o x, o y with
    | some v, some w => if x = y then pure o else do
      let (a, b) ← v.moveAssign w
      pure (setObj (setObj o y (some b)) x (some a))
    | _, _ => failH .deadRead
  | .set x i t =>
    match o x with
    | some v =>
      if v.cls = .credential then do pure (setObj o x (some (← setAfterDelete o v i t)))
      else do pure (setObj o x (some (← setWithoutDelete o v i t)))
    | none => failH .deadRead
  | .setMethod x m =>
    match o x with
    | some v => pure (setObj o x (some { v with method := m }))
    | none => failH .deadRead
  | .destroy x =>
    match o x with
    | some v => do
      deleteFields v.fields
      pure (setObj o x none)
    | none => failH .deadRead

/-- A program. -/
def vrun (o : Objs) : List VOp → H Objs
  | [] => pure o
  | p :: ps => do
    let o' ← vstep o p
    vrun o' ps

end Verif.Model
