import Verif.Model.Heap
/-!
# Objects when memory runs out

The member functions of `Model/Heap`, when `new` can throw `std::bad_alloc`. An exception leaves a function where it is thrown: what was deleted
before is deleted, the members keep the pointers they had, and the destructor of an object whose constructor did not finish does not run. The
exception is caught by the program, which goes on.
-/
namespace Verif.Model
open Verif

/-- Programs that allocate: which attempts succeed, how many there were, and the heap. -/
def S (α : Type) : Type := (Nat → Bool) → Nat × Heap → Except MemErr (α × (Nat × Heap))

instance : Monad S where
  pure a := fun _ st => .ok (a, st)
  bind p f := fun g st => match p g st with
    | .ok (a, st') => f a g st'
    | .error e => .error e

/-- A part that does not allocate. -/
def liftS {α : Type} (p : H α) : S α := fun _ st =>
  match p st.2 with
  | .ok (a, h) => .ok (a, (st.1, h))
  | .error e => .error e

/-- `new`: `none` is `std::bad_alloc`. -/
def tryNew (b : Block) : S (Option Nat) := fun g st =>
  if g st.1 then
    match alloc b st.2 with
    | .ok (a, h) => .ok (some a, (st.1 + 1, h))
    | .error e => .error e
  else .ok (none, (st.1 + 1, st.2))

/-- Temporary objects that allocate and are gone afterwards, such as the `std::string` of the checks in messageaddress.cpp:12-20,
credential.cpp:13-16, attachment.cpp:14, credential.cpp:125-128 and the texts in errorresolver.cpp:14-164. All of them together are one
attempt. `false` is `std::bad_alloc`. -/
def scratch : S Bool := fun g st => .ok (g st.1, (st.1 + 1, st.2))

/-- The allocations of the constructors, messageaddress.cpp:22-31, credential.cpp:22-31, attachment.cpp:18-32, errorresolver.cpp:166-169: `none`
when one of them throws. The blocks allocated before are lost, since the destructor does not run. -/
def constructS (o : Objs) : List Arg → S (Option (List Ptr))
  | [] => pure (some [])
  | t :: ts => do
    let s ← liftS (readArg o t)
    match ← tryNew (.chars s) with
    | none => pure none
    | some a =>
      match ← constructS o ts with
      | none => pure none
      | some qs => pure (some (some a :: qs))

/-- Copy constructors, messageaddress.cpp:39-48, credential.cpp:41-52, attachment.cpp:44-57, errorresolver.cpp:178-184. -/
def copyS : List Ptr → S (Option (List Ptr))
  | [] => pure (some [])
  | p :: ps => do
    let s ← liftS (readText p)
    match ← tryNew (.chars s) with
    | none => pure none
    | some a =>
      match ← copyS ps with
      | none => pure none
      | some qs => pure (some (some a :: qs))

/-- The second half of the copy assignments, messageaddress.cpp:55-65, credential.cpp:65-76, attachment.cpp:65-80, errorresolver.cpp:191-194: one
member after the other gets a new block. The second result is `false` when an allocation throws; the members from that one on
still hold the addresses of the deleted blocks. -/
def refill : Nat → List Ptr → Flat → S (Flat × Bool)
  | _, [], v => pure (v, true)
  | i, p :: ps, v => do
    let s ← liftS (readText p)
    match ← tryNew (.chars s) with
    | none => pure (v, false)
    | some a => refill (i + 1) ps { v with fields := v.fields.set i (some a) }

/-- Copy assignments, messageaddress.cpp:51-67, credential.cpp:61-79, attachment.cpp:60-82, errorresolver.cpp:187-197, when the objects are not
the same. The method of a credential is copied last. -/
def assignS (self other : Flat) : S (Flat × Bool) := do
  liftS (deleteFields self.fields)
  let (v, ok) ← refill 0 other.fields self
  if ok then pure ({ other with fields := v.fields }, true) else pure (v, false)

/-- `Credential::setUsername` (member 0) and `setPassword` (member 1), credential.cpp:124-147. Only the first one has a temporary string. -/
def setAfterDeleteS (o : Objs) (v : Flat) (i : Nat) (t : Arg) : S (Flat × Bool) := do
  let _ ← liftS (readArg o t)
  let ok ← if i = 0 then scratch else pure true
  if ok then do
    liftS (deleteArray (v.fields.getD i none))
    let s ← liftS (readArg o t)
    match ← tryNew (.chars s) with
    | none => pure (v, false)
    | some a => pure ({ v with fields := v.fields.set i (some a) }, true)
  else pure (v, false)

/-- `Attachment::setContentId`, attachment.cpp:113-118. -/
def setWithoutDeleteS (o : Objs) (v : Flat) (i : Nat) (t : Arg) : S (Flat × Bool) := do
  let s ← liftS (readArg o t)
  match ← tryNew (.chars s) with
  | none => pure (v, false)
  | some a => pure ({ v with fields := v.fields.set i (some a) }, true)

/-- One operation. The second result is `false` when it ends with `std::bad_alloc`. Moves and destructors do not allocate. -/
def sstep (o : Objs) : VOp → S (Objs × Bool)
  | .construct x c ts m => do
    if ← scratch then
      match ← constructS o ts with
      | none => pure (o, false)
      | some ps => pure (setObj o x (some { cls := c, fields := ps, method := m }), true)
    else pure (o, false)
  | .copy x y =>
    match o y with
    | some w => do
      match ← copyS w.fields with
      | none => pure (o, false)
      | some qs => pure (setObj o x (some { w with fields := qs }), true)
    | none => liftS (failH .deadRead)
  | .assign x y =>
    match o x, o y with
    | some v, some w => if x = y then pure (o, true) else do
      let (v', ok) ← assignS v w
      pure (setObj o x (some v'), ok)
    | _, _ => liftS (failH .deadRead)
  | .set x i t =>
    match o x with
    | some v => do
      let (v', ok) ← if v.cls = .credential then setAfterDeleteS o v i t else setWithoutDeleteS o v i t
      pure (setObj o x (some v'), ok)
    | none => liftS (failH .deadRead)
  | op => do
    let o' ← liftS (vstep o op)
    pure (o', true)

/-- A program that catches every `std::bad_alloc`: which operations succeeded, and the end. -/
def srun (g : Nat → Bool) (o : Objs) (st : Nat × Heap) : List VOp → List Bool × Except MemErr (Objs × Heap)
  | [] => ([], .ok (o, st.2))
  | p :: ps =>
    match sstep o p g st with
    | .error e => ([], .error e)
    | .ok ((o', ok), st') =>
      let r := srun g o' st' ps
      (ok :: r.1, r.2)

end Verif.Model
