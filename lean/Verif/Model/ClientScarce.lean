import Verif.Model.ClientHeap
/-!
# Clients when memory runs out

The member functions of `Verif.Model.ClientHeap`, when `new` and the temporary strings can throw `std::bad_alloc`. An exception leaves a function where
it is thrown: what was deleted before is deleted, and the members keep the pointers they had at that moment. The library catches nothing, so that
the exception comes out of the constructor, the assignment, the setter or `sendMail`; the program catches it and goes on.

Simplifications: all temporary objects that one function makes in a row are one attempt, and in `new Credential(...)` the memory of the object, which C++
gets first and gives back when the constructor throws, is taken when the texts are there, though the attempt for it comes first.
-/
namespace Verif.Model
open Verif

/-- Programs that may end with `std::bad_alloc`, which then leaves `ε` behind: which attempts to get memory succeed, how many there were, and the heap. -/
def Attempt (ε α : Type) : Type := (Nat → Bool) → Nat × Heap → Except MemErr (Except ε α × (Nat × Heap))

instance {ε : Type} : Monad (Attempt ε) where
  pure a := fun _ st => .ok (.ok a, st)
  bind p f := fun g st => match p g st with
    | .ok (.ok a, st') => f a g st'
    | .ok (.error e, st') => .ok (.error e, st')
    | .error e => .error e

variable {ε ε' α : Type}

/-- A part that needs no memory. -/
def calm (p : H α) : Attempt ε α := fun _ st =>
  match p st.2 with
  | .ok (a, h) => .ok (.ok a, (st.1, h))
  | .error e => .error e

/-- Memory is needed. When there is none, `left` is left behind. -/
def room (left : ε) : Attempt ε Unit := fun g st =>
  if g st.1 then .ok (.ok (), (st.1 + 1, st.2)) else .ok (.error left, (st.1 + 1, st.2))

/-- What is left behind, seen from the caller. -/
def mapLeft (f : ε → ε') (p : Attempt ε α) : Attempt ε' α := fun g st =>
  match p g st with
  | .ok (.ok a, st') => .ok (.ok a, st')
  | .ok (.error e, st') => .ok (.error (f e), st')
  | .error e => .error e

/-- `new`. -/
def tryAlloc (left : ε) (b : Block) : Attempt ε Nat := do
  room left
  calm (alloc b)

/-- `copyText`: `new char[strlen(p) + 1]` and the copy, smtpclientbase.cpp:82, 93-95, 118-121. -/
def tryCopyText (left : ε) (p : Ptr) : Attempt ε Ptr := do
  let s ← calm (readText p)
  let a ← tryAlloc left (.chars s)
  pure (some a)

/-- `copyTextIfSet`, smtpclientbase.cpp:85, 87, 98-108 and 126-139. -/
def tryCopyTextIfSet (left : ε) (p : Ptr) : Attempt ε Ptr := if p = none then pure none else tryCopyText left p

/-- The texts of a credential in its copy constructor, credential.cpp:41-52. -/
def tryCopyFields (left : ε) : List Ptr → Attempt ε (List Ptr)
  | [] => pure []
  | p :: ps => do
    let q ← tryCopyText left p
    let qs ← tryCopyFields left ps
    pure (q :: qs)

/-- `new T(*p)`. -/
def tryCopyObject (left : ε) (p : Ptr) : Attempt ε Ptr := do
  let fs ← calm (readObject p)
  room left
  let qs ← tryCopyFields left fs
  let a ← calm (alloc (.obj qs))
  pure (some a)

/-- `copyObjectIfSet`, smtpclientbase.cpp:90-91, 144 and 146. -/
def tryCopyObjectIfSet (left : ε) (p : Ptr) : Attempt ε Ptr := if p = none then pure none else tryCopyObject left p

/-- The constructor, smtpclientbase.cpp:42-64: the string for the checks, then the name. An object whose constructor throws never exists. -/
def ClientObj.tryConstruct (left : ε) (o : Clients) (t : NameArg) : Attempt ε ClientObj := do
  let s ← calm (readName o t)
  room left
  let a ← tryAlloc left (.chars s)
  pure { name := some a, log := none, response := none, auth := none, credential := none }

/-- The copy constructor, smtpclientbase.cpp:80-111: the blocks allocated before the exception belong to nobody, since the members are plain
pointers and the destructor does not run. -/
def ClientObj.tryCopy (left : ε) (c : ClientObj) : Attempt ε ClientObj := do
  let name ← tryCopyText left c.name
  let log ← tryCopyTextIfSet left c.log
  let response ← tryCopyTextIfSet left c.response
  let auth ← tryCopyObjectIfSet left c.auth
  let credential ← tryCopyObjectIfSet left c.credential
  pure { name := name, log := log, response := response, auth := auth, credential := credential }

/-- The copy assignment, smtpclientbase.cpp:114-153, when the objects are not the same. Each member is written when its new block is there. -/
def ClientObj.tryAssign (self other : ClientObj) : Attempt ClientObj ClientObj := do
  calm (deleteArray self.name)
  let name ← tryCopyText self other.name
  let log ← tryCopyTextIfSet { self with name := name } other.log
  let response ← tryCopyTextIfSet { self with name := name, log := log } other.response
  calm (deleteObject self.auth)
  let auth ← tryCopyObjectIfSet { self with name := name, log := log, response := response } other.auth
  let credential ← tryCopyObjectIfSet { self with name := name, log := log, response := response, auth := auth } other.credential
  pure { name := name, log := log, response := response, auth := auth, credential := credential }

/-- `setServerName` with an accepted name, smtpclientbase.cpp:258-268: the string for the checks, the old name deleted, the new one. -/
def ClientObj.trySetName (o : Clients) (c : ClientObj) (t : NameArg) : Attempt ClientObj ClientObj := do
  let _ ← calm (readName o t)
  room c
  calm (deleteArray c.name)
  let s ← calm (readName o t)
  let a ← tryAlloc c (.chars s)
  pure { c with name := some a }

/-- The texts of a credential of the caller, copied, credential.cpp:41-52. -/
def tryNewFields (left : ε) : List Bytes → Attempt ε (List Ptr)
  | [] => pure []
  | s :: ss => do
    let a ← tryAlloc left (.chars s)
    let qs ← tryNewFields left ss
    pure (some a :: qs)

/-- The copy of the argument of `setCredentials`, smtpclientbase.cpp:280. -/
def tryCopyCredential (left : ε) (o : Clients) : CredArg → Attempt ε Ptr
  | .texts u p => do
    room left
    let fs ← tryNewFields left [u, p]
    let a ← calm (alloc (.obj fs))
    pure (some a)
  | .of x =>
    match o x with
    | none => calm (failH .deadRead)
    | some v => tryCopyObject left v.credential

/-- `setCredentials`, smtpclientbase.cpp:278-281. -/
def ClientObj.trySetCredential (o : Clients) (c : ClientObj) (t : CredArg) : Attempt ClientObj ClientObj := do
  calm (deleteObject c.credential)
  let p ← tryCopyCredential c o t
  pure { c with credential := p }

/-- `ParseAuthenticationOptions`, smtpclientbase.cpp:1081-1118: the copies of the line come before `new ServerAuthOptions()`, the list of the options
after it. -/
def tryNewOptions (left : ε) (line : Bytes) : Attempt ε Ptr := do
  room left
  if line.take 8 = b!"250-AUTH" ∨ line.take 8 = b!"250 AUTH" then do
    let a ← tryAlloc left (.obj [])
    room left
    pure (some a)
  else pure none

/-- The loop of `extractAuthenticationOptions`, smtpclientbase.cpp:1128-1139. The copy of the line is made together with those in the parse. -/
def tryExtractOptions (left : ε) : Nat → Bytes → Ptr → Attempt ε Ptr
  | 0, _, ret => pure ret
  | fuel + 1, s, ret =>
    match findSub b!"\r\n" s with
    | none => pure ret
    | some i => do
      let parsed ← tryNewOptions left (s.take i)
      if parsed ≠ none then pure parsed
      else do
        let s' := s.drop (i + 2)
        let ret' ← if !s'.isEmpty && ret.isNone then tryNewOptions left s' else pure ret
        tryExtractOptions left fuel s' ret'

/-- What a session does to the memory of its client: `freshLog` smtpclientbase.cpp:376-379, `log` 1012-1043 (the copy of the item first), `response`
752-758, `options` 310-313, 643, 1120-1141 (the copy of the reply first). -/
def ClientObj.trySession (c : ClientObj) : SessionOp → Attempt ClientObj ClientObj
  | .freshLog => do
    calm (deleteArray c.log)
    let a ← tryAlloc c (.chars [])
    pure { c with log := some a }
  | .log grow s => do
    room c
    let _ ← calm (readText c.log)
    if grow then
      let a ← tryAlloc c (.chars s)
      calm (deleteArray c.log)
      pure { c with log := some a }
    else
      calm (writeText c.log s)
      pure c
  | .response s => do
    calm (deleteArray c.response)
    let a ← tryAlloc c (.chars s)
    pure { c with response := some a }
  | .options text => do
    room c
    let p ← tryExtractOptions c text.length text none
    calm (deleteObject c.auth)
    pure { c with auth := p }

/-- One operation. A client that an exception left behind keeps its name. Moves (156-228) and the destructor (66-77) of smtpclientbase.cpp need no
memory. -/
def tryStep (o : Clients) : COp → Attempt Clients Clients
  | .create x t => do pure (setClient o x (some (← ClientObj.tryConstruct o o t)))
  | .copy x y =>
    match o y with
    | some w => do pure (setClient o x (some (← w.tryCopy o)))
    | none => calm (failH .deadRead)
  | .assign x y =>
    match o x, o y with
    | some v, some w => if x = y then pure o else do
      let r ← mapLeft (fun c => setClient o x (some c)) (v.tryAssign w)
      pure (setClient o x (some r))
    | _, _ => calm (failH .deadRead)
  | .setName x t =>
    match o x with
    | some v => do
      let r ← mapLeft (fun c => setClient o x (some c)) (v.trySetName o t)
      pure (setClient o x (some r))
    | none => calm (failH .deadRead)
  | .setCredential x t =>
    match o x with
    | some v => do
      let r ← mapLeft (fun c => setClient o x (some c)) (v.trySetCredential o t)
      pure (setClient o x (some r))
    | none => calm (failH .deadRead)
  | .session x op =>
    match o x with
    | some v => do
      let r ← mapLeft (fun c => setClient o x (some c)) (v.trySession op)
      pure (setClient o x (some r))
    | none => calm (failH .deadRead)
  | op => calm (cstep o op)

/-- A program that catches every `std::bad_alloc`: which operations succeeded, and the end. -/
def tryRun (g : Nat → Bool) (o : Clients) (st : Nat × Heap) : List COp → List Bool × Except MemErr (Clients × Heap)
  | [] => ([], .ok (o, st.2))
  | p :: ps =>
    match tryStep o p g st with
    | .error e => ([], .error e)
    | .ok (.ok o', st') =>
      let r := tryRun g o' st' ps
      (true :: r.1, r.2)
    | .ok (.error o', st') =>
      let r := tryRun g o' st' ps
      (false :: r.1, r.2)

end Verif.Model
