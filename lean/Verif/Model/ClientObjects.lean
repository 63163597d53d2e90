import Verif.Model.Session
/-!
# Client objects that are copied, moved, assigned and destroyed

Programs with any number of client objects that share one world.
-/
namespace Verif.Model
open Verif

/-- A copied log: the new block is as long as the text needs, the recorded size is the old one (smtpclientbase.cpp:85-86). -/
def Log.copied (l : Log) : Log := { l with cap := l.content.length + 1 }

/-- Copy constructor, smtpclientbase.cpp:80-111 and securesmtpclientbase.cpp:42-48: `strlen` of a null server name (an object
that was moved from) is undefined. Copy assignment, smtpclientbase.cpp:114-153 and securesmtpclientbase.cpp:51-60, sets the same
members; what it does not release is not part of this model (the socket is, see `openSockets`). -/
def Client.copied (c : Client) : Except UB Client :=
  match c.serverName with
  | none => .error .nullDeref
  | some _ => .ok { c with log := c.log.map Log.copied, isConnected := false, sock := 0, ptrRaw := c.keep, bio := none, ctx := false }

/-- The new object of the move constructor, smtpclientbase.cpp:156-171, 185 and securesmtpclientbase.cpp:63-68. Move assignment
(smtpclientbase.cpp:189-212, securesmtpclientbase.cpp:78-84) sets the same members. -/
def Client.moved (c : Client) : Client := { c with ptrRaw := c.keep }

/-- The object that was moved from, smtpclientbase.cpp:172-184, 215-227 and securesmtpclientbase.cpp:69-74, 87-91: the two
function pointers stay as they are. -/
def Client.movedFrom (c : Client) : Client :=
  { c with serverName := none, port := 0, batch := false, log := none, lastResponse := none, timeout := 0, lastErrNo := 0,
           authOptions := none, credential := none, isConnected := false, sock := 0, keep := false, bio := none, ctx := false,
           acceptSelfSigned := false }

/-- All objects, in the order of their construction (`none` once destroyed), and the common history. -/
structure Objects where
  clients : List (Option Client)
  hist : Hist
  deriving DecidableEq, Repr

/-- The object with a number. -/
def Objects.get (w : Objects) (i : Nat) : Option Client := (w.clients[i]?).join

/-- What a program does with its client objects. -/
inductive ObjOp where
  | create (k : Kind) (name : Option Bytes) (port : Nat)
  | copy (src : Nat)
  | move (src : Nat)
  | assign (dst src : Nat)
  | moveAssign (dst src : Nat)
  | call (i : Nat) (c : Call)
  | destroy (i : Nat)
  deriving DecidableEq, Repr

/-- One operation. Operations on objects that do not exist, and assignments between different classes, are not programs; here
they do nothing. A constructor that throws makes no object. Self-assignment does nothing (smtpclientbase.cpp:115, 190). -/
def objStep (op : ObjOp) (env : Env) (w : Objects) : Res Unit × Objects :=
  match op with
  | .create k name port =>
    match Client.new k name port with
    | .ok c => (.ok (), { w with clients := w.clients ++ [some c] })
    | .error (.ub u) => (.stop (.ub u), w)
    | .error .invalidArgument => (.ok (), w)
  | .copy i =>
    match w.get i with
    | none => (.ok (), w)
    | some c =>
      match c.copied with
      | .error u => (.stop (.ub u), w)
      | .ok c' => (.ok (), { w with clients := w.clients ++ [some c'] })
  | .move i =>
    match w.get i with
    | none => (.ok (), w)
    | some c => (.ok (), { w with clients := w.clients.set i (some c.movedFrom) ++ [some c.moved] })
  | .assign i j =>
    match w.get i, w.get j with
    | some d, some c =>
      if i = j ∨ d.kind ≠ c.kind then (.ok (), w)
      else match c.copied with
        | .error u => (.stop (.ub u), w)
        | .ok c' => (.ok (), { w with clients := w.clients.set i (some c') })
    | _, _ => (.ok (), w)
  | .moveAssign i j =>
    match w.get i, w.get j with
    | some d, some c =>
      if i = j ∨ d.kind ≠ c.kind then (.ok (), w)
      else (.ok (), { w with clients := (w.clients.set i (some c.moved)).set j (some c.movedFrom) })
    | _, _ => (.ok (), w)
  | .call i c =>
    match w.get i with
    | none => (.ok (), w)
    | some cl =>
      match doCall c env { client := cl, hist := w.hist } with
      | (.ok _, s) => (.ok (), { clients := w.clients.set i (some s.client), hist := s.hist })
      | (.stop e, s) => (.stop e, { clients := w.clients.set i (some s.client), hist := s.hist })
  | .destroy i =>
    match w.get i with
    | none => (.ok (), w)
    | some cl =>
      match Model.destroy env { client := cl, hist := w.hist } with
      | (.ok _, s) => (.ok (), { clients := w.clients.set i none, hist := s.hist })
      | (.stop e, s) => (.stop e, { clients := w.clients.set i (some s.client), hist := s.hist })

/-- A program: one operation after the other, until one stops. -/
def objRun : List ObjOp → Env → Objects → Res Unit × Objects
  | [], _, w => (.ok (), w)
  | op :: ops, env, w =>
    match objStep op env w with
    | (.ok _, w') => objRun ops env w'
    | (.stop e, w') => (.stop e, w')

/-- The start of a program. -/
def Objects.empty : Objects := { clients := [], hist := [] }

end Verif.Model
