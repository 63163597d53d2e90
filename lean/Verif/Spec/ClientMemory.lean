import Verif.Spec.ClientValues
import Verif.Model.ClientObjects
/-!
# Which memory operations belong to a program with client objects

The objects of `Verif.Model.ClientObjects`, whose sessions talk to servers, seen as clients with memory.
-/
namespace Verif.Spec
open Verif Verif.Model

/-- The part of a client that is in memory of its own. -/
def memoryOfClient (c : Client) : ClientValue :=
  { name := c.serverName, log := c.log.map (·.content), response := c.lastResponse, auth := c.authOptions.isSome,
    credential := c.credential.map fun k => (k.username, k.password) }

/-- The memory of all objects, by number. -/
def memoryOf (w : Objects) : ClientValues := fun i => (w.get i).map memoryOfClient

/-- Several steps of a session. -/
def sessionSteps (v : ClientValue) : List SessionOp → Option ClientValue
  | [] => some v
  | p :: ps => (sessionStep v p).bind fun v' => sessionSteps v' ps

/-- The memory operations of one operation of a program. An operation that throws or is about objects that do not exist does nothing. The steps of a
session are the ones that the session has noted (`St.mem`). -/
def memoryOps (op : ObjOp) (env : Env) (w : Objects) : List COp :=
  let n := w.clients.length
  match op with
  | .create k name port =>
    match Client.new k name port with
    | .ok c => [.create n (.text (c.serverName.getD []))]
    | .error _ => []
  | .copy i =>
    match w.get i with
    | some c => if c.serverName = none then [] else [.copy n i]
    | none => []
  | .move i => if w.get i = none then [] else [.move n i]
  | .assign i j =>
    match w.get i, w.get j with
    | some d, some c => if i = j ∨ d.kind ≠ c.kind ∨ c.serverName = none then [] else [.assign i j]
    | _, _ => []
  | .moveAssign i j =>
    match w.get i, w.get j with
    | some d, some c => if i = j ∨ d.kind ≠ c.kind then [] else [.moveAssign i j]
    | _, _ => []
  | .call i c =>
    match w.get i with
    | none => []
    | some cl =>
      match c with
      | .setServerName p =>
        match checkName p with
        | .ok name => [.setName i (.text name)]
        | .error _ => []
      | .setCredentials k => [.setCredential i (.texts k.username k.password)]
      | .sendMail m => (doCall (.sendMail m) env { client := cl, hist := w.hist }).2.mem.map (.session i)
      | _ => []
  | .destroy i =>
    match w.get i with
    | none => []
    | some cl =>
      match Model.destroy env { client := cl, hist := w.hist } with
      | (.ok _, s) => s.mem.map (.session i) ++ [.destroy i]
      | (.stop _, s) => s.mem.map (.session i)

/-- … of a program, until one operation stops. -/
def memoryProgram : List ObjOp → Env → Objects → List COp
  | [], _, _ => []
  | op :: ops, env, w =>
    memoryOps op env w ++
      match objStep op env w with
      | (.ok _, w') => memoryProgram ops env w'
      | (.stop _, _) => []

end Verif.Spec
