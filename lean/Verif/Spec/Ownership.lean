import Verif.Spec.Sockets
import Verif.Model.ClientObjects
/-!
# What it means that connections have one owner
-/
namespace Verif.Spec
open Verif Verif.Model

/-- No two objects hold the same socket (a positive descriptor), or the same TLS connection. -/
def Exclusive (w : Objects) : Prop :=
  ∀ i j c d, i ≠ j → w.get i = some c → w.get j = some d →
    (0 < c.sock → c.sock ≠ d.sock) ∧ (∀ b b', c.bio = some b → d.bio = some b' → b.id ≠ b'.id)

/-- Nobody else closes a socket an object holds, or frees its TLS connection. -/
def StillOpen (w : Objects) : Prop :=
  ∀ i c, w.get i = some c → (0 < c.sock → c.sock ∈ openSockets w.hist) ∧ (∀ b, c.bio = some b → .bioFree b.id ∉ w.hist)

/-- An object without a connection. -/
structure HoldsNone (c : Client) : Prop where
  sock : c.sock = 0
  bio : c.bio = none
  ctx : c.ctx = false
  connected : c.isConnected = false

end Verif.Spec
