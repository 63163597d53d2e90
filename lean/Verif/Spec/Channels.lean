import Verif.Model.World
/-!
# On which channel a reply is read (specification)
-/
namespace Verif.Spec
open Verif Verif.Model

/-- An event after which the next read is not for the reply to an earlier command: something else is sent, a new socket is asked for (a greeting will
come), or TLS is negotiated. -/
def Interrupts : Ev → Prop
  | .send _ _ _ _ => True
  | .socket _ => True
  | .tls _ _ => True
  | _ => False

/-- Everything that is read as the reply to a command is read on the channel on which the command was sent. -/
def RepliesOnChannel (h : Hist) : Prop :=
  ∀ pre ch d n mid c r post, h = pre ++ .send .cmd ch d (.sent n) :: (mid ++ .recv c r :: post) → (∀ e ∈ mid, ¬ Interrupts e) → c = ch

end Verif.Spec
