import Verif.Spec.Delivery
/-!
# The envelope of a message (specification)
-/
namespace Verif.Spec
open Verif Verif.Model

/-- The addresses in a list, without the names. -/
def emails (a : Arr MessageAddress) : Arr Bytes := { ptr := a.ptr.map (·.map (·.email)), count := a.count }

/-- The two messages come from the same address and go to the same addresses. Names, subject, body and attachments can differ. -/
structure SameEnvelope (m m' : Message) : Prop where
  sender : m.from.email = m'.from.email
  to : emails m.to = emails m'.to
  cc : emails m.cc = emails m'.cc
  bcc : emails m.bcc = emails m'.bcc

/-- The last thing sent is this command, and then a text was read that is a reply with this code. -/
def EndsAnswered (h : Hist) (d : Bytes) (code : Int) : Prop :=
  ∃ pre c n mid, h = pre ++ .send .cmd c d (.sent n) :: mid ∧ (∀ e ∈ mid, ¬ IsSend e) ∧ ReplyCode (heard mid) code

end Verif.Spec
