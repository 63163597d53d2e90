import Verif.Spec.Envelope
/-!
# The moment of the login (specification)
-/
namespace Verif.Spec
open Verif Verif.Model

/-- The next command tells the credentials: it is AUTH PLAIN or AUTH XOAUTH2 with its argument, or AUTH LOGIN was the last command and the server has just asked
for the user name with 334. -/
def LoginLine (before : Hist) (d : Bytes) : Prop :=
  b!"AUTH PLAIN " <+: d ∨ b!"AUTH XOAUTH2 " <+: d ∨ EndsAnswered before b!"AUTH LOGIN\r\n" 334

end Verif.Spec
