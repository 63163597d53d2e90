import Verif.Spec.Welcome
import Verif.Spec.Served
/-!
# When an opportunistic client may do without encryption
-/
namespace Verif.Spec
open Verif.Model

/-- The client opened a connection to its server (name and port), was greeted there with 220, said EHLO there, and the answer – one reply with the code 250 –
does not offer STARTTLS; the connection was not closed since. -/
def NotOffered (name : Bytes) (port : Nat) (fd : Int) (h : Hist) : Prop :=
  ∃ (v : Nat) (opening greeting reply rest : Hist) (n : Nat), (v : Int) = fd ∧
    h = opening ++ greeting ++ .send .cmd (.raw fd) b!"ehlo localhost\r\n" (.sent n) :: (reply ++ rest) ∧
    OpenedTo name port v opening ∧ OneReply (.raw fd) 220 greeting ∧ OneReply (.raw fd) 250 reply ∧
    ¬ Occurs b!"250-STARTTLS" (heard reply) ∧ .close fd ∉ rest

/-- Whatever is sent in clear on a connection – but EHLO, STARTTLS and QUIT – is sent when the server did not offer STARTTLS there. (Descriptor 0 is not
counted: the client also uses it when it has closed its socket.) -/
def ClearOnlyIfNotOffered (name : Bytes) (port : Nat) (evs : Hist) : Prop :=
  ∀ a k fd d r b, evs = a ++ .send k (.raw fd) d r :: b → fd ≠ 0 → k ≠ .quit →
    d = b!"ehlo localhost\r\n" ∨ d = b!"STARTTLS\r\n" ∨ NotOffered name port fd a

end Verif.Spec
