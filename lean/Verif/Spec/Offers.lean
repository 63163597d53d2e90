import Verif.Spec.Trace
import Verif.Spec.Channels
/-!
# Which authentication mechanisms a server offered (specification)

RFC 4954 section 3: the EHLO reply lists the mechanisms after the keyword AUTH.
-/
namespace Verif.Spec
open Verif Verif.Model

/-- The command begins an authentication with the mechanism of this name: AUTH, one space, the name, and then a space or the end
of the line. -/
def BeginsAuth (d name : Bytes) : Prop :=
  ∃ c rest, d = b!"AUTH " ++ name ++ c :: rest ∧ (c = 32 ∨ c = 13) ∧ 32 ∉ name ∧ 13 ∉ name

/-- The text has the keyword AUTH with the reply code 250 in front of it, and later a space and the name. -/
def OffersMechanism (t name : Bytes) : Prop :=
  ∃ a p b c, t = a ++ p ++ b ++ (32 :: name) ++ c ∧ (p = b!"250-AUTH" ∨ p = b!"250 AUTH")

/-- At the end of this history: the last thing said is an EHLO on this channel, no connection was opened and no TLS negotiated
since then, and in what was read since then the mechanism is offered. -/
def OfferedHere (h : Hist) (ch : Chan) (name : Bytes) : Prop :=
  ∃ pre n mid, h = pre ++ .send .cmd ch b!"ehlo localhost\r\n" (.sent n) :: mid ∧ (∀ e ∈ mid, ¬ Interrupts e) ∧
    OffersMechanism (heard mid) name

/-- Every AUTH command in the history is for a mechanism that was offered on its channel in the reply to the command before. -/
def AuthAsOffered (h : Hist) : Prop :=
  ∀ pre ch d r post, h = pre ++ .send .cmd ch d r :: post → b!"AUTH " <+: d → ∃ name, BeginsAuth d name ∧ OfferedHere pre ch name

end Verif.Spec
