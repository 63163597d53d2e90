import Verif.Proofs.Channels
import Verif.Spec.Script
/-!
# C62: a reply is read on the channel on which its command was sent
-/
namespace Verif.Props
open Verif Verif.Model Verif.Spec Verif.Proofs

/-- **C62**: in every life of every client, whatever is configured, whatever is sent and however the servers behave, what is read after a command
and before anything else is sent comes from the channel on which the command went out: the same TLS connection, or the same socket in clear. So
nothing that arrives in clear is taken as the reply to a command that was sent under TLS. -/
theorem C62_replies_on_channel (env : Env) (c : Client) (cs : List Call) : RepliesOnChannel (life cs env { client := c, hist := [] }).2.hist :=
  tuned_channels ((life_tuned cs).state { client := c, hist := [] } fun pre c r post e => by simp at e)

/-- The same for one more message of a client with any past. -/
theorem C62_every_call (env : Env) (s : St) (m : Message) (h : Tuned s.hist) : RepliesOnChannel (sendMail m env s).2.hist :=
  tuned_channels ((sendMail_tuned m).state s h)

/-! ### The hypotheses can be met -/

/-- The channels of the commands and of the reads, in order. -/
def channelsUsed (h : Hist) : List (Bool × Chan) :=
  h.filterMap fun | .send .cmd c _ _ => some (true, c) | .recv c _ => some (false, c) | _ => none

/-- A session with STARTTLS: the first two commands are answered in clear, all later ones under TLS. -/
def upgraded : List RecvRes :=
  .data b!"220 mail.org\r\n" :: .data b!"250-mail.org\r\n250-STARTTLS\r\n250 SIZE\r\n" :: .err :: .data b!"220 go\r\n" :: .err ::
    (.data b!"250 mail.org\r\n\n" :: List.replicate 20 (.data b!"250 ok\r\n\n"))

example : (channelsUsed (sendMail mail (scripted upgraded) (fresh .opportunistic)).2.hist).take 10 =
    [(false, .raw 5), (true, .raw 5), (false, .raw 5), (false, .raw 5), (true, .raw 5), (false, .raw 5), (false, .raw 5), (true, .tls 23 5),
      (false, .tls 23 5), (true, .tls 23 5)] := by
  decide +kernel

end Verif.Props
