import Verif.Proofs.Envelope
/-!
# C86: before DATA is agreed to, only the addresses of a message matter
-/
namespace Verif.Props
open Verif Verif.Model Verif.Spec Verif.Proofs

/-- **C86, partial.** Two messages with the same addresses are sent in the same state of any client and of the world. Then the two calls do the same in every respect, or they do the same up
to a moment where the server has just agreed to DATA: with 354, or with a reply that reads as 0 (which the client takes for success); or, if the names of the senders differ, where it has just
refused MAIL FROM with 501, upon which the client sends the name. Missing: the last two cases, for which the statement is false (`C86_name_in_envelope`, `C86_not_agreed`). -/
theorem C86_same_until_data_partial (env : Env) (s : St) (m m' : Message) (hm : SameEnvelope m m') :
    sendMail m env s = sendMail m' env s ∨
      ∃ shared rest rest', (sendMail m env s).2.hist = s.hist ++ shared ++ rest ∧ (sendMail m' env s).2.hist = s.hist ++ shared ++ rest' ∧
        (EndsAnswered shared b!"DATA\r\n" 354 ∨ EndsAnswered shared b!"DATA\r\n" 0 ∨
          m.from.displayName ≠ m'.from.displayName ∧ EndsAnswered shared (cstr (b!"MAIL FROM: <" ++ m.from.email ++ b!">\r\n")) 501) := by
  rcases fork_sendMail (env := env) (s := s) hm with h | ⟨shared, rest, rest', h1, h2, h3⟩
  · exact .inl h
  · refine .inr ⟨shared, rest, rest', h1, h2, ?_⟩
    rcases h3 with h3 | h3 | h3
    · exact .inr (.inr h3)
    · exact .inl h3
    · exact .inr (.inl h3)

/-- The message of the examples with another subject, another body and another name of the recipient. -/
def otherText : Message := { mail with subject := b!"Bye", body := b!"Nothing", to := { ptr := some [{ email := b!"you@there.org", displayName := b!"Thou" }], count := 1 } }

theorem otherText_same : SameEnvelope mail otherText := ⟨rfl, rfl, rfl, rfl⟩

/-- A refused recipient: the two messages have the same result and the same history. -/
example : SameEnvelope mail otherText ∧ mail ≠ otherText ∧
    (let env := scripted (.data b!"220 hi\r\n" :: clear [b!"250 ok\r\n", b!"250 ok\r\n", b!"550 no\r\n"])
     let r := sendMail mail env (fresh .smtp)
     let r' := sendMail otherText env (fresh .smtp)
     (r.1, r'.1, r.2.hist == r'.2.hist)) = (.ok 550, .ok 550, true) :=
  ⟨otherText_same, by decide +kernel, by decide +kernel⟩

/-- Accepted messages: the same commands, other contents. -/
example : (let env := scripted (.data b!"220 hi\r\n" :: clear [b!"250 ok\r\n", b!"250 ok\r\n", b!"250 ok\r\n", b!"354 go\r\n", b!"250 ok\r\n"])
     let r := sendMail mail env (fresh .smtp)
     let r' := sendMail otherText env (fresh .smtp)
     (r.1, r'.1, commands r.2.hist == commands r'.2.hist, contents r.2.hist == contents r'.2.hist)) = (.ok 0, .ok 0, true, false) := by decide +kernel

/-- The message of the examples from someone with a name. -/
def signedBy (name : Bytes) : Message := { mail with «from» := { email := b!"me@here.org", displayName := name } }

/-- **C86, refuted**: a server that refuses MAIL FROM with 501 is told the name of the sender, though it agrees to nothing. -/
theorem C86_name_in_envelope :
    SameEnvelope (signedBy b!"Ann") (signedBy b!"Bob") ∧
    (let env := scripted (.data b!"220 hi\r\n" :: clear [b!"250 ok\r\n", b!"501 no\r\n", b!"550 no\r\n"])
     let r := sendMail (signedBy b!"Ann") env (fresh .smtp)
     let r' := sendMail (signedBy b!"Bob") env (fresh .smtp)
     (r.1, r'.1, (commands r.2.hist).getLast?, (commands r'.2.hist).getLast?)) =
      (.ok 550, .ok 550, some b!"MAIL FROM: <Ann me@here.org>\r\n", some b!"MAIL FROM: <Bob me@here.org>\r\n") :=
  ⟨⟨rfl, rfl, rfl, rfl⟩, by decide +kernel⟩

/-- **C86, refuted**: after a reply to DATA that reads as 0 the body is sent, without its header. -/
theorem C86_not_agreed :
    (let r := sendMail mail (scripted (.data b!"220 hi\r\n" :: clear [b!"250 ok\r\n", b!"250 ok\r\n", b!"250 ok\r\n", b!"000 wait\r\n"])) (fresh .smtp)
     contents r.2.hist) = [b!"--sep\r\nContent-Type: text/plain; charset=UTF-8\r\n\r\nBody\r\n"] := by decide +kernel

end Verif.Props
