import Verif.Proofs.Minutes
import Verif.Props.Transcript
import Verif.Props.Segments
/-!
# C71: the communication log is a record of the whole conversation
-/
namespace Verif.Props
open Verif Verif.Model Verif.Spec Verif.Proofs

/-- **C71** (partial). Whatever is done with a client and wherever it ends (also in an error, or in the middle of a call that never returns): the
communication log, if there is one, has all the commands and all the replies since the last socket was made, in the order in which they were said, each
attributed to who said it; if there is no log, nothing was said.
Missing: a text that comes when the time is up (`C71_late`), and the converse (`C69_forged`). -/
theorem C71_conversation_recorded_partial (env : Env) (kind : Kind) (p : Option Bytes) (port : Nat) (c : Client) (hc : Client.new kind p port = .ok c) (cs : List Call) :
    let s := (runCalls cs env { client := c, hist := [] }).2
    match s.client.log with
    | some l => Records l.content s.hist
    | none => (minutes s.hist).said = [] :=
  (Minutes.recorded_runCalls cs _ (Minutes.between_new hc)).records

/-- **C71** (partial). The same with the destructor, which may say QUIT. -/
theorem C71_until_the_end_partial (env : Env) (kind : Kind) (p : Option Bytes) (port : Nat) (c : Client) (hc : Client.new kind p port = .ok c) (cs : List Call) :
    let s := (life cs env { client := c, hist := [] }).2
    match s.client.log with
    | some l => Records l.content s.hist
    | none => (minutes s.hist).said = [] :=
  (Minutes.recorded_life cs _ (Minutes.between_new hc)).records

/-- Non-vacuity: the conversation of a session with a login; the user name and the password are not in it, the questions for them are. -/
example : (let r := life [.setCredentials { username := b!"joe", password := b!"pw", method := .implicit }, .setBatchMode true, .sendMail mail] (scripted loginTalk) (fresh .smtp)
    (r.1, r.2.client.log.isSome, (minutes r.2.hist).said)) =
    (.ok [.done, .done, .returned 0], true,
      [(b!"s", b!"220 hi\r"), (b!"c", b!"ehlo localhost\r\n"), (b!"s", b!"250-AUTH LOGIN\r\n250 OK\r\n"),
       (b!"c", b!"AUTH LOGIN ***************\r\n"), (b!"s", b!"334 u\r\n"), (b!"s", b!"334 p\r\n"), (b!"s", b!"235 ok\r\n"),
       (b!"c", b!"MAIL FROM: <me@here.org>\r\n"), (b!"s", b!"250 ok\r\n"), (b!"c", b!"RCPT TO: <you@there.org>\r\n"), (b!"s", b!"250 ok\r\n"),
       (b!"c", b!"DATA\r\n"), (b!"s", b!"354 go\r\n"), (b!"c", b!"\r\n.\r\n"), (b!"s", b!"250 ok\r\n"), (b!"c", b!"QUIT\r\n")]) := by
  decide +kernel

/-- … and of a session that goes over to TLS, where a reply loses its last byte; then it is refused. -/
example : (let r := runCalls [.sendMail mail] (scripted ([.data b!"220 hi\r\n"] ++ clear [b!"250-STARTTLS\r\n250 OK\r\n", b!"220 go\r\n"] ++ [.err, .data b!"500 no\r\n"])) (fresh .opportunistic)
    (r.1, r.2.client.log.isSome, (minutes r.2.hist).said)) =
    (.ok [.returned 500], true,
      [(b!"s", b!"220 hi\r"), (b!"c", b!"ehlo localhost\r\n"), (b!"s", b!"250-STARTTLS\r\n250 OK\r\n"), (b!"c", b!"STARTTLS\r\n"), (b!"s", b!"220 go\r\n"),
       (b!"c", b!"ehlo localhost\r\n"), (b!"s", b!"500 no\r")]) := by
  decide +kernel

/-- A server that greets after five seconds, when the client looks for the last time. -/
def lateGreeting : List RecvRes := [.err, .err, .err, .err, .err, .data b!"421 come back tomorrow\r\n"]

/-- **C71 is false as stated**: what comes when the time is up is read and thrown away; the client tells of a timeout, and the log is silent about what the
server said. -/
theorem C71_late :
    let r := runCalls [.sendMail mail] (scripted lateGreeting) (fresh .smtp)
    r.1 = .ok [.returned (-3)] ∧
    Ev.recv (.raw 5) (.data b!"421 come back tomorrow\r\n") ∈ r.2.hist ∧
    r.2.client.log.map Log.content = some b!"\nc: Trying to connect to mail.org on port 25" := by
  decide +kernel

end Verif.Props
