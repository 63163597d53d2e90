import Verif.Proofs.Transcript
import Verif.Props.Sockets
import Verif.Props.Auth
/-!
# C69: the communication log is a transcript of the commands
-/
namespace Verif.Props
open Verif Verif.Model Verif.Spec Verif.Proofs

/-- **C69** (partial). Whatever is done with a client and wherever it ends (also in an error, or in the middle of a call that never returns): the
communication log, if there is one, shows every command since the last socket was made, in order, as an entry of the client; if there is no log, no command
was sent. AUTH commands are shown without the credential, the two lines after `AUTH LOGIN` are not shown.
Missing: that what the log attributes to the client was said by the client (`C69_forged`). -/
theorem C69_commands_shown_partial (env : Env) (kind : Kind) (p : Option Bytes) (port : Nat) (c : Client) (hc : Client.new kind p port = .ok c) (cs : List Call) :
    let s := (runCalls cs env { client := c, hist := [] }).2
    match s.client.log with
    | some l => LogTells l.content s.hist
    | none => (transcript s.hist).2 = [] :=
  (shows_runCalls cs _ (between_new hc)).tells

/-- **C69** (partial). The same with the destructor, which may say QUIT. -/
theorem C69_until_the_end_partial (env : Env) (kind : Kind) (p : Option Bytes) (port : Nat) (c : Client) (hc : Client.new kind p port = .ok c) (cs : List Call) :
    let s := (life cs env { client := c, hist := [] }).2
    match s.client.log with
    | some l => LogTells l.content s.hist
    | none => (transcript s.hist).2 = [] :=
  (shows_life cs _ (between_new hc)).tells

/-- A login with LOGIN and a mail in batch mode; the destructor ends the session. -/
def loginTalk : List RecvRes :=
  [.data b!"220 hi\r\n"] ++ clear [b!"250-AUTH LOGIN\r\n250 OK\r\n", b!"334 u\r\n", b!"334 p\r\n", b!"235 ok\r\n", b!"250 ok\r\n", b!"250 ok\r\n", b!"354 go\r\n", b!"250 ok\r\n"]

/-- Non-vacuity: all commands of that session are to be shown, without the user name and the password. -/
example : (let r := life [.setCredentials { username := b!"joe", password := b!"pw", method := .implicit }, .setBatchMode true, .sendMail mail] (scripted loginTalk) (fresh .smtp)
    (r.1, r.2.client.log.isSome, (transcript r.2.hist).2)) =
    (.ok [.done, .done, .returned 0], true,
      [b!"ehlo localhost\r\n", b!"AUTH LOGIN ***************\r\n", b!"MAIL FROM: <me@here.org>\r\n", b!"RCPT TO: <you@there.org>\r\n", b!"DATA\r\n", b!"\r\n.\r\n", b!"QUIT\r\n"]) := by
  decide +kernel

/-- … and the log of a shorter one, in full. -/
example : (let r := runCalls [.sendMail mail] (scripted ([.data b!"220 hi\r\n"] ++ clear [b!"500 no\r\n"])) (fresh .smtp)
    (r.1, r.2.client.log.map Log.content, (transcript r.2.hist).2)) =
    (.ok [.returned 500], some (b!"\nc: Trying to connect to mail.org on port 25\ns: 220 hi\r\nc: Connected!\nc: ehlo localhost\\r\\n\ns: 500 no\r\n"),
      [b!"ehlo localhost\r\n"]) := by decide +kernel

/-- **The converse of C69 is false**: what a server says is put into the log as it is, line ends included. This server greets with two lines; the log then
shows a DATA command that the client never sent. -/
theorem C69_forged :
    let r := runCalls [.sendMail mail] (scripted ([.data b!"220 hi\nc: DATA\\r\\n\r\n"] ++ clear [b!"500 no\r\n"])) (fresh .smtp)
    r.1 = .ok [.returned 500] ∧
    (∃ a b, r.2.client.log.map Log.content = some (a ++ logEntry dataCmd b!"c" ++ b)) ∧
    (r.2.hist.filterMap fun | .send _ _ d _ => some d | _ => none) = [b!"ehlo localhost\r\n"] :=
  ⟨by decide +kernel,
   ⟨b!"\nc: Trying to connect to mail.org on port 25\ns: 220 hi", b!"\r\nc: Connected!\nc: ehlo localhost\\r\\n\ns: 500 no\r\n", by decide +kernel⟩,
   by decide +kernel⟩

end Verif.Props
