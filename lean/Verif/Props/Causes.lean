import Verif.Proofs.ToldBody
import Verif.Spec.Script
/-!
# C82: an error code names the step that failed
-/
namespace Verif.Props
open Verif Verif.Model Verif.Spec

/-- **C82, partial.** A negative result of `sendMail` names the step that failed in this call, and nothing but the end of the session followed (after a
recipient or an address header also further ones). A code for a timeout means that the command was sent, that the seconds of the timeout passed and that nothing
arrived before the last of them was over. Missing: calls in which a reply was read that does not start with a positive number (refuted below). -/
theorem C82_code_names_step_partial (env : Env) (m : Message) (s s' : St) (code : Int) (h : sendMail m env s = (.ok code, s')) (hc : code < 0) :
    ∃ evs, s'.hist = s.hist ++ evs ∧
      (Garbled evs ∨ Cause s.client.timeout s.client.kind evs code ∨ (code = -3 ∧ NoGreeting s.client.timeout evs)) := by
  have := Proofs.sendMail_caused (env := env) m s
  unfold Proofs.wp at this
  rw [h] at this
  rcases this with ⟨evs, he, h | h | h⟩ | ⟨h, evs, he, hn⟩
  · omega
  · exact ⟨evs, he, .inl h⟩
  · exact ⟨evs, he, .inr (.inl h)⟩
  · exact ⟨evs, he, .inr (.inr ⟨h, hn⟩)⟩

/-- **C82.** Some documented codes are never the result: -4 and -5 (which belong to Windows), -53 (the name of the server for the certificate),
-83 (the credentials are missing) and -92 (the To and Cc headers). -/
theorem C82_codes_never_returned (env : Env) (m : Message) (s s' : St) (code : Int) (h : sendMail m env s = (.ok code, s')) (hc : code < 0)
    (hg : ∀ evs, s'.hist = s.hist ++ evs → ¬ Garbled evs) :
    code ∈ [-1, -2, -3, -6, -7, -8, -9, -10, -20, -21, -30, -31, -51, -52, -54, -55, -56, -57, -58, -59, -60, -81, -82, -84, -85, -86, -87, -88, -89, -90, -91,
      -93, -94, -95, -96, -97, -98, -99] := by
  obtain ⟨evs, he, h⟩ := C82_code_names_step_partial env m s s' code h hc
  rcases h with h | h | ⟨rfl, -⟩
  · exact absurd h (hg evs he)
  · cases h <;> decide
  · decide

/-- A client that waits two seconds. -/
def hasty (k : Kind) : St := { client := { Client.init k b!"mail.org" 25 with timeout := 2 }, hist := [] }

/-- **C82, refuted** for replies that are not understood: a reply without a number is reported as a timeout (-86), though not a second was waited; a greeting without
a number is reported as a failure to create the socket (-1). -/
theorem C82_garbled :
    (let r := sendMail mail (scripted ([.data b!"220 hi\r\n"] ++ clear [b!"250 ok\r\n", b!"what?\r\n"])) (hasty .smtp)
     (r.1, commands r.2.hist, sleeps r.2.hist)) = (.ok (-86), [b!"ehlo localhost\r\n", b!"MAIL FROM: <me@here.org>\r\n"], 0) ∧
    (let r := sendMail mail (scripted [.data b!"hello\r\n"]) (hasty .smtp)
     (r.1, r.2.hist.filter (fun e => match e with | .socket _ => true | _ => false), sleeps r.2.hist)) = (.ok (-1), [.socket (.val 5)], 0) := by decide +kernel

/-- **C82, refuted** for the timeout while logging in with AUTH LOGIN: two seconds pass without an answer, and the result is -81, not the documented -82, which AUTH PLAIN gives. -/
theorem C82_login_timeout :
    (let run := fun (m : AuthMethod) (offer : Bytes) => (let r := sendMail mail (scripted ([.data b!"220 hi\r\n"] ++ clear [offer])) { hasty .smtp with client := { (hasty .smtp).client with credential := some { username := b!"u", password := b!"p", method := m } } }; (r.1, sleeps r.2.hist))
     (run .login b!"250-AUTH LOGIN\r\n250 OK\r\n", run .plain b!"250-AUTH PLAIN\r\n250 OK\r\n")) = ((.ok (-81), 2), (.ok (-82), 2)) := by decide +kernel

/-- **C82, refuted** for the address headers: sending the To header fails (write number 5), and the result names the Subject header (-93), not the To header (-92). -/
theorem C82_address_header :
    (let r := sendMail mail (scripted ([.data b!"220 hi\r\n"] ++ clear [b!"250 ok\r\n", b!"250 ok\r\n", b!"250 ok\r\n", b!"354 go\r\n"])
        (fun n => if n = 5 then some (.fail 104) else if 6 ≤ n then some (.fail 9) else none)) (hasty .smtp)
     (r.1, (r.2.hist.filterMap (fun e => match e with | .send _ _ d (.fail 104) => some d | _ => none)))) = (.ok (-93), [b!"To: You <you@there.org>\r\n"]) := by decide +kernel

/-- **C82, refuted** for the From header: a client made for TLS without a TLS connection sends three commands in clear and reports -91 without having tried to send the header. -/
theorem C82_no_tls :
    (let r := sendMail mail (scripted (clear [b!"250 ok\r\n", b!"250 ok\r\n", b!"354 go\r\n"])) { hasty .opportunistic with client := { (hasty .opportunistic).client with isConnected := true, sock := 5, log := some .fresh } }
     (r.1, commands r.2.hist, contents r.2.hist)) =
      (.ok (-91), [b!"MAIL FROM: <me@here.org>\r\n", b!"RCPT TO: <you@there.org>\r\n", b!"DATA\r\n"], []) := by decide +kernel

/-- **C82, refuted** for the timeout while connecting: a signal that interrupts `select` is reported as a timeout (-3). -/
theorem C82_interrupted :
    (let r := sendMail mail { scripted [] with connect := fun _ _ _ => .err 115, select := fun _ _ _ => .err 4 } (hasty .smtp)
     (r.1, r.2.hist.getLast?, sleeps r.2.hist)) = (.ok (-3), some (.select 5 (.err 4)), 0) := by decide +kernel

/-- Non-vacuity: a command that cannot be sent, a reply and a greeting that do not come within two seconds, a connection refused, a failed handshake, a piece of a long body. -/
example :
    (let ok := scripted ([.data b!"220 hi\r\n"] ++ clear [b!"250 ok\r\n", b!"250 ok\r\n", b!"250 ok\r\n", b!"354 go\r\n"])
     let run := fun env k (m : Message) => (let r := sendMail m env (hasty k); (r.1, sleeps r.2.hist))
     [run { ok with send := fun h _ d => if writes h = 2 then .fail 32 else .sent d.length } .smtp mail,
      run (scripted ([.data b!"220 hi\r\n"] ++ clear [b!"250 ok\r\n"])) .smtp mail,
      run (scripted []) .smtp mail,
      run { ok with connect := fun _ _ _ => .err 111 } .smtp mail,
      run { ok with tls := fun _ o => match o with | .handshake _ => 0 | _ => 1 } .forced mail,
      run { ok with send := fun h _ d => if writes h = 9 then .fail 32 else .sent d.length } .smtp { mail with body := List.replicate 900 65 }]) =
    [(.ok (-87), 0), (.ok (-86), 2), (.ok (-3), 2), (.ok (-2), 0), (.ok (-56), 0), (.ok (-95), 0)] := by decide +kernel

end Verif.Props
