import Verif.Proofs.Blind
import Verif.Spec.Script
/-!
# C28: the communication log does not reveal the credentials
-/
namespace Verif.Props
open Verif Verif.Model Verif.Spec

/-- **C28.** Two clients that differ in user name and password only, with histories that differ in credentials only, in a world whose answers do not
depend on credentials: sending any mail gives the same result, the same communication log and the same last server response. -/
theorem C28_log_tells_no_credentials {env : Env} (hu : Unseeing env) (m : Message) (c : Client) (h h' : Hist) (cr cr' : Credential)
    (hm : cr.method = cr'.method) (hh : h.map blind = h'.map blind) :
    let run := sendMail m env { client := { c with credential := some cr }, hist := h }
    let run' := sendMail m env { client := { c with credential := some cr' }, hist := h' }
    run.1 = run'.1 ∧ run.2.client.log = run'.2.client.log ∧ run.2.client.lastResponse = run'.2.client.lastResponse := by
  intro run run'
  have := (Proofs.hush_sendMail hu m).run { client := { c with credential := some cr }, hist := h } { client := { c with credential := some cr' }, hist := h' }
    ⟨rfl, congrArg some hm, hh⟩
  obtain ⟨h1, h2⟩ := this
  exact ⟨h1, h2.get (f := (·.log)) fun _ _ => rfl, h2.get (f := (·.lastResponse)) fun _ _ => rfl⟩

/-- The same for the whole life of a client of any kind: two sequences of calls that differ in the user names and passwords passed to
`setCredentials` only give the same results and leave the same log. -/
theorem C28_whole_life {env : Env} (hu : Unseeing env) (k : Kind) (cs cs' : List Call) (h : cs.map blindCall = cs'.map blindCall) :
    (runCalls cs env (fresh k)).1 = (runCalls cs' env (fresh k)).1 ∧
    (runCalls cs env (fresh k)).2.client.log = (runCalls cs' env (fresh k)).2.client.log := by
  obtain ⟨h1, h2⟩ := (Proofs.hush_runCalls hu h).run (fresh k) (fresh k) ⟨rfl, rfl, rfl⟩
  exact ⟨h1, h2.get (f := (·.log)) fun _ _ => rfl⟩

/-! ### Worlds and runs the theorems speak about -/

theorem reads_blind (h : Hist) : reads (h.map blind) = reads h := by
  induction h with
  | nil => rfl
  | cons e h ih =>
    unfold reads at ih ⊢
    cases e with
    | send k _ _ _ => cases k <;> simpa [blind] using ih
    | _ => simpa [blind] using ih

theorem writes_blind (h : Hist) : writes (h.map blind) = writes h := by
  induction h with
  | nil => rfl
  | cons e h ih =>
    unfold writes at ih ⊢
    cases e with
    | send k _ _ _ => cases k <;> simpa [blind] using ih
    | _ => simpa [blind] using ih

/-- Servers that follow a script are unseeing, whatever the script. -/
theorem scripted_unseeing (script : List RecvRes) (write : Nat → Option SendRes) (tls : TlsOp → Int) : Unseeing (scripted script write tls) where
  socket := fun _ _ _ => rfl
  resolve := fun _ _ _ _ => rfl
  fcntlGet := fun _ _ _ _ => rfl
  fcntlSet := fun _ _ _ _ _ => rfl
  connect := fun _ _ _ _ _ => rfl
  select := fun _ _ _ _ _ => rfl
  sockopt := fun _ _ _ _ => rfl
  send := by
    intro h h' c d d' e _
    have : writes h = writes h' := by rw [← writes_blind h, e, writes_blind]
    simp only [scripted]
    rw [this]
    cases write (writes h') <;> rfl
  recv := by
    intro h h' c e
    have : reads h = reads h' := by rw [← reads_blind h, e, reads_blind]
    simp only [scripted]
    rw [this]
  tls := fun _ _ _ _ => rfl
  readFile := fun _ _ _ _ => rfl
  tlsErr := fun _ _ _ => rfl

def ann28 : Credential := { username := b!"ann", password := b!"secret", method := .plain }
def bob28 : Credential := { username := b!"robert", password := b!"x", method := .plain }

/-- A session with AUTH PLAIN that is accepted to the end. -/
def authScript : List RecvRes :=
  .data b!"220 hi" :: clear [b!"250-mail.org\r\n250-AUTH LOGIN PLAIN\r\n250 OK\r\n", b!"235 welcome\r\n", b!"250 ok\r\n", b!"250 ok\r\n",
    b!"354 go\r\n", b!"250 taken\r\n", b!"221 bye\r\n"]

-- both credentials are really sent, the runs succeed, the texts sent differ and the log, which is not empty, is the same
example :
    let run := fun cr => runCalls [.setCredentials cr, .sendMail mail] (scripted authScript) (fresh .smtp)
    ((run ann28).1 matches .ok [.done, .returned 0]) = true ∧ ((run bob28).1 matches .ok [.done, .returned 0]) = true ∧
    (run ann28).2.hist ≠ (run bob28).2.hist ∧ (run ann28).2.client.log = (run bob28).2.client.log ∧
    ((run ann28).2.client.log.map (fun l => decide (100 < l.content.length))) = some true := by decide +kernel

/-- A server that answers AUTH by repeating what it was sent. -/
def echoing28 : Env :=
  { scripted authScript with
    recv := fun h _ =>
      match h.reverse.dropWhile (fun | .send _ _ _ _ => false | .recv _ _ => false | _ => true) with
      | .send _ _ d _ :: _ => if b!"AUTH".isPrefixOf d then .data (b!"535 " ++ d) else authScript.getD (reads h) .err
      | _ => authScript.getD (reads h) .err }

-- the hypothesis is needed: the log of a server that echoes tells the credentials
example :
    (runCalls [.setCredentials ann28, .sendMail mail] echoing28 (fresh .smtp)).2.client.log ≠
      (runCalls [.setCredentials bob28, .sendMail mail] echoing28 (fresh .smtp)).2.client.log := by decide +kernel

end Verif.Props
