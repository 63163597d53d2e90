import Verif.Proofs.WriteOnly
import Verif.Spec.Script
/-!
# C92: log and error number are only written
-/
namespace Verif.Props
open Verif Verif.Model Verif.Spec Verif.Proofs

/-- The client of a state with this log and this error number. -/
def St.marked (s : St) (l : Log) (e : Int) : St := { s with client := { s.client with log := some l, lastErrNo := e } }

/-- **C92.** Two clients that differ in the communication log and the last error number only, in any state and any world, with the same calls after that and the destructor. They do the same:
results, exchanges with the world, and the client that is left, but for log and error number. The same text was added to the two logs, or the logs are the same; and the error numbers are what
they were, or the same. The logs may be any whose text fits into the buffer. -/
theorem C92_write_only (env : Env) (s : St) (l l' : Log) (e e' : Int) (hl : l.size = l.cap ∧ l.content.length < l.cap) (hl' : l'.size = l'.cap ∧ l'.content.length < l'.cap) (cs : List Call) :
    let r := life cs env (St.marked s l e)
    let r' := life cs env (St.marked s l' e')
    r.1 = r'.1 ∧ r.2.hist = r'.2.hist ∧
    (∃ m m' k, r.2.client = { r'.2.client with log := some m, lastErrNo := k } ∧ r'.2.client.log = some m' ∧
      ((∃ added, m.content = l.content ++ added ∧ m'.content = l'.content ++ added) ∨ m.content = m'.content)) ∧
    ((r.2.client.lastErrNo = e ∧ r'.2.client.lastErrNo = e') ∨ r.2.client.lastErrNo = r'.2.client.lastErrNo) := by
  intro r r'
  have h0 : Diag l.content l'.content e e' (St.marked s l e) (St.marked s l' e') := ⟨rfl, rfl, ⟨hl, hl', .inl ⟨[], by simp, by simp⟩⟩, .inl ⟨rfl, rfl⟩⟩
  obtain ⟨h1, h2⟩ := (diag_life (env := env) cs).run _ _ h0
  refine ⟨h1, h2.hist, ?_, h2.errs⟩
  have h3 := h2.logs
  have h4 := h2.client
  revert h3
  cases hs : (life cs env (St.marked s l e)).2.client.log with
  | none => exact False.elim
  | some m =>
    cases ht : (life cs env (St.marked s l' e')).2.client.log with
    | none => exact False.elim
    | some m' =>
      rintro ⟨-, -, h3⟩
      exact ⟨m, m', _, by rw [← hs]; exact h4, rfl, h3⟩

/-- A log that is not empty, in a buffer that is nearly full, and an error number. -/
def nearlyFull : Log := { content := List.replicate 90 120, cap := 100, size := 100 }

/-- A server that turns the mail down. -/
def worse : Env := scripted (clear [b!"220 hi\r\n", b!"250 ok\r\n", b!"250 ok\r\n", b!"550 no\r\n"])

/-- The setting of the theorem, with text added to both logs: the client is connected when the first mail is sent. -/
example :
    let s : St := { client := { (fresh .smtp).client with sock := 5, isConnected := true }, hist := [], mem := [] }
    let r := life [.sendMail mail] worse (St.marked s nearlyFull 7)
    let r' := life [.sendMail mail] worse (St.marked s .fresh 0)
    r.1 = r'.1 ∧ r.2.hist = r'.2.hist ∧ r.2.client.lastErrNo = 7 ∧ r'.2.client.lastErrNo = 0 ∧
    (r.2.client.log.map (·.content.take 90)) = some nearlyFull.content ∧ (r.2.client.log.map (·.content.drop 90)) = r'.2.client.log.map (·.content) ∧ r'.2.client.log ≠ some .fresh := by decide +kernel

end Verif.Props
