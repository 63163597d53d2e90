import Verif.Proofs.ErrNo
import Verif.Props.Causes
/-!
# C85: the error number is that of the last failure
-/
namespace Verif.Props
open Verif Verif.Model Verif.Spec

/-- **C85.** A client without TLS: whatever is called, whatever the world does and however the run ends, the error number (`getLastSocketErrNo`) is the number of the last system call
that failed, or what it was before when none failed. -/
theorem C85_plain (env : Env) (cs : List Call) (s : St) (hk : s.client.kind = .smtp) :
    ∃ evs, (life cs env s).2.hist = s.hist ++ evs ∧ (life cs env s).2.client.lastErrNo = lastFailure s.client.lastErrNo evs := by
  obtain ⟨-, evs, he, h | ⟨h, -⟩⟩ := (Proofs.errno_life (env := env) cs).state s
  · exact ⟨evs, he, h⟩
  · exact absurd hk h

/-- **C85.** What "the last failure" means: its number, and nothing failed afterwards. -/
theorem C85_last (n m : Int) (h : Hist) :
    lastFailure n h = m ↔ (∃ a e b, h = a ++ e :: b ∧ failNo e = some m ∧ ∀ x ∈ b, failNo x = none) ∨ ((∀ x ∈ h, failNo x = none) ∧ m = n) := by
  have key : ∀ l : Hist, (∀ x ∈ l, failNo x = none) ∨ ∃ a e b k, l = a ++ e :: b ∧ failNo e = some k ∧ ∀ x ∈ b, failNo x = none := by
    intro l
    induction l with
    | nil => left; intro x hx; cases hx
    | cons e l ih =>
      rcases ih with ih | ⟨a, e', b, k, rfl, h1, h2⟩
      · cases he : failNo e with
        | none => left; intro x hx; exact (List.mem_cons.mp hx).elim (fun h => h ▸ he) (ih x)
        | some k => right; exact ⟨[], e, l, k, rfl, he, ih⟩
      · right; exact ⟨e :: a, e', b, k, rfl, h1, h2⟩
  have found : ∀ (a b : Hist) (e : Ev) (k : Int), failNo e = some k → (∀ x ∈ b, failNo x = none) → lastFailure n (a ++ e :: b) = k := by
    intro a b e k he hb
    have : b.filterMap failNo = [] := by rw [List.filterMap_eq_nil_iff]; exact hb
    simp [lastFailure, he, this]
  have none' : ∀ l : Hist, (∀ x ∈ l, failNo x = none) → lastFailure n l = n := by
    intro l hl
    exact Proofs.lastFailure_none (by rw [List.filterMap_eq_nil_iff]; exact hl)
  constructor
  · intro hm
    rcases key h with hn | ⟨a, e, b, k, rfl, h1, h2⟩
    · right; exact ⟨hn, by rw [← hm, none' h hn]⟩
    · left; exact ⟨a, e, b, rfl, by rw [h1, ← hm, found a b e k h1 h2], h2⟩
  · rintro (⟨a, e, b, rfl, h1, h2⟩ | ⟨hn, rfl⟩)
    · exact found a b e m h1 h2
    · exact none' h hn

/-- **C85.** A call of `sendMail` that returns the code of a step of the opening leaves the number of exactly that step, when the client has no TLS
and every reply that was read starts with a number. -/
theorem C85_opening (env : Env) (m : Message) (s s' : St) (code : Int) (hk : s.client.kind = .smtp) (h : sendMail m env s = (.ok code, s'))
    (hc : code ∈ [-1, -2, -7, -8, -9, -10]) (hg : ∀ evs, s'.hist = s.hist ++ evs → ¬ Garbled evs) :
    ∃ pre e, s'.hist = s.hist ++ (pre ++ [e]) ∧ failNo e = some s'.client.lastErrNo := by
  have hc' : code < 0 := by
    simp only [List.mem_cons, List.not_mem_nil, or_false] at hc; omega
  obtain ⟨evs, he, h1⟩ := C82_code_names_step_partial env m s s' code h hc'
  have ht := (Proofs.errno_sendMail (env := env) m).state s
  rw [h] at ht
  obtain ⟨-, evs', he', h2 | ⟨h2, -⟩⟩ := ht
  · obtain rfl : evs = evs' := List.append_cancel_left (he.symm.trans he')
    have fin : ∀ {P : Ev → Prop}, EndsIn P evs → (∀ e, P e → ∃ n, failNo e = some n) →
        ∃ pre e, s'.hist = s.hist ++ (pre ++ [e]) ∧ failNo e = some s'.client.lastErrNo := by
      rintro P ⟨pre, e, rfl, hp⟩ hf
      obtain ⟨n, hn⟩ := hf e hp
      refine ⟨pre, e, he, ?_⟩
      rw [hn, h2]
      simp [lastFailure, hn]
    rcases h1 with h1 | h1 | ⟨rfl, -⟩
    · exact absurd h1 (hg _ he)
    · cases h1 with
      | socket x => exact fin x (by rintro e ⟨n, rfl⟩; exact ⟨n, rfl⟩)
      | connect x =>
        refine fin x ?_
        rintro e ⟨fd, to, n, ⟨rfl, hn⟩ | ⟨rfl, hn⟩⟩ <;> exact ⟨n, by simp [failNo, hn]⟩
      | getFlags x => exact fin x (by rintro e ⟨fd, n, rfl⟩; exact ⟨n, rfl⟩)
      | setFlags x => exact fin x (by rintro e ⟨fd, n, rfl⟩; exact ⟨n, rfl⟩)
      | sockopt x => exact fin x (by rintro e ⟨fd, n, rfl⟩; exact ⟨n, rfl⟩)
      | delayed x => exact fin x (by rintro e ⟨fd, v, rfl, hv⟩; exact ⟨v, by simp [failNo, hv]⟩)
      | _ => exact absurd hc (by decide)
    · exact absurd hc (by decide)
  · exact absurd hk h2

/-- **C85, partial.** Clients of all classes: the error number is that of the last system call that failed, or one that the TLS library gave at a moment after which no system call
failed. Missing: that the number of the TLS library belongs to the step that failed; the code asks for it only after the session has been closed. -/
theorem C85_tls_partial (env : Env) (cs : List Call) (s : St) :
    ∃ evs, (life cs env s).2.hist = s.hist ++ evs ∧
      ((life cs env s).2.client.lastErrNo = lastFailure s.client.lastErrNo evs ∨ TlsNumber env s.hist evs (life cs env s).2.client.lastErrNo) := by
  obtain ⟨-, evs, he, h | ⟨-, h⟩⟩ := (Proofs.errno_life (env := env) cs).state s
  · exact ⟨evs, he, .inl h⟩
  · exact ⟨evs, he, .inr h⟩

/-- A new client. -/
def unused (k : Kind) : St := { client := Client.init k b!"mail.org" 25, hist := [] }

/-- Nobody listens. -/
def refusesAll : Env := { scripted [] with connect := fun _ _ _ => .err 111 }

example : (let r := sendMail mail refusesAll (unused .smtp)
    (r.1, r.2.client.lastErrNo, lastFailure 0 r.2.hist, r.2.hist.any (fun e => match e with | .recv _ _ => true | _ => false))) = (.ok (-2), 111, 111, false) := by
  decide +kernel

/-- The server is found and refuses, and later it is not found. -/
def movedAway : Env := { refusesAll with resolve := fun h _ => if h.any (fun e => match e with | .connect _ _ _ => true | _ => false) then none else some [192, 0, 2, 1] }

/-- **C85, refuted** as a statement on the last call: it fails because the server is not found (-6), and the number is still that of the call before (111, connection refused). -/
theorem C85_stale :
    (let r := runCalls [.sendMail mail, .sendMail mail] movedAway (unused .smtp)
     (r.1, r.2.client.lastErrNo)) = (.ok [.returned (-2), .returned (-6)], 111) := by decide +kernel

/-- **C85, refuted** for reading: every read fails, the call gives up, and no number is left. -/
theorem C85_reading :
    (let r := sendMail mail (scripted [.data b!"220 hi\r\n"]) { unused .smtp with client := { (unused .smtp).client with timeout := 2 } }
     (r.1, r.2.client.lastErrNo, r.2.hist.any (fun e => e == .recv (.raw 5) .err))) = (.ok (-21), 0, true) := by decide +kernel

/-- The TLS library forgets its errors when a connection is freed. -/
def forgetful : Env := { scripted [] (tls := fun | .handshake _ => -1 | _ => 1) with
  tlsErr := fun h => if h.any (fun e => match e with | .bioFree _ => true | _ => false) then 0 else 336 }

/-- **C85, refuted** for TLS: the handshake fails while the library holds the number 336, and the number shown is the one of the library after the session was closed. -/
theorem C85_tls_late :
    (let r := sendMail mail forgetful (unused .forced)
     (r.1, r.2.client.lastErrNo, forgetful.tlsErr (r.2.hist.takeWhile (fun e => match e with | .bioFree _ => false | _ => true)))) = (.ok (-56), 0, 336) := by decide +kernel

/-- **C85, refuted** for TLS: a certificate is refused, and there is no number. -/
theorem C85_certificate :
    (let r := sendMail mail (scripted [] (tls := fun | .verifyResult _ => 20 | _ => 1)) (unused .forced)
     (r.1, r.2.client.lastErrNo)) = (.ok (-58), 0) := by decide +kernel

end Verif.Props
