import Verif.Proofs.SelfSigned
import Verif.Spec.Script
/-!
# C90: accepting self-signed certificates relaxes nothing else
-/
namespace Verif.Props
open Verif Verif.Model Verif.Spec Verif.Proofs

/-- The client of a state with the setting. -/
def St.accepting (s : St) (b : Bool) : St := { s with client := { s.client with acceptSelfSigned := b } }

/-- **C90.** Two clients that differ in the setting for self-signed certificates only, in any state and any world, with the same calls after that and the destructor. They do the same in every
respect (results, exchanges with the world, and the client that is left but for the setting), or they do the same up to a moment where the TLS library says that the certificate is self-signed. -/
theorem C90_relaxes_nothing_else (env : Env) (s : St) (b b' : Bool) (cs : List Call) :
    ((life cs env (St.accepting s b)).1 = (life cs env (St.accepting s b')).1 ∧
      (life cs env (St.accepting s b)).2.hist = (life cs env (St.accepting s b')).2.hist ∧
      ∃ left, (life cs env (St.accepting s b)).2.client = { (life cs env (St.accepting s b')).2.client with acceptSelfSigned := left }) ∨
    Judged s.hist (life cs env (St.accepting s b)).2.hist (life cs env (St.accepting s b')).2.hist := by
  have h0 : Lax (St.accepting s b) (St.accepting s b') := ⟨rfl, rfl⟩
  rcases (judges_life (env := env) (h0 := s.hist) cs).run _ _ h0 ⟨[], (List.append_nil _).symm⟩ with ⟨h1, h2⟩ | h
  · exact .inl ⟨h1, h2.hist, _, h2.client⟩
  · exact .inr h

/-- Where no certificate is found to be self-signed, the setting does not matter. -/
theorem C90_other_verdicts (env : Env) (s : St) (b b' : Bool) (cs : List Call) (evs : Hist) (hs : (life cs env (St.accepting s b)).2.hist = s.hist ++ evs)
    (hv : ∀ id, .tls (.verifyResult id) 18 ∉ evs) :
    (life cs env (St.accepting s b')).1 = (life cs env (St.accepting s b)).1 ∧ (life cs env (St.accepting s b')).2.hist = s.hist ++ evs := by
  rcases C90_relaxes_nothing_else env s b b' cs with ⟨h1, h2, -⟩ | ⟨shared, id, rest, rest', h, -⟩
  · exact ⟨h1.symm, by rw [← h2, hs]⟩
  · rw [hs, List.append_assoc] at h
    exact absurd (by rw [List.append_cancel_left h]; simp) (hv id)

/-- A world in which the certificate gets this verdict. -/
def judging (verdict : Int) : Env :=
  scripted [.data b!"220 hi\r\n", .data b!"250 ok\r\n", .data b!"250 ok\r\n", .data b!"250 ok\r\n", .data b!"354 go\r\n", .data b!"250 ok\r\n"] (tls := fun | .verifyResult _ => verdict | _ => 1)

/-- An expired certificate (10), or one of an unknown authority in a chain (19, 20), is refused whatever the setting. -/
example : ∀ v ∈ [(10 : Int), 19, 20],
    (life [.sendMail mail] (judging v) (St.accepting (fresh .forced) true)).1 = .ok [.returned (-58)] ∧
    (life [.sendMail mail] (judging v) (St.accepting (fresh .forced) true)).2.hist = (life [.sendMail mail] (judging v) (St.accepting (fresh .forced) false)).2.hist ∧
    ∀ id < 40, .tls (.verifyResult id) 18 ∉ (life [.sendMail mail] (judging v) (St.accepting (fresh .forced) true)).2.hist := by decide +kernel

/-- A self-signed one parts the two. -/
example : (life [.sendMail mail] (judging 18) (St.accepting (fresh .forced) true)).1 = .ok [.returned 0] ∧
    (life [.sendMail mail] (judging 18) (St.accepting (fresh .forced) false)).1 = .ok [.returned (-58)] := by decide +kernel

end Verif.Props
