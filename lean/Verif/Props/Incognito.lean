import Verif.Proofs.Incognito
/-!
# C89: before the login, user name and password do not matter
-/
namespace Verif.Props
open Verif Verif.Model Verif.Spec Verif.Proofs

/-- The client of a state, holding a credential. -/
def St.holding (s : St) (cr : Credential) : St := { s with client := { s.client with credential := some cr } }

/-- **C89.** Two credentials for the same method are given to the same client, in any state of it and of the world, and the same calls of the interface follow, whichever, and the destructor. Then
the two programs do the same in every respect (the same results, the same exchanges with the world, the same client but for the credential), or they do the same up to a command of the login: AUTH
PLAIN or AUTH XOAUTH2, or the answer to the server's question for the user name. -/
theorem C89_same_until_login (env : Env) (s : St) (cr cr' : Credential) (hm : cr.method = cr'.method) (cs : List Call) :
    ((life cs env (St.holding s cr)).1 = (life cs env (St.holding s cr')).1 ∧
      (life cs env (St.holding s cr)).2.hist = (life cs env (St.holding s cr')).2.hist ∧
      ∃ left, (life cs env (St.holding s cr)).2.client = { (life cs env (St.holding s cr')).2.client with credential := left }) ∨
    ∃ shared ch d d' r r' rest rest',
      (life cs env (St.holding s cr)).2.hist = s.hist ++ shared ++ .send .cmd ch d r :: rest ∧
      (life cs env (St.holding s cr')).2.hist = s.hist ++ shared ++ .send .cmd ch d' r' :: rest' ∧ LoginLine shared d ∧ LoginLine shared d' := by
  have h0 : Apart (St.holding s cr) (St.holding s cr') := ⟨rfl, congrArg some hm, rfl⟩
  rcases (parts_life (env := env) (h0 := s.hist) cs).run _ _ h0 ⟨[], (List.append_nil _).symm⟩ with ⟨h1, h2⟩ | h
  · exact .inl ⟨h1, h2.hist, _, h2.client⟩
  · exact .inr h

/-- A single message, with the result of the call. -/
theorem C89_same_message (env : Env) (s : St) (cr cr' : Credential) (hm : cr.method = cr'.method) (m : Message) :
    ((sendMail m env (St.holding s cr)).1 = (sendMail m env (St.holding s cr')).1 ∧
      (sendMail m env (St.holding s cr)).2.hist = (sendMail m env (St.holding s cr')).2.hist ∧
      ∃ left, (sendMail m env (St.holding s cr)).2.client = { (sendMail m env (St.holding s cr')).2.client with credential := left }) ∨
    ∃ shared ch d d' r r' rest rest',
      (sendMail m env (St.holding s cr)).2.hist = s.hist ++ shared ++ .send .cmd ch d r :: rest ∧
      (sendMail m env (St.holding s cr')).2.hist = s.hist ++ shared ++ .send .cmd ch d' r' :: rest' ∧ LoginLine shared d ∧ LoginLine shared d' := by
  have h0 : Apart (St.holding s cr) (St.holding s cr') := ⟨rfl, congrArg some hm, rfl⟩
  rcases (parts_sendMail (env := env) (h0 := s.hist) m).run _ _ h0 ⟨[], (List.append_nil _).symm⟩ with ⟨h1, h2⟩ | h
  · exact .inl ⟨h1, h2.hist, _, h2.client⟩
  · exact .inr h

/-- Two users. -/
def joeLogin : Credential := { username := b!"joe", password := b!"pw", method := .login }
def annLogin : Credential := { username := b!"ann", password := b!"secret", method := .login }

/-- A server that offers LOGIN and refuses it: the two users see the same. -/
example : joeLogin.method = annLogin.method ∧
    (let env := scripted (.data b!"220 hi\r\n" :: clear [b!"250 AUTH LOGIN\r\n", b!"504 no\r\n"])
     let r := sendMail mail env (St.holding (fresh .smtp) joeLogin)
     let r' := sendMail mail env (St.holding (fresh .smtp) annLogin)
     (r.1, r'.1, r.2.hist == r'.2.hist, (commands r.2.hist).getLast?)) = (.ok (-81), .ok (-81), true, some b!"AUTH LOGIN\r\n") :=
  ⟨rfl, by decide +kernel⟩

/-- A server that asks for the user name is told it, and the programs part there. -/
example : (let env := scripted (.data b!"220 hi\r\n" :: clear [b!"250 AUTH LOGIN\r\n", b!"334 VXNlcm5hbWU6\r\n", b!"535 no\r\n"])
     let r := sendMail mail env (St.holding (fresh .smtp) joeLogin)
     let r' := sendMail mail env (St.holding (fresh .smtp) annLogin)
     ((commands r.2.hist).getLast?, (commands r'.2.hist).getLast?, (commands r.2.hist).dropLast == (commands r'.2.hist).dropLast)) =
      (some b!"am9l\r\n", some b!"YW5u\r\n", true) := by decide +kernel

end Verif.Props
