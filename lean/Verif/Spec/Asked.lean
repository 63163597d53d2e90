import Verif.Model.World
import Verif.Spec.Auth
/-!
# Which mechanism a command asks for, and which credential is in force
-/
namespace Verif.Spec
open Verif Verif.Model

/-- The command starts an authentication with the given mechanism (RFC 4954). -/
inductive Asks : Mechanism → Bytes → Prop
  | plain (rest : Bytes) : Asks .plain (b!"AUTH PLAIN" ++ rest)
  | login (rest : Bytes) : Asks .login (b!"AUTH LOGIN" ++ rest)
  | xoauth2 (rest : Bytes) : Asks .xoauth2 (b!"AUTH XOAUTH2" ++ rest)

/-- The credential in force after a history that began with `c`: the last one given. -/
def inForce (c : Option Credential) (h : Hist) : Option Credential :=
  h.foldl (fun c e => match e with | .call (.setCredentials c') => some c' | _ => c) c

/-- The recommended method permits the mechanism. -/
def Recommends (m : AuthMethod) : Mechanism → Prop
  | .plain => m = .implicit ∨ m = .plain
  | .login => m = .implicit ∨ m = .login
  | .xoauth2 => m = .implicit ∨ m = .xoauth2

/-- Every command that starts an authentication uses a mechanism which the credential in force at that moment recommends. -/
def Obeys (c0 : Option Credential) (h : Hist) : Prop :=
  ∀ pre ch d r post x, h = pre ++ .send .cmd ch d r :: post → Asks x d → ∃ c, inForce c0 pre = some c ∧ Recommends c.method x

end Verif.Spec
