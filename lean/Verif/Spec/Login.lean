import Verif.Spec.Auth
import Verif.Spec.Codes
import Verif.Spec.Bcc
/-!
# A complete authentication (specification)

RFC 4954: the client sends its command, the server answers 334 to ask for more and 235 at the end.
-/
namespace Verif.Spec
open Verif Verif.Model

/-- A complete authentication with one of the three mechanisms: the texts sent, with the code each was answered with. The server reads this user
name and this password (or token) from the texts. -/
inductive Login (u p : Bytes) : List (Bytes × Int) → Prop
  | plain {d : Bytes} : readPlain d = some (u, p) → Login u p [(d, 235)]
  | login {d1 d2 : Bytes} : readLogin d1 = some u → readLogin d2 = some p → Login u p [(b!"AUTH LOGIN\r\n", 334), (d1, 334), (d2, 235)]
  | xoauth2 {d : Bytes} : readXOAuth2 d = some (u, p) → Login u p [(d, 235)]

/-- Credentials that can be told to a server: C strings, not longer than a line can hold, no byte 1 in the user name (which would be ambiguous in
XOAUTH2, see `C42_xoauth2_ambiguous`). -/
structure Modest (c : Credential) : Prop where
  user : 0 ∉ c.username ∧ 1 ∉ c.username
  password : 0 ∉ c.password
  length : c.username.length + c.password.length < 49132

/-- The history is a conversation which ends with a complete authentication on the channel. -/
def EndsWithLogin (ch : Chan) (c : Credential) (h : Hist) : Prop :=
  ∃ l items, Login c.username c.password l ∧ Turns ch l items ∧ (NoShortWrites h → ∃ pre, conversation h = pre ++ items)

end Verif.Spec
