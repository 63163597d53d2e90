import Verif.Spec.Base64
import Verif.Spec.Lines
/-!
# What a server does with the authentication commands (RFC 4954, RFC 4616, XOAUTH2)
-/
namespace Verif.Spec
open Verif

/-- The mechanisms the client knows, in the order of preference its documentation gives. -/
inductive Mechanism where
  | plain
  | login
  | xoauth2
  deriving DecidableEq, Repr

/-- The pieces of a text between occurrences of a byte. -/
def splitByte (b : UInt8) : Bytes → List Bytes
  | [] => [[]]
  | c :: s => if c = b then [] :: splitByte b s else consFirst c (splitByte b s)

/-- The argument of a command that is exactly one line and starts with the given words. -/
def argument (words cmd : Bytes) : Option Bytes :=
  match lines cmd with
  | [l, []] => if words.isPrefixOf l then some (l.drop words.length) else none
  | _ => none

/-- AUTH PLAIN with initial response (RFC 4616): empty authorization identity, NUL, user name, NUL, password. -/
def readPlain (cmd : Bytes) : Option (Bytes × Bytes) :=
  match (argument b!"AUTH PLAIN " cmd).bind Base64.decode with
  | some d =>
    match splitByte 0 d with
    | [[], u, p] => some (u, p)
    | _ => none
  | none => none

/-- A line with one base64 text, as in AUTH LOGIN. -/
def readLogin (cmd : Bytes) : Option Bytes := (argument [] cmd).bind Base64.decode

/-- AUTH XOAUTH2: `user=` user, byte 1, `auth=Bearer ` token, two bytes 1. The user name ends at the first byte 1. -/
def readXOAuth2 (cmd : Bytes) : Option (Bytes × Bytes) :=
  match (argument b!"AUTH XOAUTH2 " cmd).bind Base64.decode with
  | some d =>
    if b!"user=".isPrefixOf d ∧ [1, 1].isSuffixOf d then
      let t := (d.drop 5).take (d.length - 7)
      let u := t.takeWhile (· ≠ 1)
      let r := t.drop u.length
      if ([1] ++ b!"auth=Bearer ").isPrefixOf r then some (u, r.drop 13) else none
    else none
  | none => none

/-- The texts of an exchange with each mechanism. The payload is any text that a standard decoder reads as what the mechanism prescribes; whether it is
on one line is not said here. -/
inductive Exchange (u p : Bytes) : Mechanism → List Bytes → Prop
  | plain {t : Bytes} : Base64.decode t = some ([0] ++ u ++ [0] ++ p) → Exchange u p .plain [b!"AUTH PLAIN " ++ t ++ b!"\r\n"]
  | login {t t' : Bytes} : Base64.decode t = some u → Base64.decode t' = some p →
      Exchange u p .login [b!"AUTH LOGIN\r\n", t ++ b!"\r\n", t' ++ b!"\r\n"]
  | xoauth2 {t : Bytes} : Base64.decode t = some (b!"user=" ++ u ++ [1] ++ b!"auth=Bearer " ++ p ++ [1, 1]) →
      Exchange u p .xoauth2 [b!"AUTH XOAUTH2 " ++ t ++ b!"\r\n"]

end Verif.Spec
