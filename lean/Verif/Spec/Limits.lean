import Verif.Spec.Delivery
import Verif.Spec.Mime
import Verif.Spec.Base64
import Verif.Spec.Lines
/-!
# Sizes a server must be able to handle (specification)

RFC 5321 section 4.5.3.1 and, for the lines of an authentication, RFC 4954 section 4. A server may refuse anything longer.
-/
namespace Verif.Spec
open Verif Verif.Model

/-- RFC 5321 section 4.5.3.1.4: a command line, CR LF included. -/
def commandLimit : Nat := 512

/-- RFC 5321 section 4.5.3.1.3: an address, the angle brackets included. -/
def pathLimit : Nat := 256

/-- RFC 5321 section 4.5.3.1.6: a line of the message, CR LF included. -/
def textLimit : Nat := 1000

/-- RFC 4954 section 4: a line of an authentication, CR LF included. -/
def authLimit : Nat := 12288

/-- The addresses are within their limit; so is the name of the sender, which the second form of MAIL FROM repeats. -/
structure AddressesFit (m : Message) : Prop where
  path : ∀ a ∈ m.from :: recipients m, a.email.length + 2 ≤ pathLimit
  name : m.from.displayName.length ≤ 240

/-- The texts the caller chose are within the limits, so that every line made of them could be: the header fields, the lines of the body, and the names of the
attachments. -/
structure TextFits (m : Message) : Prop where
  fields : ∀ f ∈ fields m, f.1.length + 2 + f.2.length + 2 ≤ textLimit
  body : ∀ l ∈ lines m.body, l.length + 2 ≤ textLimit
  mime : m.mime.length ≤ 900
  attachments : ∀ a ∈ elems m.attachments, a.name.length ≤ 900 ∧ a.contentId.length ≤ 900

/-- A text all of whose lines are within the limit. -/
def LinesFit (t : Bytes) : Prop := ∀ l ∈ lines t, l.length + 2 ≤ textLimit

/-- A line of an authentication: it names a mechanism, or it is one base64 text. -/
def AuthLine (d : Bytes) : Prop :=
  b!"AUTH " <+: d ∨ ∃ t, d = t ++ b!"\r\n" ∧ ∀ b ∈ t, Base64.Alphabet b

/-- A command within the limits. Only with a credential there are lines of an authentication. -/
def CommandFits (c : Option Credential) (d : Bytes) : Prop :=
  d.length ≤ commandLimit ∨ (c.isSome ∧ AuthLine d ∧ d.length ≤ authLimit)

end Verif.Spec
