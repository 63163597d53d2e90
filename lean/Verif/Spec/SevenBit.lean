import Verif.Spec.Delivery
/-!
# Characters that may be sent without an agreement (specification)

RFC 5321 section 2.4: without an extension agreed upon with the server (8BITMIME, RFC 6152, or SMTPUTF8, RFC 6531), commands and message consist of characters
of US-ASCII, octets with the high bit zero. RFC 5322 section 2.3 also excludes NUL.
-/
namespace Verif.Spec
open Verif Verif.Model

/-- Octets a server takes without an extension. -/
def SevenBit (d : Bytes) : Prop := ∀ b ∈ d, 0 < b.toNat ∧ b.toNat < 128

/-- A text of US-ASCII. -/
def Ascii (d : Bytes) : Prop := ∀ b ∈ d, b.toNat < 128

/-- The texts of the message the caller chose are of US-ASCII. Nothing is said of the files, their paths, the user name and the password. -/
structure AsciiMessage (m : Message) : Prop where
  addresses : ∀ a ∈ m.from :: recipients m, Ascii a.email ∧ Ascii a.displayName
  subject : Ascii m.subject
  body : Ascii m.body
  mime : Ascii m.mime
  attachments : ∀ a ∈ elems m.attachments, Ascii a.name ∧ Ascii a.contentId

/-- The server offers an extension for other octets in a text it sent. -/
def OffersEightBit (h : Hist) : Prop :=
  ∃ c d, .recv c (.data d) ∈ h ∧ (b!"8BITMIME" <:+: d ∨ b!"SMTPUTF8" <:+: d)

end Verif.Spec
