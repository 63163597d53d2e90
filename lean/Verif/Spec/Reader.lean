import Verif.Spec.Email
import Verif.Spec.Receiver
import Verif.Spec.Mime
/-!
# How a mail program reads a header section (specification)

After RFC 5322: fields (2.2), folding (2.2.3), quoted strings and comments (3.2), mailbox lists (3.4).
-/
namespace Verif.Spec
open Verif

/-- Space or tab. -/
def isBlank (c : UInt8) : Bool := c = 32 || c = 9

/-- A text without the blanks around it. -/
def trimmed (s : Bytes) : Bytes := ((s.dropWhile isBlank).reverse.dropWhile isBlank).reverse

/-- RFC 5322 2.2.3: a line that begins with a blank continues the line before. -/
def unfolded : List Bytes → List Bytes
  | [] => []
  | l :: ls =>
    match unfolded ls with
    | [] => [l]
    | n :: ns => if (n.head?.any isBlank) = true then (l ++ n) :: ns else l :: n :: ns

/-- RFC 5322 2.2: the name before the first colon, the body after it. -/
def fieldOf (l : Bytes) : Bytes × Bytes := (l.takeWhile (· ≠ 58), (l.dropWhile (· ≠ 58)).drop 1)

/-- The bodies of the fields with this name. -/
def bodies (n : Bytes) (hs : List Bytes) : List Bytes :=
  (((unfolded hs).map fieldOf).filter fun f => decide (EqIgnoringCase f.1 n)).map (·.2)

/-- Where a reader is in a structured field: outside of everything, in a quoted string, between angle brackets, in nested comments, or behind a
backslash. -/
inductive Within
  | plain
  | quoted
  | angle
  | comment (outer : Nat)
  | escaped (w : Within)
deriving DecidableEq

/-- RFC 5322 3.2.1, 3.2.2, 3.2.4, 3.4: what the next character leads to. -/
def Within.next : Within → UInt8 → Within
  | .plain, c => if c = 34 then .quoted else if c = 60 then .angle else if c = 40 then .comment 0 else .plain
  | .quoted, c => if c = 92 then .escaped .quoted else if c = 34 then .plain else .quoted
  | .angle, c => if c = 62 then .plain else .angle
  | .comment n, c =>
    if c = 92 then .escaped (.comment n) else if c = 40 then .comment (n + 1)
    else if c = 41 then (match n with | 0 => .plain | n + 1 => .comment n) else .comment n
  | .escaped w, _ => w

/-- A field body cut at every separator outside of everything. -/
def cutAt (sep : UInt8) : Within → Bytes → List Bytes
  | _, [] => [[]]
  | w, c :: cs => if w = .plain ∧ c = sep then [] :: cutAt sep .plain cs else consFirst c (cutAt sep (w.next c) cs)

/-- RFC 5322 3.4: the display name and the address of a mailbox. -/
def mailbox (p : Bytes) : Bytes × Bytes :=
  match cutAt 60 .plain p with
  | n :: a :: _ => (trimmed n, a.takeWhile (· ≠ 62))
  | _ => ([], trimmed p)

/-- RFC 5322 3.4: the mailboxes of a list. -/
def mailboxes (v : Bytes) : List (Bytes × Bytes) := (cutAt 44 .plain v).map mailbox

/-- Who is named in the fields with this name. -/
def namedIn (n : Bytes) (hs : List Bytes) : List (Bytes × Bytes) := (bodies n hs).flatMap mailboxes

/-- A text that needs no quoting: none of `" ( , < >`, no blanks around it. -/
def PlainText (s : Bytes) : Prop := (∀ c ∈ s, c ≠ 34 ∧ c ≠ 40 ∧ c ≠ 44 ∧ c ≠ 60 ∧ c ≠ 62) ∧ trimmed s = s

instance (s : Bytes) : Decidable (PlainText s) := inferInstanceAs (Decidable (_ ∧ _))

-- A comma in a quoted string does not separate mailboxes; folded lines belong together.
example : mailboxes b!" \"Doe, John\" <j@d.org>, x@y.org" = [(b!"\"Doe, John\"", b!"j@d.org"), ([], b!"x@y.org")] ∧
    namedIn b!"to" [b!"From: a@b.org", b!"To: X", b!"  Y <x@y.org>,", b!" z@y.org"] = [(b!"X  Y", b!"x@y.org"), ([], b!"z@y.org")] := by decide +kernel

end Verif.Spec
