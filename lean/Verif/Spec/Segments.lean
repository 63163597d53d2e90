import Verif.Spec.Waiting
import Verif.Spec.Reply
/-!
# Replies that arrive in pieces (specification)

The network decides what each read brings. `Feeds` says what the next reads on a channel bring; the rest of this file says which
sequences of reads deliver the lines of an EHLO reply.
-/
namespace Verif.Spec
open Verif Verif.Model

/-- The event is a read. -/
def isRead : Ev → Bool
  | .recv _ _ => true
  | _ => false

/-- From this history on, the next reads on the channel give these results, whatever the client does in between. -/
def Feeds (env : Env) (ch : Chan) : List RecvRes → Hist → Prop
  | [], _ => True
  | r :: rs, h => ∀ e : Hist, (∀ x ∈ e, isRead x = false) →
      answer env ch (h ++ e) = r ∧ Feeds env ch rs (h ++ e ++ [.recv ch r])

/-- The lines on the wire: each one is followed by CR LF. -/
def wire (ls : List Bytes) : Bytes := (ls.map (· ++ [13, 10])).flatten

/-- The lines of a complete positive reply to EHLO (RFC 5321 section 4.1.1.1): `250-` in front of every line but the last, `250 ` in front
of the last one; no line holds NUL, CR or LF. -/
structure EhloReply (ls : List Bytes) : Prop where
  shape : ∃ init last, ls = init ++ [last] ∧ (∀ l ∈ init, b!"250-" <+: l) ∧ b!"250 " <+: last
  plain : ∀ l ∈ ls, ∀ c ∈ l, c ≠ 0 ∧ c ≠ 10 ∧ c ≠ 13

/-- Reads without data, fewer than the timeout in seconds. -/
def Waiting (T : Nat) (w : List RecvRes) : Prop := w.length < T ∧ ∀ r ∈ w, r = .eof ∨ r = .err

/-- The text arrives in clear: after some waiting it comes in any number of reads, one directly after the other, then there is nothing more
for the moment. No read fills the buffer of 1024 bytes. -/
def ClearBatch (T : Nat) (p : Bytes) (rs : List RecvRes) : Prop :=
  ∃ w chunks, Waiting T w ∧ chunks ≠ [] ∧ (∀ c ∈ chunks, c.length < 1024) ∧ p = chunks.flatten ∧
    rs = w ++ chunks.map .data ++ [.err]

/-- The text arrives over TLS: after some waiting, in one read. -/
def TlsRecord (T : Nat) (p : Bytes) (rs : List RecvRes) : Prop := ∃ w, Waiting T w ∧ rs = w ++ [.data p]

/-- The texts arrive one after the other in the way `D`. -/
def InTurn (D : Bytes → List RecvRes → Prop) : List Bytes → List RecvRes → Prop
  | [], rs => rs = []
  | p :: ps, rs => ∃ a b, rs = a ++ b ∧ D p a ∧ InTurn D ps b

end Verif.Spec
