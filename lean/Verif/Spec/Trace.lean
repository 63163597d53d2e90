import Verif.Model.World
import Verif.Spec.Reply
/-!
# Observing a history

Only the vocabulary of events is used here, nothing of the client's code.
-/
namespace Verif.Spec
open Verif Verif.Model

/-- The commands sent, in order (without QUIT and without message content). -/
def commands (h : Hist) : List Bytes :=
  h.filterMap fun
    | .send .cmd _ d _ => some d
    | _ => none

/-- The pieces of message content sent, in order. -/
def contents (h : Hist) : List Bytes :=
  h.filterMap fun
    | .send .content _ d _ => some d
    | _ => none

/-- A text up to its first NUL. -/
def upToNul (d : Bytes) : Bytes := d.takeWhile (· ≠ 0)

/-- What one event lets the client hear, as text: of a read the part before the first NUL. -/
def hear : Ev → Bytes
  | .recv _ (.data d) => upToNul d
  | _ => []

/-- Everything read. -/
def heard (h : Hist) : Bytes := h.flatMap hear

/-- The text reads as a reply with this code: the number that its first three characters start with. For a code of three digits
these are the three characters (`replyCode_digits`). -/
def ReplyCode (text : Bytes) (code : Int) : Prop := 3 ≤ text.length ∧ StartsWithNumber (text.take 3) code

/-- One thing the client said: the bytes that were accepted by the operating system, and for commands everything that was read before it said
the next thing. -/
inductive Item where
  | cmd (c : Chan) (text answer : Bytes)
  | content (c : Chan) (text : Bytes)
  | quit (c : Chan) (text : Bytes)
  deriving DecidableEq, Repr

/-- One event in front of a conversation; the first component is what was heard before the first thing the client said. -/
def talkStep : Ev → Bytes × List Item → Bytes × List Item
  | .send .cmd c d (.sent n), (t, l) => ([], .cmd c (d.take n) t :: l)
  | .send .content c d (.sent n), (_, l) => ([], .content c (d.take n) :: l)
  | .send .quit c d (.sent n), (_, l) => ([], .quit c (d.take n) :: l)
  | e, (t, l) => (hear e ++ t, l)

/-- The conversation recorded in a history, with what was heard before the first thing the client said. -/
def talk (h : Hist) : Bytes × List Item := h.foldr talkStep ([], [])

/-- The conversation. -/
def conversation (h : Hist) : List Item := (talk h).2

end Verif.Spec
