import Verif.Model.Session
import Verif.Spec.Log
/-!
# Specification: the communication log as a transcript
-/
namespace Verif.Spec
open Verif Verif.Model

/-- How a command is shown: an AUTH command without what identifies the user. -/
def masked (d : Bytes) : Bytes :=
  if b!"AUTH PLAIN ".isPrefixOf d then b!"AUTH PLAIN ***************\r\n"
  else if d = b!"AUTH LOGIN\r\n" then b!"AUTH LOGIN ***************\r\n"
  else if b!"AUTH XOAUTH2 ".isPrefixOf d then b!"XOauth 2 ***************\r\n"
  else d

/-- One more command: the number of commands that are kept secret from here on, and what is shown so far. The two commands after `AUTH LOGIN`
are the user name and the password. -/
def showCommand (d : Bytes) : Nat × List Bytes → Nat × List Bytes
  | (n + 1, l) => (n, l)
  | (0, l) => (if d = b!"AUTH LOGIN\r\n" then 2 else 0, l ++ [masked d])

/-- One more event: a new socket begins a new transcript. -/
def transcriptStep (t : Nat × List Bytes) : Ev → Nat × List Bytes
  | .socket _ => (0, [])
  | .send .content _ _ _ => t
  | .send _ _ d _ => showCommand d t
  | _ => t

/-- The commands since the last socket was made (sent, or only tried), as they are to be shown. -/
def transcript (h : Hist) : Nat × List Bytes := h.foldl transcriptStep (0, [])

/-- A log with these entries, each with who speaks. -/
def logText (es : List (Bytes × Bytes)) : Bytes := (es.map fun e => logEntry e.2 e.1).flatten

/-- What the client says in these entries. -/
def clientSays (es : List (Bytes × Bytes)) : List Bytes := (es.filter fun e => e.1 == b!"c").map (·.2)

/-- The log shows every command since the last socket was made, in order. -/
def LogTells (content : Bytes) (h : Hist) : Prop :=
  ∃ es, content = logText es ∧ (transcript h).2.Sublist (clientSays es)

end Verif.Spec
