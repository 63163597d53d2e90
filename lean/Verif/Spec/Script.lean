import Verif.Model.Session
/-!
# Concrete environments for examples and counterexamples
-/
namespace Verif.Spec
open Verif Verif.Model

/-- Number of reads so far. -/
def reads (h : Hist) : Nat := (h.filter fun | .recv _ _ => true | _ => false).length

/-- Number of writes so far. -/
def writes (h : Hist) : Nat := (h.filter fun | .send _ _ _ _ => true | _ => false).length

/-- A world in which every system call succeeds, the n-th write has the given result and the n-th read gives the n-th entry of
the script (then nothing more arrives). -/
def scripted (script : List RecvRes) (write : Nat → Option SendRes := fun _ => none)
    (tls : TlsOp → Int := fun | .verifyResult _ => 0 | _ => 1) : Env :=
  { depth := 10, fuel := 50
    socket := fun _ => .val 5
    resolve := fun _ _ => some [192, 0, 2, 1]
    fcntlGet := fun _ _ => .ok
    fcntlSet := fun _ _ _ => .ok
    connect := fun _ _ _ => .ok
    select := fun _ _ _ => .ready
    sockopt := fun _ _ => .val 0
    send := fun h _ d => (write (writes h)).getD (.sent d.length)
    recv := fun h _ => script.getD (reads h) .err
    tls := fun _ op => tls op
    readFile := fun _ _ => some b!"file"
    tlsErr := fun _ => 1
    errText := fun _ => b!"error"
    x509Text := fun _ => b!"error" }

/-- Replies to commands in clear: the data, then nothing more for the moment. -/
def clear (replies : List Bytes) : List RecvRes := (replies.map fun r => [RecvRes.data r, .err]).flatten

/-- A simple message. -/
def mail : Message :=
  Message.new { email := b!"me@here.org", displayName := [] } (some [{ email := b!"you@there.org", displayName := b!"You" }]) 1
    (some b!"Hello") (some b!"Body") none 0 none 0 none 0 mimePlain

/-- The same with recipients of every kind and an attachment. -/
def bigMail : Message :=
  Message.new { email := b!"me@here.org", displayName := [] }
    (some [{ email := b!"you@there.org", displayName := b!"You" }, { email := b!"two@there.org", displayName := [] }]) 2
    (some b!"Hello") (some b!"Body") (some [{ email := b!"cc@there.org", displayName := [] }]) 1
    (some [{ email := b!"bcc@there.org", displayName := [] }]) 1
    (some [{ filename := b!"a.txt", name := b!"a", contentId := [] }]) 1 mimePlain

/-- A fresh client. -/
def fresh (k : Kind) : St := { client := Client.init k b!"mail.org" 25, hist := [] }

end Verif.Spec
