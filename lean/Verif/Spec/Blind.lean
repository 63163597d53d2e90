import Verif.Model.World
import Verif.Spec.Base64
/-!
# Servers that do not look at credentials

`blind` forgets what a history tells about user names and passwords. A world is *unseeing* when none of its answers depends on what is forgotten.
-/
namespace Verif.Spec
open Verif Verif.Model

/-- A byte that can occur in a line of base64 text. -/
def base64Byte (c : UInt8) : Bool := (Base64.value c).isSome || c == 61 || c == 13 || c == 10

/-- What is left of a command when its payload is not looked at: of `AUTH PLAIN` and `AUTH XOAUTH2` with their argument the words, of a line that
consists of base64 text nothing (the two answers in `AUTH LOGIN` are such lines), any other command stays. -/
def visible (d : Bytes) : Bytes :=
  if b!"AUTH PLAIN ".isPrefixOf d then b!"AUTH PLAIN "
  else if b!"AUTH XOAUTH2 ".isPrefixOf d then b!"AUTH XOAUTH2 "
  else if d.all base64Byte then []
  else d

/-- The number of bytes a write accepted is forgotten too: it tells the length. -/
def blindRes : SendRes → SendRes
  | .sent _ => .sent 0
  | r => r

/-- A call without the user name and password it passes. -/
def blindCall : Call → Call
  | .setCredentials c => .setCredentials { c with username := [], password := [] }
  | c => c

/-- An event without them. -/
def blind : Ev → Ev
  | .call c => .call (blindCall c)
  | .send .cmd c d r => .send .cmd c (visible d) (blindRes r)
  | .send k c d r => .send k c d (blindRes r)
  | e => e

/-- The answers of the world are the same after histories that differ in credentials only, and whatever credentials are sent. -/
structure Unseeing (env : Env) : Prop where
  socket : ∀ h h', h.map blind = h'.map blind → env.socket h = env.socket h'
  resolve : ∀ h h' n, h.map blind = h'.map blind → env.resolve h n = env.resolve h' n
  fcntlGet : ∀ h h' fd, h.map blind = h'.map blind → env.fcntlGet h fd = env.fcntlGet h' fd
  fcntlSet : ∀ h h' fd b, h.map blind = h'.map blind → env.fcntlSet h fd b = env.fcntlSet h' fd b
  connect : ∀ h h' fd p, h.map blind = h'.map blind → env.connect h fd p = env.connect h' fd p
  select : ∀ h h' fd t, h.map blind = h'.map blind → env.select h fd t = env.select h' fd t
  sockopt : ∀ h h' fd, h.map blind = h'.map blind → env.sockopt h fd = env.sockopt h' fd
  send : ∀ h h' c d d', h.map blind = h'.map blind → visible d = visible d' → blindRes (env.send h c d) = blindRes (env.send h' c d')
  recv : ∀ h h' c, h.map blind = h'.map blind → env.recv h c = env.recv h' c
  tls : ∀ h h' op, h.map blind = h'.map blind → env.tls h op = env.tls h' op
  readFile : ∀ h h' n, h.map blind = h'.map blind → env.readFile h n = env.readFile h' n
  tlsErr : ∀ h h', h.map blind = h'.map blind → env.tlsErr h = env.tlsErr h'

end Verif.Spec
