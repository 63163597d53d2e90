import Verif.Model.World
/-!
# What can go wrong with memory

The causes of undefined behaviour in a session, as facts about the last thing that happened and the object at that moment.
-/
namespace Verif.Spec
open Verif Verif.Model

/-- An array argument is what its count says. -/
def ArrayOk {α : Type} (a : Arr α) : Prop :=
  match a.ptr with
  | none => a.count = 0
  | some l => a.count ≤ l.length

/-- The message was made from proper arguments. -/
structure MessageOk (m : Message) : Prop where
  to : ArrayOk m.to
  cc : ArrayOk m.cc
  bcc : ArrayOk m.bcc
  attachments : ArrayOk m.attachments

/-- Decimal length of a number. -/
def decimals (n : Nat) : Nat := (Nat.toDigits 10 n).length

/-- The bytes the client has received. -/
def Received (h : Hist) (c : UInt8) : Prop := ∃ ch d, .recv ch (.data d) ∈ h ∧ c ∈ d

/-- The causes of undefined behaviour. -/
inductive Fault (s : St) : UB → Prop where
  /-- the server sent 1024 bytes or more at once in clear: no room for the final NUL -/
  | longRead (fd : Int) (d : Bytes) (last : s.hist.getLast? = some (.recv (.raw fd) (.data d))) (len : d.length = 1024) : Fault s .outOfBounds
  /-- there are credentials, and no AUTH line was understood in the reply to EHLO -/
  | noMechanisms (c : Credential) (cred : s.client.credential = some c) (none : s.client.authOptions = none) : Fault s .nullDeref
  /-- server name, colon, port and final NUL do not fit into 1024 bytes when TLS is prepared -/
  | longName (name : Bytes) (r : Int) (h : s.client.serverName = some name) (len : 1024 ≤ name.length + 1 + decimals s.client.port)
      (last : s.hist.getLast? = some (.tls .bioNew r)) : Fault s .outOfBounds
  /-- the process has many open files, and the connection is not there at once -/
  | highDescriptor (p : SockAddr) (high : 1024 ≤ s.client.sock) (last : s.hist.getLast? = some (.connect s.client.sock p (.err 115))) :
      Fault s .fdSetRange
  /-- the address found for the server name is longer than an IPv4 address -/
  | longAddress (name a : Bytes) (len : 4 < a.length) (last : s.hist.getLast? = some (.resolve name (some a))) : Fault s .outOfBounds
  /-- the server sent a byte outside ASCII -/
  | strangeReply (c : UInt8) (kind : s.client.kind = .opportunistic) (sent : Received s.hist c) (high : 128 ≤ c) : Fault s .isspaceDomain
  /-- the user gave a server name with a byte outside ASCII -/
  | strangeName (m : Bytes) (last : s.hist.getLast? = some (.call (.setServerName (some m)))) (c : UInt8) (mem : c ∈ m) (high : 128 ≤ c) :
      Fault s .isspaceDomain
  /-- the object was moved from -/
  | noName (h : s.client.serverName = Option.none) : Fault s .nullDeref

/-- A call whose message, if any, is well-formed. -/
def CallOk : Call → Prop
  | .sendMail m => MessageOk m
  | _ => True

end Verif.Spec
