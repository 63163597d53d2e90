import Verif.Spec.Trace
/-!
# Waiting for the server (specification)
-/
namespace Verif.Spec
open Verif Verif.Model

/-- Number of seconds slept. -/
def sleeps (h : Hist) : Nat := h.countP fun | .sleep => true | _ => false

/-- Number of reads that brought data. -/
def dataReads (h : Hist) : Nat := h.countP fun | .recv _ (.data _) => true | _ => false

/-- Number of commands sent, successfully or not. -/
def commandSends (h : Hist) : Nat := h.countP fun | .send .cmd _ _ _ => true | _ => false

/-- What the operating system answers to a read on the channel now. -/
def answer (env : Env) (ch : Chan) (h : Hist) : RecvRes := normRecv (nonblocking ch.fd h) (env.recv h ch)

/-- When the channel is read once a second, the data arrive after this number of seconds. -/
inductive ArrivesAfter (env : Env) (ch : Chan) (d : Bytes) : Hist → Nat → Prop
  | now {h : Hist} : answer env ch h = .data d → ArrivesAfter env ch d h 0
  | later {h : Hist} {n : Nat} {r : RecvRes} : answer env ch h = r → r = .eof ∨ r = .err →
      ArrivesAfter env ch d (h ++ [.recv ch r, .sleep]) n → ArrivesAfter env ch d h (n + 1)

/-- Every command that was sent was answered or given up on: data were read after it, or `timeout` seconds were slept. -/
def Settled (timeout : Nat) (h : Hist) : Prop :=
  ∀ pre c d n post, h = pre ++ .send .cmd c d (.sent n) :: post → 0 < dataReads post ∨ timeout ≤ sleeps post

/-- Whenever a command is sent, all earlier commands are settled. -/
def LockStep (timeout : Nat) (h : Hist) : Prop :=
  ∀ pre c d r post, h = pre ++ .send .cmd c d r :: post → Settled timeout pre

/-- The seconds allowed after a command (or before the first one) until some moment before the next command: `T` for the reply. The
reply to EHLO can come in several parts, there each part read allows `T` more. -/
def allowed (T : Nat) (cmd : Option Bytes) (since : Hist) : Nat :=
  if cmd = some b!"ehlo localhost\r\n" then T * (1 + dataReads since) else T

/-- Nowhere in the history the seconds slept since the last command are more than allowed. -/
def Patient (T : Nat) (h : Hist) : Prop :=
  (∀ mid post, h = mid ++ post → commandSends mid = 0 → sleeps mid ≤ allowed T none mid) ∧
  ∀ pre c d r mid post, h = pre ++ .send .cmd c d r :: (mid ++ post) → commandSends mid = 0 → sleeps mid ≤ allowed T (some d) mid

end Verif.Spec
