import Verif.Model.World
/-!
# Which sockets and TLS connections are open

Read off the history alone.
-/
namespace Verif.Spec
open Verif Verif.Model

/-- The effect of one event on the set of open sockets. -/
def socketStep (l : List Int) : Ev → List Int
  | .socket (.val v) => (v : Int) :: l
  | .close fd => l.filter (· ≠ fd)
  | _ => l

/-- The sockets opened and not yet closed. -/
def openSockets (h : Hist) : List Int := h.foldl socketStep []

/-- The operating system never hands out a descriptor that is in use. -/
def FreshSockets (env : Env) : Prop := ∀ h v, env.socket h = .val v → (v : Int) ∉ openSockets h

/-- Every `close` is about a socket that is open at that moment, or about -1, the result of a failed `socket`. -/
def ClosesOpen (h : Hist) : Prop := ∀ a b fd, h = a ++ .close fd :: b → fd ∈ openSockets a ∨ fd = -1

/-- No TLS connection is freed twice, and only those made before. -/
def FreesOnce (h : Hist) : Prop := ∀ a b id, h = a ++ .bioFree id :: b → .bioFree id ∉ a ∧ id < a.length

/-- Is this the event of opening the socket? -/
def opensIt (fd : Int) : Ev → Bool
  | .socket (.val v) => (v : Int) == fd
  | _ => false

/-- Is this the event of closing the socket? -/
def closesIt (fd : Int) : Ev → Bool
  | .close fd' => fd' == fd
  | _ => false

/-- How often a descriptor was opened. -/
def timesOpened (fd : Int) (h : Hist) : Nat := h.countP (opensIt fd)

/-- How often a descriptor was closed. -/
def timesClosed (fd : Int) (h : Hist) : Nat := h.countP (closesIt fd)

/-- The socket was opened, not closed since, and meanwhile another socket was asked for. -/
def Overwritten (h : Hist) (fd : Int) : Prop :=
  ∃ (a b : Hist) (v : Nat), h = a ++ .socket (.val v) :: b ∧ (v : Int) = fd ∧ .close fd ∉ b ∧ ∃ r, .socket r ∈ b

/-- In the history `h` a TLS connection was made by the event at position `n` (its number). -/
def TlsMade (h : Hist) (n : Nat) : Prop := ∃ (a b : Hist) (r : Int), h = a ++ .tls .bioNew r :: b ∧ r ≠ 0 ∧ n = a.length

/-- A further TLS connection was asked for after the event at position `n`. -/
def TlsAskedAfter (h : Hist) (n : Nat) : Prop := ∃ r, .tls .bioNew r ∈ h.drop (n + 1)

/-- How often a TLS connection was freed. -/
def timesFreed (n : Nat) (h : Hist) : Nat := h.countP (· == .bioFree n)

end Verif.Spec
