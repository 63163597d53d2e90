import Verif.Model.WinSock
/-!
# Specification: sockets on Windows

Which sockets are open is read off the history alone. Stopping Winsock for the last time closes sockets too; that is not counted here, since other parts of the program may
keep Winsock running.
-/
namespace Verif.Spec
open Verif Verif.Model

/-- `INVALID_SOCKET` of a 64 bit system. -/
def invalidSocket : Nat := 2 ^ 64 - 1

/-- The conversion of an `int` to `SOCKET`, an unsigned number of 64 bits. -/
def asSocket (v : Int) : Nat := (v % 2 ^ 64).toNat

/-- The effect of one event on the set of open sockets. -/
def handleStep (l : List Nat) : WinEv → List Nat
  | .socket h => if h = invalidSocket then l else h :: l
  | .closesocket v => l.filter (· ≠ asSocket v)
  | _ => l

/-- The sockets opened and not yet closed. -/
def openHandles (h : WinHist) : List Nat := h.foldl handleStep []

/-- The socket an event is about. -/
def aboutSocket : WinEv → Option Int
  | .connect v _ | .ioctl v _ _ | .shutdown v | .closesocket v => some v
  | _ => none

/-- Every socket connected, switched, shut down or closed is open at that moment, or is -1, the result of a failed `socket`. -/
def UsesOpen (h : WinHist) : Prop :=
  ∀ a e b v, h = a ++ e :: b → aboutSocket e = some v → asSocket v ∈ openHandles a ∨ v = -1

/-- The system never hands out a handle that is in use, and handles have 32 significant bits, as Windows documents: the rest repeats the sign. -/
def FreshHandles (env : WinEnv) : Prop :=
  ∀ h, env.socket h ∉ openHandles h ∧ (env.socket h < 2 ^ 31 ∨ 2 ^ 64 - 2 ^ 31 ≤ env.socket h ∧ env.socket h < 2 ^ 64)

/-- Every connection was accepted. -/
def ConnectsWork (h : WinHist) : Prop := ∀ v ok, .connect v ok ∈ h → ok = true

/-- No two objects hold the same socket. -/
def OneHolder (w : WinWorld) : Prop :=
  ∀ i j c d, w.get i = some c → w.get j = some d → i ≠ j → c.base.sock = d.base.sock → c.base.sock = 0 ∨ c.base.sock = -1

/-- What an object holds is open. -/
def HoldsOpen (w : WinWorld) : Prop :=
  ∀ i c, w.get i = some c → c.base.sock = 0 ∨ c.base.sock = -1 ∨ asSocket c.base.sock ∈ openHandles w.hist

end Verif.Spec
