import Verif.Model.World
import Verif.Spec.Text
/-!
# Which server a connection leads to
-/
namespace Verif.Spec
open Verif Verif.Model

/-- What it takes to have a TCP connection to an address and port: `connect` succeeded at once, or it was pending (`EINPROGRESS`) and the
operating system reported the socket writable and without error. -/
def TcpConnected (fd : Int) (to : SockAddr) (evs : Hist) : Prop :=
  evs = [.connect fd to .ok] ∨ evs = [.connect fd to (.err 115), .select fd .ready, .sockopt fd (.val 0)]

/-- What a successful opening looks like: a new socket, the name of the server resolved, non-blocking mode, connection established to the
address that was found (filled up with zeros if it is shorter than an IPv4 address) and the port, blocking mode again. -/
def OpenedTo (name : Bytes) (port : Nat) (fd : Nat) (evs : Hist) : Prop :=
  ∃ (addr : Bytes) (flags : SysRes) (mid : Hist), addr.length ≤ 4 ∧ TcpConnected fd ⟨addr ++ List.replicate (4 - addr.length) 0, port⟩ mid ∧
    evs = [.socket (.val fd), .resolve name (some addr), .fcntlGet fd flags, .fcntlSet fd true .ok] ++ mid ++ [.fcntlGet fd .ok, .fcntlSet fd false .ok]

/-- After the calls in the history, on an object made with the name `n0` and the port `p0`, the configured server is `n` and the port
`p`. Setting the name to something without visible characters is refused and changes nothing. -/
inductive Configured (n0 : Bytes) (p0 : Nat) : Hist → Bytes → Nat → Prop
  | start : Configured n0 p0 [] n0 p0
  | name {h : Hist} {n : Bytes} {p : Nat} {q : Option Bytes} {t : Bytes} :
      Configured n0 p0 h n p → Shows q t → ¬ AllWs t → Configured n0 p0 (h ++ [.call (.setServerName q)]) t p
  | refused {h : Hist} {n : Bytes} {p : Nat} {q : Option Bytes} :
      Configured n0 p0 h n p → BlankArg q → Configured n0 p0 (h ++ [.call (.setServerName q)]) n p
  | port {h : Hist} {n : Bytes} {p q : Nat} : Configured n0 p0 h n p → Configured n0 p0 (h ++ [.call (.setServerPort q)]) n q
  | other {h : Hist} {n : Bytes} {p : Nat} {e : Ev} :
      Configured n0 p0 h n p → (∀ q, e ≠ .call (.setServerName q)) → (∀ q, e ≠ .call (.setServerPort q)) → Configured n0 p0 (h ++ [e]) n p

/-- At the end of the history `h`, the descriptor is a connection that was opened earlier to a server and port satisfying `C` at the time of the
opening, and that was not closed since. The operating system takes the port modulo 65536. -/
def Served (C : Hist → Bytes → Nat → Prop) (h : Hist) (fd : Int) : Prop :=
  ∃ (a opening b : Hist) (v : Nat) (n : Bytes) (p : Nat), h = a ++ opening ++ b ∧ C a n p ∧ (v : Int) = fd ∧
    OpenedTo n (p % 65536) v opening ∧ .close fd ∉ b

end Verif.Spec
