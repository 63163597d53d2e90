import Verif.Model.World
/-!
# Blocking and non-blocking mode (specification)

Read off the history alone.
-/
namespace Verif.Spec
open Verif Verif.Model

/-- The event puts the socket into blocking mode: it is made, or `F_SETFL` without `O_NONBLOCK` succeeds. -/
def MakesBlocking (fd : Int) : Ev → Prop
  | .socket (.val v) => (v : Int) = fd
  | .fcntlSet fd' false .ok => fd' = fd
  | _ => False

/-- The operating system refuses to tell or to change the mode. -/
def RefusesMode (fd : Int) : Ev → Prop
  | .fcntlGet fd' (.err _) => fd' = fd
  | .fcntlSet fd' _ (.err _) => fd' = fd
  | _ => False

/-- The socket is in blocking mode. -/
def BlockingMode (fd : Int) (h : Hist) : Prop := ∃ (x : Hist) (e : Ev) (y : Hist), h = x ++ e :: y ∧ MakesBlocking fd e ∧ .fcntlSet fd true .ok ∉ y

/-- The socket is in non-blocking mode. -/
def NonBlockingMode (fd : Int) (h : Hist) : Prop := ∃ (x y : Hist), h = x ++ .fcntlSet fd true .ok :: y ∧ ∀ e ∈ y, ¬ MakesBlocking fd e

/-- Since the descriptor was handed out, the operating system refused to tell or to change its mode. -/
def ModeRefused (fd : Int) (h : Hist) : Prop :=
  ∃ (x : Hist) (e : Ev) (y : Hist), h = x ++ e :: y ∧ RefusesMode fd e ∧ ∀ v : Nat, (v : Int) = fd → .socket (.val v) ∉ y

/-- The socket was made and nothing was sent since. -/
def JustOpened (fd : Int) (h : Hist) : Prop := ∃ (x : Hist) (v : Nat) (y : Hist), h = x ++ .socket (.val v) :: y ∧ (v : Int) = fd ∧ ∀ k c d r, .send k c d r ∉ y

/-- The mode in which things are sent and read: everything is sent, and read through TLS, in blocking mode; in clear only the greeting is,
everything else is read in non-blocking mode. Exceptions: descriptor 0, and sockets whose mode the operating system refused to change. -/
def ModeOk (h : Hist) : Ev → Prop
  | .send _ c _ _ => c.fd = 0 ∨ BlockingMode c.fd h ∨ ModeRefused c.fd h
  | .recv (.tls _ fd) _ => fd = 0 ∨ BlockingMode fd h ∨ ModeRefused fd h
  | .recv (.raw fd) _ => NonBlockingMode fd h ∨ ModeRefused fd h ∨ JustOpened fd h
  | _ => True

end Verif.Spec
