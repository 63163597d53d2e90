import Verif.Model.WinSock
/-!
# Specification: starting and stopping Winsock
-/
namespace Verif.Spec
open Verif Verif.Model

/-- Winsock counts: a successful `WSAStartup` adds one, a successful `WSACleanup` takes one away. -/
def winsockStep : WinEv → Int
  | .startup r => if r = 0 then 1 else 0
  | .wsaCleanup r => if r = 0 then -1 else 0
  | _ => 0

/-- The count after a history. -/
def winsockUse : WinHist → Int
  | [] => 0
  | e :: h => winsockStep e + winsockUse h

/-- Winsock can be used. -/
def WinsockRunning (h : WinHist) : Prop := 0 < winsockUse h

/-- `WSACleanup` never failed. -/
def CleanupsWork (h : WinHist) : Prop := ∀ r, .wsaCleanup r ∈ h → r = 0

/-- What a successful opening looks like: Winsock started, name and port resolved, a socket made, connected. The client keeps the handle as a 32 bit number. -/
def WinOpenedTo (name : Bytes) (port : Nat) (sock : Int) (evs : WinHist) : Prop :=
  ∃ handle, sock = handleInt handle ∧ sock ≠ -1 ∧
    evs = [.startup 0, .resolve (some name) (natDec port) 0, .socket handle, .connect sock true]

/-- A certificate store is opened, or closed. -/
def storeStep : WinEv → Int
  | .storeOpen true => 1
  | .storeClose => -1
  | _ => 0

/-- The number of stores that are open after a history. -/
def storesOpen : WinHist → Int
  | [] => 0
  | e :: h => storeStep e + storesOpen h

/-- All objects are destroyed. -/
def WinWorld.allGone (w : WinWorld) : Prop := ∀ i, w.get i = none

/-- A negotiation that may count as secure: context and channel made, the store opened and every certificate imported that it holds at that moment
(`store` tells what it holds after a history), connected, the handshake done, a certificate presented, all on the channel just made, and the result of its
verification 0 – or 18 (self signed) when that is accepted. -/
def TlsChecked (store : WinHist → List Bool) (acceptSelfSigned : Bool) (before evs : WinHist) : Prop :=
  ∃ (id : Nat) (ctx bio conn shake cert res : Int) (roots : List Bool),
    id = before.length + 1 ∧ roots = store (before ++ [.tls .ctxNew ctx, .tls .bioNew bio, .storeOpen true]) ∧ ctx ≠ 0 ∧ bio ≠ 0 ∧ 0 < conn ∧ 0 < shake ∧ cert ≠ 0 ∧ (res = 0 ∨ res = 18 ∧ acceptSelfSigned = true) ∧
    evs = [.tls .ctxNew ctx, .tls .bioNew bio, .storeOpen true] ++ roots.map .rootCert ++
      [.tls (.connect id) conn, .tls (.handshake id) shake, .tls (.peerCert id) cert, .tls (.verifyResult id) res, .storeClose]

end Verif.Spec
