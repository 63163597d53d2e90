import Verif.Model.WinSock
import Verif.Spec.Transcript
/-!
# Specification: what the opening on Windows reports
-/
namespace Verif.Spec
open Verif Verif.Model

/-- A number as people write it. -/
def decimalText (n : Int) : Bytes := (toString n).toList.map fun c => UInt8.ofNat c.toNat

/-- A log in which the client says these texts. -/
def clientLog (texts : List Bytes) : Bytes := logText (texts.map fun t => (b!"c", t))

/-- The number that remains recorded after a failure with the number `e`, when `WSACleanup` then returned `r` and `e'` is the number of its own failure. -/
def keptNumber (e r e' : Int) : Int := if r = 0 then e else e'

/-- What is logged about a failure: the message of the system, if it has one, and the failure of `WSACleanup`, if it failed. -/
def failureTexts (message : Option Bytes) (r e' : Int) : List Bytes :=
  message.toList ++ (if r = 0 then [] else [b!"WSACleanup failed with error: " ++ decimalText e'])

/-- `WinOpening env name port before evs code number texts`: opening a connection to `name` and `port` after the history `before` does `evs`; the steps are
starting Winsock, finding the address, making a socket, connecting. The result `code` tells which step failed first (0: none), `number` is the error number
then recorded (none: it stays), `texts` is what is logged. -/
inductive WinOpening (env : WinEnv) (name : Bytes) (port : Nat) (before : WinHist) : WinHist → Int → Option Int → List Bytes → Prop
  | noWinsock (r : Int) : r ≠ 0 → WinOpening env name port before [.startup r] (-4) (some r) [b!"WSAStartup failed with error: " ++ decimalText r]
  | noAddress (r c : Int) (evs : WinHist) : r ≠ 0 → evs = [.startup 0, .resolve (some name) (decimalText port) r, .wsaCleanup c] →
      WinOpening env name port before evs (-5) (some (keptNumber r c (env.lastError (before ++ evs))))
        (failureTexts (env.wsaText r) c (env.lastError (before ++ evs)))
  | noSocket (c e : Int) (made evs : WinHist) (handle : Nat) : handleInt handle = -1 →
      made = [.startup 0, .resolve (some name) (decimalText port) 0, .socket handle] → e = env.lastError (before ++ made) → evs = made ++ [.wsaCleanup c] →
      WinOpening env name port before evs (-1) (some (keptNumber e c (env.lastError (before ++ evs))))
        (failureTexts (env.wsaText e) c (env.lastError (before ++ evs)))
  | noConnection (c e : Int) (made evs : WinHist) (handle : Nat) : handleInt handle ≠ -1 →
      made = [.startup 0, .resolve (some name) (decimalText port) 0, .socket handle, .connect (handleInt handle) false] → e = env.lastError (before ++ made) →
      evs = made ++ [.wsaCleanup c] →
      WinOpening env name port before evs (-2) (some (keptNumber e c (env.lastError (before ++ evs))))
        ((b!"Trying to connect to " ++ name ++ b!" on port " ++ decimalText port) :: failureTexts (env.wsaText e) c (env.lastError (before ++ evs)))
  | connected (handle : Nat) : handleInt handle ≠ -1 →
      WinOpening env name port before
        [.startup 0, .resolve (some name) (decimalText port) 0, .socket handle, .connect (handleInt handle) true] 0 none
        [b!"Trying to connect to " ++ name ++ b!" on port " ++ decimalText port]

end Verif.Spec
