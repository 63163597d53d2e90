import Verif.Model.World
/-!
# The number of the last failure, read off the history
-/
namespace Verif.Spec
open Verif Verif.Model

/-- The number with which a system call failed. Not a failure: a `connect` that goes on in the background (115, `EINPROGRESS`) and a `select` that was interrupted (4, `EINTR`).
`getsockopt` tells the failure of such a `connect` as its value. Reading (`recv`) and `gethostbyname` tell no number. -/
def failNo : Ev → Option Int
  | .socket (.err e) => some e
  | .fcntlGet _ (.err e) => some e
  | .fcntlSet _ _ (.err e) => some e
  | .connect _ _ (.err e) => if e = 115 then none else some e
  | .select _ (.err e) => if e = 4 then none else some e
  | .sockopt _ (.err e) => some e
  | .sockopt _ (.val v) => if v = 0 then none else some v
  | .send _ (.raw _) _ (.fail e) => some e
  | _ => none

/-- The number of the last failure, or `n` when there is none. -/
def lastFailure (n : Int) (h : Hist) : Int := (h.filterMap failNo).getLast?.getD n

/-- A number the TLS library gave at a moment of the history after which no system call failed. -/
def TlsNumber (env : Env) (before evs : Hist) (n : Int) : Prop :=
  ∃ a b, evs = a ++ b ∧ b.filterMap failNo = [] ∧ n = env.tlsErr (before ++ a)

end Verif.Spec
