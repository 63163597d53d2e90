import Verif.Model.World
/-!
# The verdict on a self-signed certificate (specification)
-/
namespace Verif.Spec
open Verif Verif.Model

/-- After `h0` the two histories are the same up to and including a moment where the TLS library says that the certificate of the server is signed by itself
(`X509_V_ERR_DEPTH_ZERO_SELF_SIGNED_CERT`, 18). -/
def Judged (h0 h h' : Hist) : Prop :=
  ∃ shared id rest rest', h = h0 ++ shared ++ .tls (.verifyResult id) 18 :: rest ∧ h' = h0 ++ shared ++ .tls (.verifyResult id) 18 :: rest'

end Verif.Spec
