import Verif.Spec.Delivery
import Verif.Spec.Errors
/-!
# Values a call may return (specification)
-/
namespace Verif.Spec
open Verif Verif.Model

/-- In one stretch without sending, a text was read that is a reply with this code. -/
def ReplyIn (h : Hist) (code : Int) : Prop :=
  ∃ pre mid post, h = pre ++ mid ++ post ∧ (∀ e ∈ mid, ¬ IsSend e) ∧ ReplyCode (heard mid) code

/-- Success, a documented error code, or the code of a reply read in this stretch. -/
def Explained (h : Hist) (code : Int) : Prop := code = 0 ∨ IsLibraryCode code ∨ ReplyIn h code

/-- Setting the flags of the socket failed. -/
def FlagsFailed (h : Hist) : Prop := ∃ fd b e, .fcntlSet fd b (.err e) ∈ h

end Verif.Spec
