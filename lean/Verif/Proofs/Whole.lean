import Verif.Proofs.Close
import Verif.Proofs.Calls
/-!
# Relations for which closing a session is one step
-/
namespace Verif.Proofs
open Verif Verif.Model

variable {α : Type} {env : Env} {R : St → St → Prop}

/-- Relations that do not care about receiving and sending, and are kept by closing as a whole. -/
class Whole (R : St → St → Prop) : Prop extends Reading R where
  send : ∀ s k c d r, R s (St.snoc s (.send k c d r))
  closed : ∀ s, R s { s with client := closedClient s.client, hist := s.hist ++ closingEvs s.client }

/-- … nor about the beginning of a transmission. -/
class WholeMail (R : St → St → Prop) : Prop extends Whole R, Filing R where
  connected : ∀ s, R s { s with client := { s.client with isConnected := true } }

/-- … and are kept by the two parts that make connections. -/
class WholeLife (env : Env) (R : St → St → Prop) : Prop extends WholeMail R where
  keep : ∀ s, R s { s with client := { s.client with keep := true, ptrRaw := true } }
  init : Steps env R initializeSession
  tls : Steps env R startTLSNegotiation

section
variable [hR : Whole R]

theorem wh_closeSession : Steps env R closeSession := by
  constructor
  intro s
  unfold wp
  rw [closeSession_run]
  exact hR.closed s

theorem wh_sendRawWith {f : M Unit} (hf : Steps env R f) (k d e) : Steps env R (sendRawWith f k d e) := by
  unfold sendRawWith sysSend
  steps [setErrNo_steps, Steps.ask]
  exact hR.send _ _ _ _ _

theorem wh_sendBioWith {f : M Unit} (hf : Steps env R f) (k d e) : Steps env R (sendBioWith f k d e) := by
  unfold sendBioWith sysSend
  steps [setErrNo_steps, Steps.ask]
  exact hR.send _ _ _ _ _

theorem wh_sendPtrWith {f : M Unit} (hf : Steps env R f) (k d e) : Steps env R (sendPtrWith f k d e) := by
  unfold sendPtrWith
  steps [wh_sendRawWith, wh_sendBioWith]

theorem wh_sendQuitWith {f : M Unit} (hf : Steps env R f) : Steps env R (sendQuitWith f) := by
  unfold sendQuitWith
  steps [addLog_steps, wh_sendPtrWith]

theorem wh_cleanupN (n) : Steps env R (cleanupN n) := by
  induction n with
  | zero => unfold cleanupN; steps []
  | succ n ih => unfold cleanupN; steps [wh_sendQuitWith, wh_closeSession]

theorem wh_cleanup : Steps env R cleanup := by
  unfold cleanup; steps [wh_cleanupN]

theorem wh_sendPtr (k d e) : Steps env R (sendPtr k d e) := wh_sendPtrWith wh_cleanup k d e

theorem wh_sendQuit : Steps env R sendQuit := wh_sendQuitWith wh_cleanup

theorem wh_sendRawFb (d e t) : Steps env R (sendRawFb d e t) := by
  unfold sendRawFb sendRaw
  steps [wh_sendRawWith, getRawReply_steps, wh_cleanup]

theorem wh_sendTlsFb (d e t) : Steps env R (sendTlsFb d e t) := by
  unfold sendTlsFb
  steps [wh_sendBioWith, getTlsReply_steps, wh_cleanup]

theorem wh_sendFb (d e t) : Steps env R (sendFb d e t) := by
  unfold sendFb
  steps [wh_sendRawFb, wh_sendTlsFb]

theorem wh_sendPtrFb (d e t) : Steps env R (sendPtrFb d e t) := by
  unfold sendPtrFb
  steps [wh_sendRawFb, wh_sendFb]

theorem wh_identify (e t) : Steps env R (identify e t) := by
  unfold identify
  steps [wh_sendFb, addLog_steps, lastResponseText_steps, ehloLoop_steps, setAuthOptions_steps]

theorem wh_authenticateIfNeeded : Steps env R authenticateIfNeeded := by
  unfold authenticateIfNeeded authenticateClient authPlainM authLoginM authXOAuth2M
  steps [addLog_steps, wh_sendPtrFb]

theorem wh_mailFromLoop (c l) : Steps env R (mailFromLoop c l) := by
  induction l generalizing c with
  | nil => unfold mailFromLoop; steps []
  | cons f l ih => unfold mailFromLoop; steps [addLog_steps, wh_sendPtrFb, ih]

theorem wh_addMailRecipients (c l) : Steps env R (addMailRecipients c l) := by
  induction l generalizing c with
  | nil => unfold addMailRecipients; steps []
  | cons f l ih => unfold addMailRecipients; steps [addLog_steps, wh_sendPtrFb, ih]

theorem wh_recipientsLoop (l) : Steps env R (recipientsLoop l) := by
  induction l with
  | nil => unfold recipientsLoop; steps []
  | cons a l ih => unfold recipientsLoop; steps [arrElems_steps, wh_addMailRecipients]

theorem wh_sendPieces (l) : Steps env R (sendPieces l) := by
  induction l with
  | nil => unfold sendPieces; steps []
  | cons a l ih => unfold sendPieces; steps [wh_sendPtr]

theorem wh_setMailRecipients (m) : Steps env R (setMailRecipients m) := by
  unfold setMailRecipients; steps [wh_mailFromLoop, wh_recipientsLoop]

theorem wh_setMailHeaders (m) : Steps env R (setMailHeaders m) := by
  unfold setMailHeaders addressHeader addMailHeader
  steps [addLog_steps, wh_sendPtrFb, wh_sendPtr, arrElems_steps]

theorem wh_setMailBody [Filing R] (m) : Steps env R (setMailBody m) := by
  unfold setMailBody sendBodyText
  steps [addLog_steps, wh_sendPtrFb, wh_sendPtr, fullBody_steps, wh_sendPieces, wh_sendQuit]

theorem wh_sendMailRest [Filing R] (m) : Steps env R (sendMailRest m) := by
  unfold sendMailRest
  steps [wh_setMailHeaders, wh_setMailBody, wh_cleanup]

end

theorem wh_sendMailConnected [hR : WholeMail R] (m) : Steps env R (sendMailConnected m) := by
  unfold sendMailConnected
  steps [Steps.modify, wh_setMailRecipients, wh_sendMailRest]
  exact hR.connected _

section
variable [hR : WholeLife env R]

theorem wh_establish : Steps env R establish := by
  have h1 := hR.init
  have h2 := hR.tls
  have h3 : Steps env R (setKeepUsingBase true) := Steps.modify fun s => hR.keep s
  unfold establish establishGreeted establishForced establishOpportunistic upgradeToSecureConnection
    getServerSecureIdentification sendServerIdentification
  steps [addLog_steps, checkServerGreetings_steps, wh_identify, wh_authenticateIfNeeded, wh_sendRawFb]

theorem wh_sendMail (m) : Steps env R (sendMail m) := by
  unfold sendMail
  steps [wh_establish, wh_sendMailConnected]

end

end Verif.Proofs
