import Verif.Model.Platform
/-!
# With the functions of POSIX, the dialogue with parameters is the model of the session
-/
namespace Verif.Proofs
open Verif Verif.Model

theorem gen_sendPtrWith : Gen.sendPtrWith posix = sendPtrWith := rfl
theorem gen_sendQuitWith : Gen.sendQuitWith posix = sendQuitWith := rfl

theorem gen_cleanupN (n : Nat) : Gen.cleanupN posix n = cleanupN n := by
  induction n with
  | zero => rfl
  | succ n ih => unfold Gen.cleanupN cleanupN; rw [ih, gen_sendQuitWith]; rfl

theorem gen_cleanup : Gen.cleanup posix = cleanup := by
  unfold Gen.cleanup cleanup
  simp only [gen_cleanupN]

theorem gen_sendRaw : Gen.sendRaw posix = sendRaw := by unfold Gen.sendRaw sendRaw; rw [gen_cleanup]; rfl
theorem gen_sendPtr : Gen.sendPtr posix = sendPtr := by unfold Gen.sendPtr sendPtr; rw [gen_cleanup]; rfl
theorem gen_sendQuit : Gen.sendQuit posix = sendQuit := by unfold Gen.sendQuit sendQuit; rw [gen_cleanup]; rfl
theorem gen_getRawReply : Gen.getRawReply posix = getRawReply := rfl
theorem gen_getServerReply : Gen.getServerReply posix = getServerReply := rfl
theorem gen_sendRawFb : Gen.sendRawFb posix = sendRawFb := by
  unfold Gen.sendRawFb sendRawFb; rw [gen_cleanup, gen_sendRaw, gen_getRawReply]
theorem gen_sendTlsFb : Gen.sendTlsFb posix = sendTlsFb := by
  unfold Gen.sendTlsFb sendTlsFb; rw [gen_cleanup]
theorem gen_sendFb : Gen.sendFb posix = sendFb := by unfold Gen.sendFb sendFb; rw [gen_sendRawFb, gen_sendTlsFb]
theorem gen_sendPtrFb : Gen.sendPtrFb posix = sendPtrFb := by unfold Gen.sendPtrFb sendPtrFb; rw [gen_sendRawFb, gen_sendFb]

theorem gen_ehloLoop (e : Int) (n : Nat) (o : Bytes) : Gen.ehloLoop posix e n o = ehloLoop e n o := by
  induction n generalizing o with
  | zero => rfl
  | succ n ih => unfold Gen.ehloLoop ehloLoop; simp only [ih, gen_getServerReply]

theorem gen_identify : Gen.identify posix = identify := by
  unfold Gen.identify identify
  simp only [gen_sendFb, gen_ehloLoop]
  rfl
theorem gen_ident : Gen.sendServerIdentification posix = sendServerIdentification := by
  unfold Gen.sendServerIdentification sendServerIdentification; rw [gen_identify]
theorem gen_secureIdent : Gen.getServerSecureIdentification posix = getServerSecureIdentification := by
  unfold Gen.getServerSecureIdentification getServerSecureIdentification; rw [gen_identify]
theorem gen_plain : Gen.authPlainM posix = authPlainM := by unfold Gen.authPlainM authPlainM; rw [gen_sendPtrFb]
theorem gen_login : Gen.authLoginM posix = authLoginM := by unfold Gen.authLoginM authLoginM; rw [gen_sendPtrFb]
theorem gen_xoauth2 : Gen.authXOAuth2M posix = authXOAuth2M := by unfold Gen.authXOAuth2M authXOAuth2M; rw [gen_sendPtrFb]
theorem gen_authenticate : Gen.authenticateClient posix = authenticateClient := by
  unfold Gen.authenticateClient authenticateClient; simp only [gen_plain, gen_login, gen_xoauth2]; rfl
theorem gen_authenticateIfNeeded : Gen.authenticateIfNeeded posix = authenticateIfNeeded := by
  unfold Gen.authenticateIfNeeded authenticateIfNeeded; rw [gen_authenticate]
theorem gen_upgrade : Gen.upgradeToSecureConnection posix = upgradeToSecureConnection := by
  unfold Gen.upgradeToSecureConnection upgradeToSecureConnection; rw [gen_sendRawFb]
theorem gen_opportunistic : Gen.establishOpportunistic posix = establishOpportunistic := by
  unfold Gen.establishOpportunistic establishOpportunistic
  rw [gen_upgrade, gen_secureIdent, gen_authenticateIfNeeded]
  rfl
theorem gen_forced : Gen.establishForced posix = establishForced := by
  unfold Gen.establishForced establishForced
  rw [gen_secureIdent, gen_authenticateIfNeeded]
  rfl
theorem gen_greeted (m : M Int) : Gen.establishGreeted posix m = establishGreeted m := by
  unfold Gen.establishGreeted establishGreeted; rw [gen_ident]
theorem gen_establish : Gen.establish posix = establish := by
  unfold Gen.establish establish
  simp only [gen_greeted, gen_opportunistic, gen_forced, gen_authenticateIfNeeded]
  rfl

theorem gen_mailFrom (c : Int) (l : List Bytes) : Gen.mailFromLoop posix c l = mailFromLoop c l := by
  induction l generalizing c with
  | nil => rfl
  | cons f fs ih => unfold Gen.mailFromLoop mailFromLoop; simp only [ih, gen_sendPtrFb]
theorem gen_addRecipients (c : Int) (l : List MessageAddress) : Gen.addMailRecipients posix c l = addMailRecipients c l := by
  induction l generalizing c with
  | nil => rfl
  | cons f fs ih => unfold Gen.addMailRecipients addMailRecipients; simp only [ih, gen_sendPtrFb]
theorem gen_recipientsLoop (l : List (Arr MessageAddress)) : Gen.recipientsLoop posix l = recipientsLoop l := by
  induction l with
  | nil => rfl
  | cons f fs ih => unfold Gen.recipientsLoop recipientsLoop; simp only [ih, gen_addRecipients]
theorem gen_recipients : Gen.setMailRecipients posix = setMailRecipients := by
  unfold Gen.setMailRecipients setMailRecipients; simp only [gen_mailFrom, gen_recipientsLoop]
theorem gen_header : Gen.addMailHeader posix = addMailHeader := by unfold Gen.addMailHeader addMailHeader; rw [gen_sendPtr]
theorem gen_addressHeader : Gen.addressHeader posix = addressHeader := by unfold Gen.addressHeader addressHeader; rw [gen_header]
theorem gen_headers : Gen.setMailHeaders posix = setMailHeaders := by
  unfold Gen.setMailHeaders setMailHeaders; rw [gen_header, gen_addressHeader, gen_sendPtr, gen_sendPtrFb]
theorem gen_pieces (l : List Bytes) : Gen.sendPieces posix l = sendPieces l := by
  induction l with
  | nil => rfl
  | cons f fs ih => unfold Gen.sendPieces sendPieces; simp only [ih, gen_sendPtr]
theorem gen_bodyText : Gen.sendBodyText posix = sendBodyText := by
  unfold Gen.sendBodyText sendBodyText; simp only [gen_pieces, gen_sendPtr]
theorem gen_body : Gen.setMailBody posix = setMailBody := by
  unfold Gen.setMailBody setMailBody; rw [gen_bodyText, gen_sendPtrFb, gen_sendQuit]
theorem gen_rest : Gen.sendMailRest posix = sendMailRest := by
  unfold Gen.sendMailRest sendMailRest; rw [gen_headers, gen_body, gen_cleanup]
theorem gen_connected : Gen.sendMailConnected posix = sendMailConnected := by
  unfold Gen.sendMailConnected sendMailConnected; rw [gen_recipients, gen_rest]
theorem gen_sendMail : Gen.sendMail posix = sendMail := by
  unfold Gen.sendMail sendMail; rw [gen_establish, gen_connected]
theorem gen_doCall : Gen.doCall posix = doCall := by
  unfold Gen.doCall doCall; rw [gen_sendMail]; rfl
theorem gen_runCalls (cs : List Call) : Gen.runCalls posix cs = runCalls cs := by
  induction cs with
  | nil => rfl
  | cons c cs ih => unfold Gen.runCalls runCalls; rw [ih, gen_doCall]
theorem gen_destroy : Gen.destroy posix = destroy := by unfold Gen.destroy destroy; rw [gen_cleanup]
theorem gen_life (cs : List Call) : Gen.life posix cs = life cs := by unfold Gen.life life; rw [gen_runCalls, gen_destroy]

end Verif.Proofs
