import Verif.Proofs.TwinSession
/-!
# Two clients side by side
-/
namespace Verif.Proofs
open Verif Verif.Model Verif.Spec

variable {W : Worlds} {F : Int → Prop} {r a l k : Prop}

/-! ### TLS -/

theorem step2' {α β : Type} {m m' : M α} {f f' : α → M β} {R : St → St → Prop} {Q : β → β → St → St → Prop} {s s' : St}
    (hm : wp2 W m m' (fun x y t t' => x = y ∧ R t t') R s s')
    (hf : ∀ x t t', R t t' → wp2 W (f x) (f' x) Q R t t') : wp2 W (m >>= f) (m' >>= f') Q R s s' :=
  wp2_bind (wp2_mono hm (fun x y t t' q => by obtain ⟨rfl, q⟩ := q; exact hf x t t' q) fun _ _ h => h)

theorem startTLSNegotiation_sync (hl : l) (hk : k) : Sync W (Mates W F r a l k) startTLSNegotiation := by
  unfold startTLSNegotiation
  refine Sync.bind (addLog_sync hl _ _) fun _ => ⟨fun s s' h => ?_⟩
  refine step2' (sysTls_twin .ctxNew h) fun x s s' h => wp2_ite (fun _ => ?_) fun _ => ?_
  · exact Sync.run (by sync [setCtx_sync, tlsErr_sync, setErrNo_sync]) _ _ h
  refine step2 (setCtx_sync true) h fun _ s s' h => ?_
  refine wp2_bind ?_
  rw [wp2_histLength]
  obtain ⟨x, e1, e2⟩ := h.hist
  rw [e1, e2, continued_length, continued_length]
  generalize x.length = i
  refine step2' (sysTls_twin .bioNew h) fun x s s' h => wp2_ite (fun _ => ?_) fun _ => ?_
  · exact Sync.run (by sync [noBio_sync]) _ _ h
  refine wp2_bind ?_
  rw [wp2_gets]
  refine wp2_bind ?_
  rw [wp2_modify]
  obtain ⟨hs, hF⟩ := h.sock (.inl hk)
  have h : Mates W F r a l k { s with client := { s.client with bio := some { id := W.h.length + i, fd := s.client.sock } } }
      { s' with client := { s'.client with bio := some { id := W.h'.length + i, fd := s'.client.sock } } } :=
    { h with same := { h.same with }, bio := ⟨some { id := i, fd := s.client.sock }, rfl, by rw [hs]; rfl, fun x hx => by cases hx; exact hF⟩ }
  refine step2' (name_sync.run _ _ h) fun x s s' h => ?_
  cases x with
  | none => exact ⟨rfl, h⟩
  | some name =>
  refine step2' (port_sync.run _ _ h) fun p s s' h => wp2_ite (fun _ => ⟨rfl, h⟩) fun _ => ?_
  refine step2' (sysTls_twin .verifyPaths h) fun x s s' h => wp2_ite (fun _ => ⟨rfl, h⟩) fun _ => ?_
  refine step2' (sysTls_twin (.connect i) h) fun x s s' h => wp2_ite (fun _ => ?_) fun _ => ?_
  · exact Sync.run (by sync [cleanup_sync hl hk, tlsErr_sync, setErrNo_sync]) _ _ h
  refine step2' ((addLog_sync hl _ _).run _ _ h) fun _ s s' h => ?_
  refine step2' (sysTls_twin (.handshake i) h) fun x s s' h => wp2_ite (fun _ => ?_) fun _ => ?_
  · exact Sync.run (by sync [cleanup_sync hl hk, tlsErr_sync, setErrNo_sync]) _ _ h
  refine step2' ((addLog_sync hl _ _).run _ _ h) fun _ s s' h => ?_
  refine step2' (sysTls_twin (.peerCert i) h) fun x s s' h => wp2_ite (fun _ => ?_) fun _ => ?_
  · exact Sync.run (by sync [cleanup_sync hl hk]) _ _ h
  refine step2' (sysTls_twin (.verifyResult i) h) fun x s s' h => ?_
  exact Sync.run (by sync [accept_sync, addLog_sync hl, x509Text_sync, cleanup_sync hl hk]) _ _ h

/-! ### Login -/

theorem authenticateClient_sync (hl : l) (hk : k) (ha : a) : Sync W (Mates W F r a l k) authenticateClient := by
  unfold authenticateClient authPlainM authLoginM authXOAuth2M
  sync [credential_sync, addLog_sync hl, sendPtrFb_sync hl hk, Sync.gets fun _ _ h => Mates.options h ha]

theorem authenticateIfNeeded_sync (hl : l) (hk : k) (ha : a) : Sync W (Mates W F r a l k) authenticateIfNeeded := by
  unfold authenticateIfNeeded
  sync [credential_sync, authenticateClient_sync hl hk ha]

/-! ### Establishing a session -/

theorem Mates.less (h : Mates W F True True l k s s') : Mates W F r a l k s s' :=
  { h with response := fun _ => h.response trivial, options := fun _ => h.options trivial }

theorem Mates.least (h : Mates W F r a l k s s') : Mates W F False False l k s s' :=
  { h with response := fun f => f.elim, options := fun f => f.elim }

/-- What follows a successful EHLO may rely on everything. -/
theorem identified {m rest : M Int}
    (hm : ∀ s s', Mates W F r a l k s s' →
      wp2 W m m (fun x y t t' => x = y ∧ Mates W F r a l k t t' ∧ (x ≠ 250 ∨ Mates W F True True l k t t')) (Mates W F r a l k) s s')
    (hr : Sync W (Mates W F True True l k) rest) : Sync W (Mates W F r a l k) (do let code ← m; if code ≠ 250 then pure code else rest) := by
  refine ⟨fun s s' h => wp2_bind (wp2_mono (hm s s' h) (fun x y t t' q => ?_) fun _ _ h => h)⟩
  obtain ⟨rfl, h, hx⟩ := q
  refine wp2_ite (fun _ => ⟨rfl, h⟩) fun h250 => ?_
  exact wp2_mono (hr.run _ _ (hx.resolve_left h250)) (fun _ _ _ _ q => ⟨q.1, q.2.less⟩) fun _ _ q => q.less

theorem secured (hl : l) (hk : k) :
    Sync W (Mates W F r a l k) (do let code ← getServerSecureIdentification; if code ≠ 250 then pure code else authenticateIfNeeded) := by
  refine identified (fun s s' h => ?_) (authenticateIfNeeded_sync hl hk trivial)
  unfold getServerSecureIdentification
  exact step2 (addLog_sync hl _ _) h fun _ s s' h => identify_twin hl hk (by decide) (by decide) h

theorem establishOpportunistic_sync (hl : l) (hk : k) (hr : r) : Sync W (Mates W F r a l k) establishOpportunistic := by
  unfold establishOpportunistic upgradeToSecureConnection
  refine Sync.bind (Sync.gets fun _ _ h => h.response hr) fun x => ?_
  sync [addLog_sync hl, sendRawFb_sync hl hk, startTLSNegotiation_sync hl hk, secured hl hk, setKeep_sync]

theorem establishForced_sync (hl : l) (hk : k) : Sync W (Mates W F r a l k) establishForced := by
  unfold establishForced
  sync [startTLSNegotiation_sync hl hk, checkServerGreetings_sync hl hk, secured hl hk]

theorem establishGreeted_sync (hl : l) (hk : k) {rest : M Int} (hr : Sync W (Mates W F True True l k) rest) :
    Sync W (Mates W F r a l k) (establishGreeted rest) := by
  unfold establishGreeted sendServerIdentification
  sync [checkServerGreetings_sync hl hk, identified (fun _ _ h => identify_twin hl hk (by decide) (by decide) h) hr]

theorem establish_twin (hc : s.client.isConnected = false) (h : Mates W F r a l k s s') :
    wp2 W establish establish (fun x y t t' => x = y ∧ ∃ F, Mates W F False False True (x = 0) t t') (fun t t' => ∃ F, Mates W F False False True False t t') s s' := by
  unfold establish
  refine wp2_bind (wp2_mono (initializeSession_twin h hc) (fun x y t t' q => ?_) fun t t' ⟨F, h⟩ => ⟨F, h.least⟩)
  obtain ⟨rfl, F, h⟩ := q
  refine wp2_ite (fun _ => ⟨rfl, F, h.least⟩) fun hx => ?_
  have hx : x = 0 := Decidable.not_not.mp hx
  have h : Mates W F r a True True t t' := { h with sock := fun _ => h.sock (.inl hx) }
  refine wp2_mono (Sync.run ?_ _ _ h) (fun _ _ t t' q => ⟨q.1, F, { q.2.least with sock := fun _ => q.2.sock (.inl trivial) }⟩)
    fun t t' q => ⟨F, { q.least with sock := fun _ => q.sock (.inl trivial) }⟩
  sync [kind_sync, establishGreeted_sync trivial trivial (authenticateIfNeeded_sync trivial trivial trivial),
    establishGreeted_sync trivial trivial (establishOpportunistic_sync trivial trivial trivial), establishForced_sync trivial trivial]

/-! ### Sending -/

theorem mailFromLoop_sync (hl : l) (hk : k) : ∀ x fs, Sync W (Mates W F r a l k) (mailFromLoop x fs)
  | _, [] => Sync.pure
  | _, _ :: fs => by
    unfold mailFromLoop
    sync [addLog_sync hl, sendPtrFb_sync hl hk, mailFromLoop_sync hl hk _ fs]

theorem addMailRecipients_sync (hl : l) (hk : k) : ∀ x as, Sync W (Mates W F r a l k) (addMailRecipients x as)
  | _, [] => Sync.pure
  | _, _ :: as => by
    unfold addMailRecipients
    sync [addLog_sync hl, sendPtrFb_sync hl hk, addMailRecipients_sync hl hk _ as]

theorem arrElems_sync {α : Type} (x : Arr α) : Sync W (Mates W F r a l k) (arrElems x) := by
  unfold arrElems
  sync []

theorem recipientsLoop_sync (hl : l) (hk : k) : ∀ as, Sync W (Mates W F r a l k) (recipientsLoop as)
  | [] => Sync.pure
  | _ :: as => by
    unfold recipientsLoop
    sync [recipientsLoop_sync hl hk as, arrElems_sync, addMailRecipients_sync hl hk]

theorem setMailRecipients_sync (hl : l) (hk : k) (m : Message) : Sync W (Mates W F r a l k) (setMailRecipients m) := by
  unfold setMailRecipients
  sync [mailFromLoop_sync hl hk, recipientsLoop_sync hl hk]

theorem addMailHeader_sync (hl : l) (hk : k) (f v : Bytes) (e : Int) : Sync W (Mates W F r a l k) (addMailHeader f v e) := by
  unfold addMailHeader
  sync [addLog_sync hl, sendPtr_sync hl hk]

theorem addressHeader_sync (hl : l) (hk : k) (f : Bytes) (x : Arr MessageAddress) : Sync W (Mates W F r a l k) (addressHeader f x) := by
  unfold addressHeader
  sync [arrElems_sync, addMailHeader_sync hl hk]

theorem setMailHeaders_sync (hl : l) (hk : k) (m : Message) : Sync W (Mates W F r a l k) (setMailHeaders m) := by
  unfold setMailHeaders
  sync [addLog_sync hl, sendPtrFb_sync hl hk, addMailHeader_sync hl hk, addressHeader_sync hl hk, sendPtr_sync hl hk]

theorem base64EncodedFile_sync (x : Attachment) : Sync W (Mates W F r a l k) (base64EncodedFile x) := by
  unfold base64EncodedFile
  sync [sysReadFile_sync]

theorem attachmentsLoop_sync : ∀ as, Sync W (Mates W F r a l k) (attachmentsLoop as)
  | [] => Sync.pure
  | _ :: as => by
    unfold attachmentsLoop
    sync [base64EncodedFile_sync, attachmentsLoop_sync as]

theorem fullBody_sync (m : Message) : Sync W (Mates W F r a l k) (fullBody m) := by
  unfold fullBody createAttachmentsText
  sync [arrElems_sync, attachmentsLoop_sync]

theorem sendPieces_sync (hl : l) (hk : k) : ∀ ps, Sync W (Mates W F r a l k) (sendPieces ps)
  | [] => Sync.pure
  | _ :: ps => by
    unfold sendPieces
    sync [sendPtr_sync hl hk, sendPieces_sync hl hk ps]

theorem sendBodyText_sync (hl : l) (hk : k) (b : Bytes) : Sync W (Mates W F r a l k) (sendBodyText b) := by
  unfold sendBodyText
  sync [sendPieces_sync hl hk, sendPtr_sync hl hk]

theorem setMailBody_sync (hl : l) (hk : k) (m : Message) : Sync W (Mates W F r a l k) (setMailBody m) := by
  unfold setMailBody
  sync [addLog_sync hl, fullBody_sync, sendBodyText_sync hl hk, sendPtrFb_sync hl hk, batch_sync, sendQuit_sync hl hk]

theorem sendMailRest_sync (hl : l) (hk : k) (m : Message) : Sync W (Mates W F r a l k) (sendMailRest m) := by
  unfold sendMailRest
  sync [setMailHeaders_sync hl hk, setMailBody_sync hl hk, batch_sync, cleanup_sync hl hk]

theorem sendMailConnected_sync (hl : l) (hk : k) (m : Message) : Sync W (Mates W F r a l k) (sendMailConnected m) := by
  unfold sendMailConnected
  sync [setConnected_sync hl hk, setMailRecipients_sync hl hk, sendMailRest_sync hl hk]

/-- Two clients with the same settings, at any time between two calls. -/
def Paired (W : Worlds) (l : Prop) (s s' : St) : Prop := ∃ F, Mates W F False False l False s s'

theorem sendMailConnected_paired (m : Message) (h : Mates W F r a True True s s') :
    wp2 W (sendMailConnected m) (sendMailConnected m) (fun x y t t' => x = y ∧ Paired W True t t') (Paired W True) s s' :=
  wp2_mono ((sendMailConnected_sync trivial trivial m).run _ _ h) (fun _ _ t t' q => ⟨q.1, F, { q.2.least with sock := fun _ => q.2.sock (.inl trivial) }⟩)
    fun t t' q => ⟨F, { q.least with sock := fun _ => q.sock (.inl trivial) }⟩

theorem sendMail_paired (m : Message) (h : Paired W l s s') :
    wp2 W (sendMail m) (sendMail m) (fun x y t t' => x = y ∧ Paired W True t t') (Paired W True) s s' := by
  unfold sendMail
  obtain ⟨F, h⟩ := h
  refine wp2_bind ?_
  rw [wp2_gets, ← h.connected]
  refine wp2_ite (fun hc => ?_) fun hc => ?_
  · exact sendMailConnected_paired m { h with log := fun _ => h.log (.inr hc), sock := fun _ => h.sock (.inr hc) }
  · have hc : s.client.isConnected = false := by simpa using hc
    refine wp2_bind (wp2_mono (establish_twin hc h) (fun x y t t' q => ?_) fun _ _ h => h)
    obtain ⟨rfl, F, h⟩ := q
    refine wp2_ite (fun _ => ⟨rfl, F, { h with sock := fun f => h.sock (f.imp False.elim id) }⟩) fun hx => ?_
    exact sendMailConnected_paired m { h with sock := fun _ => h.sock (.inl (Decidable.not_not.mp hx)) }

end Verif.Proofs
