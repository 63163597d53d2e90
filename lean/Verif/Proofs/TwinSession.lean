import Verif.Proofs.Twins
/-!
# Two sessions side by side
-/
namespace Verif.Proofs
open Verif Verif.Model Verif.Spec

variable {W : Worlds} {F : Int → Prop} {r a l k : Prop}

/-! ### Sending and cleaning up -/

theorem sendRawWith_sync (hk : k) {c : M Unit} (hc : Sync W (Mates W F r a l k) c) (kd : SendKind) (cmd : Bytes) (err : Int) :
    Sync W (Mates W F r a l k) (sendRawWith c kd cmd err) := by
  unfold sendRawWith
  sync [sock_bind hk, sendRaw_sync', setErrNo_sync, hc]

/-- Reading the pointer to the TLS connection. -/
theorem bio_twin {β γ : Type} {f f' : Option Bio → M γ} {Q : γ → γ → St → St → Prop} {E : St → St → Prop} {s s' : St} (h : Mates W F r a l k s s')
    (hn : wp2 W (f none) (f' none) Q E s s')
    (hs : ∀ b, F b.fd → wp2 W (f (some (bioLater W.h.length b))) (f' (some (bioLater W.h'.length b))) Q E s s') :
    wp2 W (M.gets (·.bio) >>= f) (M.gets (·.bio) >>= f') Q E s s' := by
  refine wp2_bind ?_
  rw [wp2_gets]
  obtain ⟨b, e, e', hb⟩ := h.bio
  rw [e, e']
  cases b with
  | none => exact hn
  | some b => exact hs b (hb b rfl)

theorem sendBioWith_sync {c : M Unit} (hc : Sync W (Mates W F r a l k) c) (kd : SendKind) (cmd : Bytes) (err : Int) :
    Sync W (Mates W F r a l k) (sendBioWith c kd cmd err) := by
  unfold sendBioWith
  refine ⟨fun s s' h => bio_twin (β := Unit) h ?_ fun b hb => ?_⟩
  · exact Sync.run (by sync [tlsErr_sync, setErrNo_sync, hc]) _ _ h
  · refine wp2_bind (wp2_mono (sysSend_twin kd (.tls b.id b.fd) (cstr cmd) hb h) (fun x y t t' q => ?_) fun _ _ h => h)
    obtain ⟨rfl, q⟩ := q
    exact Sync.run (by sync [tlsErr_sync, setErrNo_sync, hc]) _ _ q

theorem sendPtrWith_sync (hk : k) {c : M Unit} (hc : Sync W (Mates W F r a l k) c) (kd : SendKind) (cmd : Bytes) (err : Int) :
    Sync W (Mates W F r a l k) (sendPtrWith c kd cmd err) := by
  unfold sendPtrWith
  sync [ptrRaw_sync, kind_sync, sendRawWith_sync hk hc, sendBioWith_sync hc]

theorem freeTls_sync : Sync W (Mates W F r a l k) freeTls := by
  unfold freeTls
  refine Sync.bind (setCtx_sync false) fun _ => ⟨fun s s' h => bio_twin (β := Unit) h ?_ fun b hb => ?_⟩
  · exact Sync.run (Sync.bind Sync.pure fun _ => noBio_sync) _ _ h
  · refine wp2_bind ?_
    show wp2 W (M.emit _) (M.emit _) _ _ _ _
    rw [wp2_emit]
    exact noBio_sync.run _ _ (h.event (.bioFree b.id))

theorem closeSocket_sync (hk : k) : Sync W (Mates W F r a l k) closeSocket := by
  unfold closeSocket
  sync [sock_bind hk, sysClose_sync, setSock_sync]

theorem closeSession_sync (hl : l) (hk : k) : Sync W (Mates W F r a l k) closeSession := by
  unfold closeSession
  sync [setConnected_sync hl hk, kind_sync, closeSocket_sync hk, freeTls_sync]

theorem sendQuitWith_sync (hl : l) (hk : k) {c : M Unit} (hc : Sync W (Mates W F r a l k) c) : Sync W (Mates W F r a l k) (sendQuitWith c) := by
  unfold sendQuitWith
  sync [addLog_sync hl, sendPtrWith_sync hk hc]

theorem cleanupN_sync (hl : l) (hk : k) : ∀ n, Sync W (Mates W F r a l k) (cleanupN n)
  | 0 => by unfold cleanupN; exact Sync.stop
  | n + 1 => by
    unfold cleanupN
    sync [batch_sync, connected_sync, sendQuitWith_sync hl hk (cleanupN_sync hl hk n), closeSession_sync hl hk]

theorem cleanup_sync (hl : l) (hk : k) : Sync W (Mates W F r a l k) cleanup := by
  unfold cleanup
  sync [depth_sync, cleanupN_sync hl hk]

theorem sendRaw_sync (hl : l) (hk : k) (kd : SendKind) (cmd : Bytes) (err : Int) : Sync W (Mates W F r a l k) (sendRaw kd cmd err) :=
  sendRawWith_sync hk (cleanup_sync hl hk) kd cmd err

theorem sendPtr_sync (hl : l) (hk : k) (kd : SendKind) (cmd : Bytes) (err : Int) : Sync W (Mates W F r a l k) (sendPtr kd cmd err) :=
  sendPtrWith_sync hk (cleanup_sync hl hk) kd cmd err

theorem sendQuit_sync (hl : l) (hk : k) : Sync W (Mates W F r a l k) sendQuit := sendQuitWith_sync hl hk (cleanup_sync hl hk)

/-! ### Receiving -/

theorem logIfErr_sync (hl : l) (x : SysRes) : Sync W (Mates W F r a l k) (logIfErr x) := by
  unfold logIfErr
  sync [logErrno_sync hl]

theorem setNonBlocking_sync (hl : l) (hk : k) : Sync W (Mates W F r a l k) setNonBlocking := by
  unfold setNonBlocking
  sync [sock_bind hk, sysFcntlGet_sync, logIfErr_sync hl, sysFcntlSet_sync, logErrno_sync hl]

theorem setBlocking_sync (hl : l) (hk : k) : Sync W (Mates W F r a l k) setBlocking := by
  unfold setBlocking
  sync [sock_bind hk, sysFcntlGet_sync, sysFcntlSet_sync, logErrno_sync hl]

theorem rawReplyLoop_sync (hk : k) : ∀ n w acc got, Sync W (Mates W F r a l k) (rawReplyLoop n w acc got)
  | 0, _, _, _ => by unfold rawReplyLoop; exact Sync.stop
  | n + 1, w, acc, got => by
    unfold rawReplyLoop
    sync [sock_bind hk, timeout_sync, recvRaw_sync, sysSleep_sync, rawReplyLoop_sync hk n]

/-- With a reply the last responses agree. -/
def TwinReplied (W : Worlds) (F : Int → Prop) (r a l k : Prop) (bad : Int → Prop) (x y : Int) (t t' : St) : Prop :=
  x = y ∧ Mates W F r a l k t t' ∧ (bad x ∨ Mates W F True a l k t t')

theorem heard_twin (hl : l) (acc : Bytes) {s s' : St} (h : Mates W F r a l k s s') :
    wp2 W (do setLastServerResponse acc; addLog acc b!"s"; pure (extractReturnCode (some acc)))
      (do setLastServerResponse acc; addLog acc b!"s"; pure (extractReturnCode (some acc))) (TwinReplied W F r a l k (· = -1)) (Mates W F r a l k) s s' := by
  refine wp2_bind ?_
  show wp2 W (M.modifyMem _ _) (M.modifyMem _ _) _ _ _ _
  rw [wp2_modifyMem]
  have h1 : Mates W F True a l k { s with client := { s.client with lastResponse := some (cstr acc) }, mem := s.mem ++ [.response (cstr acc)] }
      { s' with client := { s'.client with lastResponse := some (cstr acc) }, mem := s'.mem ++ [.response (cstr acc)] } :=
    { h with same := { h.same with }, response := fun _ => rfl }
  refine wp2_bind (wp2_mono ((addLog_sync hl acc b!"s").run _ _ h1) (fun _ _ t t' q => ?_) fun t t' q => { q with response := fun _ => q.response trivial })
  exact ⟨rfl, { q.2 with response := fun _ => q.2.response trivial }, .inr q.2⟩

theorem getRawReply_replied (hl : l) (hk : k) {s s' : St} (h : Mates W F r a l k s s') :
    wp2 W getRawReply getRawReply (TwinReplied W F r a l k (· = -1)) (Mates W F r a l k) s s' := by
  unfold getRawReply
  have step : ∀ {α β : Type} {m : M α} {f : α → M β} {Q : β → β → St → St → Prop} {s s' : St}, Sync W (Mates W F r a l k) m → Mates W F r a l k s s' →
      (∀ x t t', Mates W F r a l k t t' → wp2 W (f x) (f x) Q (Mates W F r a l k) t t') → wp2 W (m >>= f) (m >>= f) Q (Mates W F r a l k) s s' := by
    intro α β m f Q s s' hm h hf
    exact wp2_bind (wp2_mono (hm.run _ _ h) (fun x y t t' q => by obtain ⟨rfl, q⟩ := q; exact hf x t t' q) fun _ _ h => h)
  refine step (setNonBlocking_sync hl hk) h fun _ t t' h => ?_
  refine step fuel_sync h fun fuel t t' h => ?_
  refine step (rawReplyLoop_sync hk _ _ _ _) h fun p t t' h => ?_
  obtain ⟨wait, acc, got⟩ := p
  refine step (setBlocking_sync hl hk) h fun _ t t' h => ?_
  refine step timeout_sync h fun n t t' h => ?_
  exact wp2_ite (fun _ => heard_twin hl acc h) fun _ => ⟨rfl, h, .inl rfl⟩

theorem step2 {α β : Type} {m : M α} {f : α → M β} {R : St → St → Prop} {Q : β → β → St → St → Prop} {s s' : St} (hm : Sync W R m) (h : R s s')
    (hf : ∀ x t t', R t t' → wp2 W (f x) (f x) Q R t t') : wp2 W (m >>= f) (m >>= f) Q R s s' :=
  wp2_bind (wp2_mono (hm.run _ _ h) (fun x y t t' q => by obtain ⟨rfl, q⟩ := q; exact hf x t t' q) fun _ _ h => h)

theorem bioRead_sync : Sync W (Mates W F r a l k) bioRead := by
  unfold bioRead
  exact ⟨fun s s' h => bio_twin (β := Unit) h ⟨rfl, h⟩ fun b hb => sysRecv_twin (.tls b.id b.fd) hb h⟩

theorem waitLoop_sync {read : M RecvRes} (hr : Sync W (Mates W F r a l k) read) : ∀ n, Sync W (Mates W F r a l k) (waitLoop read n)
  | 0 => by unfold waitLoop; sync [hr]
  | n + 1 => by
    unfold waitLoop
    sync [hr, sysSleep_sync, waitLoop_sync hr n]

theorem getTlsReply_replied (hl : l) {s s' : St} (h : Mates W F r a l k s s') :
    wp2 W getTlsReply getTlsReply (TwinReplied W F r a l k (· = -1)) (Mates W F r a l k) s s' := by
  unfold getTlsReply
  refine step2 timeout_sync h fun n t t' h => ?_
  refine step2 (waitLoop_sync bioRead_sync n) h fun p t t' h => ?_
  cases p with
  | none => exact ⟨rfl, h, .inl rfl⟩
  | some d => exact heard_twin hl (bufferText d) h

theorem getServerReply_replied (hl : l) (hk : k) {s s' : St} (h : Mates W F r a l k s s') :
    wp2 W getServerReply getServerReply (TwinReplied W F r a l k (· = -1)) (Mates W F r a l k) s s' := by
  unfold getServerReply
  refine step2 kind_sync h fun n t t' h => ?_
  exact wp2_ite (fun _ => getRawReply_replied hl hk h) fun _ => getTlsReply_replied hl h

/-! ### Commands with a reply -/

theorem feedback_replied (hl : l) (hk : k) {send reply : M Int} {err timeout : Int} (hs : Sync W (Mates W F r a l k) send)
    (hr : ∀ s s', Mates W F r a l k s s' → wp2 W reply reply (TwinReplied W F r a l k (· = -1)) (Mates W F r a l k) s s') {s s' : St} (h : Mates W F r a l k s s') :
    wp2 W (do if (← send) ≠ 0 then pure err else (do let code ← reply; if code ≠ -1 then pure code else (do cleanup; pure timeout)))
      (do if (← send) ≠ 0 then pure err else (do let code ← reply; if code ≠ -1 then pure code else (do cleanup; pure timeout)))
      (TwinReplied W F r a l k (fun x => x = err ∨ x = timeout)) (Mates W F r a l k) s s' := by
  refine step2 hs h fun x t t' h => wp2_ite (fun _ => ⟨rfl, h, .inl (.inl rfl)⟩) fun _ => ?_
  refine wp2_bind (wp2_mono (hr _ _ h) (fun x y t t' q => ?_) fun _ _ h => h)
  obtain ⟨rfl, h, hx⟩ := q
  refine wp2_ite (fun hne => ⟨rfl, h, .inr (hx.resolve_left hne)⟩) fun _ => ?_
  exact step2 (cleanup_sync hl hk) h fun _ t t' h => ⟨rfl, h, .inl (.inr rfl)⟩

theorem sendRawFb_replied (hl : l) (hk : k) (cmd : Bytes) (err timeout : Int) {s s' : St} (h : Mates W F r a l k s s') :
    wp2 W (sendRawFb cmd err timeout) (sendRawFb cmd err timeout) (TwinReplied W F r a l k (fun x => x = err ∨ x = timeout)) (Mates W F r a l k) s s' :=
  feedback_replied hl hk (sendRaw_sync hl hk .cmd cmd err) (fun _ _ h => getRawReply_replied hl hk h) h

theorem sendTlsFb_replied (hl : l) (hk : k) (cmd : Bytes) (err timeout : Int) {s s' : St} (h : Mates W F r a l k s s') :
    wp2 W (sendTlsFb cmd err timeout) (sendTlsFb cmd err timeout) (TwinReplied W F r a l k (fun x => x = err ∨ x = timeout)) (Mates W F r a l k) s s' :=
  feedback_replied hl hk (sendBioWith_sync (cleanup_sync hl hk) .cmd cmd err) (fun _ _ h => getTlsReply_replied hl h) h

theorem sendFb_replied (hl : l) (hk : k) (cmd : Bytes) (err timeout : Int) {s s' : St} (h : Mates W F r a l k s s') :
    wp2 W (sendFb cmd err timeout) (sendFb cmd err timeout) (TwinReplied W F r a l k (fun x => x = err ∨ x = timeout)) (Mates W F r a l k) s s' := by
  unfold sendFb
  refine step2 kind_sync h fun x t t' h => bio_twin (β := Unit) h ?_ fun b hb => ?_
  · exact wp2_ite (fun _ => sendRawFb_replied hl hk cmd err timeout h) fun _ => sendTlsFb_replied hl hk cmd err timeout h
  · exact wp2_ite (fun _ => sendRawFb_replied hl hk cmd err timeout h) fun _ => sendTlsFb_replied hl hk cmd err timeout h

theorem TwinReplied.sync {m : M Int} {bad : Int → Prop}
    (h : ∀ s s', Mates W F r a l k s s' → wp2 W m m (TwinReplied W F r a l k bad) (Mates W F r a l k) s s') : Sync W (Mates W F r a l k) m :=
  ⟨fun s s' hr => wp2_mono (h s s' hr) (fun _ _ _ _ q => ⟨q.1, q.2.1⟩) fun _ _ h => h⟩

theorem sendRawFb_sync (hl : l) (hk : k) (cmd : Bytes) (err timeout : Int) : Sync W (Mates W F r a l k) (sendRawFb cmd err timeout) :=
  TwinReplied.sync fun _ _ h => sendRawFb_replied hl hk cmd err timeout h

theorem sendFb_sync (hl : l) (hk : k) (cmd : Bytes) (err timeout : Int) : Sync W (Mates W F r a l k) (sendFb cmd err timeout) :=
  TwinReplied.sync fun _ _ h => sendFb_replied hl hk cmd err timeout h

theorem sendPtrFb_sync (hl : l) (hk : k) (cmd : Bytes) (err timeout : Int) : Sync W (Mates W F r a l k) (sendPtrFb cmd err timeout) := by
  unfold sendPtrFb
  sync [ptrRaw_sync, sendRawFb_sync hl hk, sendFb_sync hl hk]

/-! ### Opening the session -/

theorem connectPOSIX_sync (hl : l) (hk : k) (ip : Bytes) : Sync W (Mates W F r a l k) (connectPOSIX ip) := by
  unfold connectPOSIX
  sync [sock_bind hk, port_sync, timeout_sync, sysConnect_sync, sysSelect_sync, sysSockopt_sync, setBlocking_sync hl hk, logErrno_sync hl]

/-- A new socket is in the same mode in both worlds. -/
theorem nonblocking_opened (fd : Nat) (h : Hist) : nonblocking fd (h ++ [.socket (.val fd)]) = false := by
  unfold nonblocking
  rw [List.foldl_append]
  simp

/-- Opening a session makes the logs and the sockets equal, whatever they were. -/
theorem initializeSession_twin {s s' : St} (h : Mates W F r a l k s s') (hc : s.client.isConnected = false) :
    wp2 W initializeSession initializeSession (fun x y t t' => x = y ∧ ∃ F, Mates W F r a True (x = 0) t t') (fun t t' => ∃ F, Mates W F r a True False t t') s s' := by
  unfold initializeSession initializePOSIX
  refine wp2_bind ?_
  rw [wp2_modifyMem]
  have h1 : Mates W F r a True False { s with client := { s.client with log := some .fresh }, mem := s.mem ++ [.freshLog] }
      { s' with client := { s'.client with log := some .fresh }, mem := s'.mem ++ [.freshLog] } :=
    { h with same := { h.same with }, log := fun _ => rfl, sock := fun f => (f.elim id fun f => by rw [hc] at f; cases f).elim }
  refine wp2_bind ?_
  show wp2 W (M.ask _ _) (M.ask _ _) _ _ _ _
  rw [wp2_ask]
  obtain ⟨x, e1, e2⟩ := h.hist
  have he : W.e.socket s.hist = W.e'.socket s'.hist := by rw [e1, e2]; exact W.alike.socket x
  simp only [he]
  cases hx : W.e'.socket s'.hist with
  | err e =>
    refine wp2_bind ?_
    rw [wp2_modify]
    have h2 := h1.event (.socket (.err e))
    have h3 : Mates W F r a True False { s with client := { s.client with log := some .fresh, sock := -1 }, hist := s.hist ++ [.socket (.err e)], mem := s.mem ++ [.freshLog] }
        { s' with client := { s'.client with log := some .fresh, sock := -1 }, hist := s'.hist ++ [.socket (.err e)], mem := s'.mem ++ [.freshLog] } :=
      { h2 with same := { h2.same with }, sock := fun f => (f.elim id fun f => by rw [show s.client.isConnected = true from f] at hc; cases hc).elim }
    refine wp2_bind (wp2_mono ((logErrno_sync trivial e).run _ _ h3) (fun x y t t' q => ?_) fun t t' q => ⟨F, q⟩)
    exact ⟨rfl, F, { q.2 with sock := fun f => q.2.sock (f.imp (fun f => by cases f) id) }⟩
  | val fd =>
    refine wp2_bind ?_
    rw [wp2_modify]
    have h2 := h1.event (.socket (.val fd))
    have h3 : Mates W (fun v => F v ∨ v = fd) r a True True { s with client := { s.client with log := some .fresh, sock := fd }, hist := s.hist ++ [.socket (.val fd)], mem := s.mem ++ [.freshLog] }
        { s' with client := { s'.client with log := some .fresh, sock := fd }, hist := s'.hist ++ [.socket (.val fd)], mem := s'.mem ++ [.freshLog] } := by
      refine { h2 with same := { h2.same with }, sock := fun _ => ⟨rfl, .inr rfl⟩, zero := .inl h2.zero, modes := ?_, bio := ?_ }
      · obtain ⟨b, e1, e2, hb⟩ := h2.bio
        exact ⟨b, e1, e2, fun x hx => .inl (hb x hx)⟩
      · rintro v (hv | rfl)
        · exact h2.modes v hv
        · exact (nonblocking_opened fd _).trans (nonblocking_opened fd _).symm
    refine wp2_mono (Sync.run ?_ _ _ h3) (fun x y t t' q => ⟨q.1, _, { q.2 with sock := fun _ => q.2.sock (.inl trivial) }⟩)
      fun t t' q => ⟨_, { q with sock := fun _ => q.sock (.inl trivial) }⟩
    sync [name_sync, sysResolve_sync, setNonBlocking_sync trivial trivial, port_sync, addLog_sync trivial, connectPOSIX_sync trivial trivial]

theorem greetingResult_sync (hl : l) (x : Option Bytes) : Sync W (Mates W F r a l k) (greetingResult x) := by
  unfold greetingResult
  sync [addLog_sync hl]

theorem checkServerGreetings_sync (hl : l) (hk : k) : Sync W (Mates W F r a l k) checkServerGreetings := by
  unfold checkServerGreetings
  sync [kind_sync, waitLoop_sync bioRead_sync, timeout_sync, greetingResult_sync hl, sock_bind hk, waitLoop_sync (recvRaw_sync _ _)]

theorem lastResponseText_sync (hr : r) : Sync W (Mates W F r a l k) lastResponseText := by
  unfold lastResponseText
  exact Sync.bind (Sync.gets fun _ _ h => h.response hr) fun x => by cases x <;> sync []

theorem ehloLoop_twin (hl : l) (hk : k) {c : Int} (hc : c ≠ 250) : ∀ n o s s', Mates W F True a l k s s' →
    wp2 W (ehloLoop c n o) (ehloLoop c n o) (fun x y t t' => x = y ∧ Mates W F True a l k t t' ∧ ∀ e, x = .inl e → e ≠ 250) (Mates W F True a l k) s s'
  | 0, _, _, _, h => ⟨rfl, h⟩
  | n + 1, o, s, s', h => by
    unfold ehloLoop
    refine wp2_ite (fun _ => ⟨rfl, h, fun _ f => nomatch f⟩) fun _ => ?_
    refine step2 (TwinReplied.sync fun _ _ h => getServerReply_replied hl hk h) h fun x t t' h => ?_
    refine wp2_ite (fun _ => ⟨rfl, h, fun e f => by cases f; exact hc⟩) fun _ => ?_
    refine wp2_ite (fun hx => ⟨rfl, h, fun e f => by cases f; exact hx⟩) fun _ => ?_
    exact step2 (lastResponseText_sync trivial) h fun x t t' h => ehloLoop_twin hl hk hc n _ _ _ h

/-- After EHLO was answered, the last responses and the options agree, whatever they were. -/
theorem identify_twin (hl : l) (hk : k) {err timeout : Int} (he : err ≠ 250) (ht : timeout ≠ 250) {s s' : St} (h : Mates W F r a l k s s') :
    wp2 W (identify err timeout) (identify err timeout) (fun x y t t' => x = y ∧ Mates W F r a l k t t' ∧ (x ≠ 250 ∨ Mates W F True True l k t t')) (Mates W F r a l k) s s' := by
  unfold identify
  refine step2 (addLog_sync hl _ _) h fun _ t t' h => ?_
  refine wp2_bind (wp2_mono (sendFb_replied hl hk ehloCmd err timeout h) (fun x y t t' q => ?_) fun _ _ h => h)
  obtain ⟨rfl, h, hx⟩ := q
  refine wp2_ite (fun hne => ⟨rfl, h, .inl hne⟩) fun hne => ?_
  have hne := Decidable.not_not.mp hne
  have h1 : Mates W F True a l k t t' := hx.resolve_left fun f => f.elim (fun f => he (f.symm.trans hne)) fun f => ht (f.symm.trans hne)
  have back : ∀ {t t'}, Mates W F True a l k t t' → Mates W F r a l k t t' := fun h => { h with response := fun _ => h.response trivial }
  have step : ∀ {α β : Type} {m : M α} {f : α → M β} {Q : β → β → St → St → Prop} {s s' : St}, Sync W (Mates W F True a l k) m → Mates W F True a l k s s' →
      (∀ x t t', Mates W F True a l k t t' → wp2 W (f x) (f x) Q (Mates W F r a l k) t t') → wp2 W (m >>= f) (m >>= f) Q (Mates W F r a l k) s s' := by
    intro α β m f Q s s' hm h hf
    exact wp2_bind (wp2_mono (hm.run _ _ h) (fun x y t t' q => by obtain ⟨rfl, q⟩ := q; exact hf x t t' q) fun _ _ h => back h)
  refine step (lastResponseText_sync trivial) h1 fun first t t' h => ?_
  refine step fuel_sync h fun fuel t t' h => ?_
  refine wp2_bind (wp2_mono (ehloLoop_twin hl hk ht _ _ _ _ h) (fun x y t t' q => ?_) fun _ _ h => back h)
  obtain ⟨rfl, h, hx⟩ := q
  cases x with
  | inl e => exact ⟨rfl, back h, .inl (hx e rfl)⟩
  | inr o =>
    refine wp2_bind ?_
    show wp2 W (M.modifyMem _ _) (M.modifyMem _ _) _ _ _ _
    rw [wp2_modifyMem]
    have h2 : Mates W F True True l k { t with client := { t.client with authOptions := extractAuthOptions (some o) }, mem := t.mem ++ [.options (cstr o)] }
        { t' with client := { t'.client with authOptions := extractAuthOptions (some o) }, mem := t'.mem ++ [.options (cstr o)] } :=
      { h with same := { h.same with }, options := fun _ => rfl }
    exact ⟨rfl, { h2 with response := fun _ => h2.response trivial, options := fun _ => h2.options trivial }, .inr h2⟩

end Verif.Proofs
