import Verif.Proofs.Patience
/-!
# C91: the time to wait, in the whole life of a client
-/
namespace Verif.Proofs
open Verif Verif.Model Verif.Spec

variable {α β : Type} {env : Env} {n T T' : Nat} {h0 : Hist}

theorem Patient.gets {f : Client → α} (hf : ∀ c T, f { c with timeout := T } = f c) : Patient env n T T' h0 (M.gets f) := .self (.gets fun h => h.get hf) (.gets _)

theorem Patient.modify {f : Client → Client} (hf : ∀ c T, f { c with timeout := T } = { f c with timeout := T }) (hc : ∀ c, (f c).timeout = c.timeout) : Patient env n T T' h0 (M.modify f) :=
  .self (slow_modify hf hc) (.modify fun _ => .same rfl)

theorem Patient.ask {f : Env → Hist → α} {ev : α → Ev} : Patient env n T T' h0 (M.ask f ev) := .self slow_ask (.ask fun _ _ => ⟨_, rfl⟩)

theorem pa_kind : Patient env n T T' h0 (M.gets (·.kind)) := .gets fun _ _ => rfl
theorem pa_sock : Patient env n T T' h0 (M.gets (·.sock)) := .gets fun _ _ => rfl
theorem pa_port : Patient env n T T' h0 (M.gets (·.port)) := .gets fun _ _ => rfl
theorem pa_name : Patient env n T T' h0 (M.gets (·.serverName)) := .gets fun _ _ => rfl
theorem pa_bio : Patient env n T T' h0 (M.gets (·.bio)) := .gets fun _ _ => rfl
theorem pa_ptrRaw : Patient env n T T' h0 (M.gets (·.ptrRaw)) := .gets fun _ _ => rfl
theorem pa_batch : Patient env n T T' h0 (M.gets (·.batch)) := .gets fun _ _ => rfl
theorem pa_resp : Patient env n T T' h0 (M.gets (·.lastResponse)) := .gets fun _ _ => rfl
theorem pa_addLog (i p) : Patient env n T T' h0 (addLog i p) := .self ((slow_alike (env := env)).addLog i p) (addLog_steps _ _)
theorem pa_cleanup : Patient env n T T' h0 cleanup := .self tw_cleanup cleanup_steps
theorem pa_setErrNo (e) : Patient env n T T' h0 (setErrNo e) := .self (tw_setErrNo e) (setErrNo_steps e)
theorem pa_logErrno (e) : Patient env n T T' h0 (logErrno e) := .self (tw_logErrno e) (logErrno_steps e)
theorem pa_setResp (d) : Patient env n T T' h0 (setLastServerResponse d) := .self (tw_setResp d) (setLastServerResponse_steps d)
theorem pa_setNonBlocking : Patient env n T T' h0 setNonBlocking := .self tw_setNonBlocking setNonBlocking_steps
theorem pa_setBlocking : Patient env n T T' h0 setBlocking := .self tw_setBlocking setBlocking_steps
theorem pa_sendRaw (k d e) : Patient env n T T' h0 (sendRaw k d e) := .self (tw_sendRawWith tw_cleanup k rfl e) (sendRaw_steps (fun _ _ _ => ⟨_, rfl⟩) e)
theorem pa_sendBio (k d e) : Patient env n T T' h0 (sendBioWith cleanup k d e) := .self (tw_sendBioWith tw_cleanup k rfl e) (sendBioWith_steps cleanup_steps (fun _ _ _ => ⟨_, rfl⟩) e)
theorem pa_content (k d e) : Patient env n T T' h0 (sendPtr k d e) := .self (tw_sendPtr k rfl e) (sendPtr_steps' _ _ _)
theorem pa_arrElems (a : Arr α) : Patient env n T T' h0 (arrElems a) := .self (tw_arrElems a) (arrElems_steps a)

/-! ### Replies -/

theorem pa_getRawReply : Patient env n T T' h0 getRawReply := by
  unfold getRawReply
  refine pa_setNonBlocking.bind fun _ => (Patient.env' _).bind fun k => patient_raw k (fun r hr => ?_) fun r => ?_
  · obtain ⟨w, acc, got⟩ := r
    dsimp only at hr ⊢
    refine pa_setBlocking.bind fun _ => ?_
    have told : Patient env n T T' h0 (do setLastServerResponse acc; addLog acc b!"s"; pure (extractReturnCode (some acc))) := by
      patient [pa_setResp, pa_addLog]
    refine ⟨fun hn s t hst hx => ?_, ?_⟩
    · rw [bind_run, bind_run]
      dsimp only [M.gets]
      rw [if_pos (.inl (Nat.lt_of_lt_of_le hr hst.time.1)), if_pos (.inl (Nat.lt_of_lt_of_le hr hst.time.2))]
      exact told.run hn s t hst hx
    · exact .bind (.gets _) fun T => .ite told.ext (.pure _)
  · obtain ⟨w, acc, got⟩ := r
    dsimp only
    steps [setBlocking_steps, setLastServerResponse_steps, addLog_steps]

theorem pa_getTlsReply : Patient env n T T' h0 getTlsReply := by
  unfold getTlsReply
  refine patient_waitLoop tw_bioRead looked_bio bioRead_steps fun r => ?_
  patient [pa_setResp, pa_addLog]

theorem pa_getServerReply : Patient env n T T' h0 getServerReply := by
  unfold getServerReply
  patient [pa_kind, pa_getRawReply, pa_getTlsReply]

theorem pa_sendRawFb (d e t) : Patient env n T T' h0 (sendRawFb d e t) := by
  unfold sendRawFb
  patient [pa_sendRaw, pa_getRawReply, pa_cleanup]

theorem pa_sendTlsFb (d e t) : Patient env n T T' h0 (sendTlsFb d e t) := by
  unfold sendTlsFb
  patient [pa_sendBio, pa_getTlsReply, pa_cleanup]

theorem pa_sendFb (d e t) : Patient env n T T' h0 (sendFb d e t) := by
  unfold sendFb
  patient [pa_kind, pa_bio, pa_sendRawFb, pa_sendTlsFb]

theorem pa_cmd (d e t) : Patient env n T T' h0 (sendPtrFb d e t) := by
  unfold sendPtrFb
  patient [pa_ptrRaw, pa_sendRawFb, pa_sendFb]

/-! ### Opening a session -/

/-- `select` is told the timeout. -/
theorem pa_select (fd : Int) : Patient env n T T' h0 (M.gets (·.timeout) >>= fun T => sysSelect fd T) := by
  refine ⟨fun hn s t hst hx => ?_, .bind (.gets _) fun T => sysSelect_steps fd T⟩
  obtain ⟨x, hx⟩ := hx
  show (Res.ok (env.select s.hist fd s.client.timeout) = Res.ok (env.select t.hist fd t.client.timeout) ∧
    Slow n T T' { s with hist := s.hist ++ [.select fd (env.select s.hist fd s.client.timeout)] } { t with hist := t.hist ++ [.select fd (env.select t.hist fd t.client.timeout)] }) ∨
    Impatient env n T T' h0 (s.hist ++ [.select fd (env.select s.hist fd s.client.timeout)]) (t.hist ++ [.select fd (env.select t.hist fd t.client.timeout)])
  rw [hst.first, hst.second]
  by_cases he : env.select s.hist fd T = env.select t.hist fd T'
  · rw [he]
    exact .inl ⟨rfl, hst.emit _⟩
  · rw [← hst.hist, hx] at he ⊢
    exact .inr ⟨x, [], [], .inr ⟨fd, he, rfl, rfl⟩⟩

theorem pa_select' (fd : Int) {k : SelRes → M α} (hk : ∀ r, Patient env n T T' h0 (k r)) : Patient env n T T' h0 (M.gets (·.timeout) >>= fun T => sysSelect fd T >>= k) := by
  have e : (M.gets (·.timeout) >>= fun T => sysSelect fd T >>= k) = ((M.gets (·.timeout) >>= fun T => sysSelect fd T) >>= k) := rfl
  rw [e]
  exact (pa_select fd).bind hk

theorem pa_connectPOSIX (ip) : Patient env n T T' h0 (connectPOSIX ip) := by
  have c1 : ∀ fd p, Patient env n T T' h0 (sysConnect fd p) := fun fd p => .ask
  have c3 : ∀ fd, Patient env n T T' h0 (sysSockopt fd) := fun fd => .ask
  unfold connectPOSIX
  refine pa_sock.bind fun sock => pa_port.bind fun port => (c1 _ _).bind fun r => ?_
  cases r with
  | ok => exact pa_setBlocking
  | err e =>
    refine .ite (.ite (.stop _) ?_) (by patient [pa_logErrno])
    refine pa_select' sock fun r => ?_
    patient [pa_logErrno, c3, pa_setBlocking]

theorem pa_initializeSession : Patient env n T T' h0 initializeSession := by
  have log : Patient env n T T' h0 (M.modifyMem .freshLog ({ · with log := some .fresh })) := .self (slow_modifyMem (fun _ _ => rfl) (fun _ => rfl)) (.modifyMem fun _ => .same rfl)
  have c1 : Patient env n T T' h0 sysSocket := .ask
  have c2 : ∀ n', Patient env n T T' h0 (sysResolve n') := fun _ => .ask
  have sock : ∀ v : Int, Patient env n T T' h0 (M.modify ({ · with sock := v })) := fun v => .modify (fun _ _ => rfl) (fun _ => rfl)
  unfold initializeSession initializePOSIX
  patient [log, c1, c2, sock, pa_logErrno, pa_name, pa_port, pa_setNonBlocking, pa_addLog, pa_connectPOSIX]

theorem pa_greetings : Patient env n T T' h0 checkServerGreetings := by
  have res : ∀ r, Patient env n T T' h0 (greetingResult r) := by
    intro r
    unfold greetingResult
    patient [pa_addLog]
  unfold checkServerGreetings
  refine pa_kind.bind fun k => .ite ?_ (pa_sock.bind fun sock => ?_)
  · exact patient_waitLoop tw_bioRead looked_bio bioRead_steps res
  · exact patient_waitLoop ((slow_alike (env := env) (n := n) (T := T) (T' := T')).recv _) (looked_recv _) (sysRecv_steps _) res

theorem pa_identify (e t) : Patient env n T T' h0 (identify e t) := by
  have resp : Patient env n T T' h0 lastResponseText := by
    unfold lastResponseText
    patient [pa_resp]
  have loop : ∀ k o, Patient env n T T' h0 (ehloLoop t k o) := by
    intro k
    induction k with
    | zero => intro o; unfold ehloLoop; exact .stop _
    | succ k ih => intro o; unfold ehloLoop; patient [pa_getServerReply, resp, ih]
  have opts : ∀ o, Patient env n T T' h0 (setAuthOptions o) := fun o => .self (slow_modifyMem (fun _ _ => rfl) (fun _ => rfl)) (setAuthOptions_steps o)
  unfold identify
  patient [pa_addLog, pa_sendFb, resp, loop, opts]

theorem pa_auth : Patient env n T T' h0 authenticateIfNeeded := by
  have cr : Patient env n T T' h0 (M.gets (·.credential)) := .gets fun _ _ => rfl
  have op : Patient env n T T' h0 (M.gets (·.authOptions)) := .gets fun _ _ => rfl
  unfold authenticateIfNeeded authenticateClient authPlainM authLoginM authXOAuth2M
  patient [cr, op, pa_addLog, pa_cmd]

theorem pa_startTLS : Patient env n T T' h0 startTLSNegotiation := by
  have hA := slow_alike (env := env) (n := n) (T := T) (T' := T')
  have len : Patient env n T T' h0 M.histLength := .self ⟨fun s t h => ⟨congrArg (fun x : Hist => Res.ok x.length) h.hist, h⟩⟩ .histLength
  have tls : ∀ op, Patient env n T T' h0 (sysTls op) := fun op => .ask
  have err : Patient env n T T' h0 (M.ask' (·.tlsErr)) := .self hA.tlsErr (.ask' _)
  have ctx : ∀ b : Bool, Patient env n T T' h0 (M.modify ({ · with ctx := b })) := fun b => .self (tw_ctx b) (.modify fun _ => .same rfl)
  have bio : ∀ b : Option Bio, Patient env n T T' h0 (M.modify ({ · with bio := b })) := fun b => .self (tw_setBio b) (.modify fun _ => .same rfl)
  have acc : Patient env n T T' h0 (M.gets (·.acceptSelfSigned)) := .gets fun _ _ => rfl
  unfold startTLSNegotiation
  patient [pa_addLog, tls, err, len, ctx, bio, acc, pa_setErrNo, pa_sock, pa_name, pa_port, pa_cleanup]

theorem pa_secure : Patient env n T T' h0 getServerSecureIdentification := by
  unfold getServerSecureIdentification
  patient [pa_addLog, pa_identify]

theorem pa_establish : Patient env n T T' h0 establish := by
  have keep : Patient env n T T' h0 (setKeepUsingBase true) := .modify (fun _ _ => rfl) (fun _ => rfl)
  unfold establish establishGreeted establishOpportunistic establishForced upgradeToSecureConnection sendServerIdentification
  patient [pa_initializeSession, pa_kind, pa_greetings, pa_identify, pa_auth, pa_startTLS, pa_secure, pa_addLog, pa_sendRawFb, pa_resp, keep]

/-! ### A mail -/

theorem pa_setMailRecipients (m) : Patient env n T T' h0 (setMailRecipients m) := by
  have from' : ∀ l c, Patient env n T T' h0 (mailFromLoop c l) := by
    intro l
    induction l with
    | nil => intro c; unfold mailFromLoop; exact .pure _
    | cons f l ih => intro c; unfold mailFromLoop; patient [pa_addLog, pa_cmd, ih]
  have rcpt : ∀ l c, Patient env n T T' h0 (addMailRecipients c l) := by
    intro l
    induction l with
    | nil => intro c; unfold addMailRecipients; exact .pure _
    | cons f l ih => intro c; unfold addMailRecipients; patient [pa_addLog, pa_cmd, ih]
  have loop : ∀ l, Patient env n T T' h0 (recipientsLoop l) := by
    intro l
    induction l with
    | nil => unfold recipientsLoop; exact .pure _
    | cons a l ih => unfold recipientsLoop; patient [pa_arrElems, rcpt, ih]
  unfold setMailRecipients
  patient [from', loop]

theorem pa_setMailHeaders (m) : Patient env n T T' h0 (setMailHeaders m) := by
  unfold setMailHeaders addressHeader addMailHeader
  patient [pa_addLog, pa_cmd, pa_content, pa_arrElems]

theorem pa_setMailBody (m) : Patient env n T T' h0 (setMailBody m) := by
  have body : Patient env n T T' h0 (fullBody m) := .self (tw_fullBody m) (fullBody_steps m)
  have pieces : ∀ l, Patient env n T T' h0 (sendPieces l) := fun l => .self (tw_sendPieces l) (sendPieces_steps l)
  have quit : Patient env n T T' h0 sendQuit := .self tw_sendQuit sendQuit_steps
  unfold setMailBody sendBodyText
  patient [pa_addLog, pa_cmd, pa_content, body, pieces, quit, pa_batch]

theorem pa_sendMail (m) : Patient env n T T' h0 (sendMail m) := by
  have conn : Patient env n T T' h0 (M.gets (·.isConnected)) := .gets fun _ _ => rfl
  have up : ∀ b : Bool, Patient env n T T' h0 (M.modify ({ · with isConnected := b })) := fun b => .modify (fun _ _ => rfl) (fun _ => rfl)
  unfold sendMail sendMailConnected sendMailRest
  patient [conn, up, pa_establish, pa_setMailRecipients, pa_setMailHeaders, pa_setMailBody, pa_batch, pa_cleanup]

/-! ### The whole life -/

/-- After a call the two states are the same, or still the same but for the timeouts. -/
structure Unhurried (env : Env) (n T T' : Nat) (h0 : Hist) (m : M α) : Prop where
  run : 0 < n → ∀ s t, (s = t ∨ Slow n T T' s t) → (∃ x, s.hist = h0 ++ x) →
    ((m env s).1 = (m env t).1 ∧ ((m env s).2 = (m env t).2 ∨ Slow n T T' (m env s).2 (m env t).2)) ∨ Impatient env n T T' h0 (m env s).2.hist (m env t).2.hist
  ext : Steps env Ext m

theorem Patient.unhurried {m : M α} (h : Patient env n T T' h0 m) : Unhurried env n T T' h0 m := by
  refine ⟨fun hn s t hst hx => ?_, h.ext⟩
  rcases hst with rfl | hst
  · exact .inl ⟨rfl, .inl rfl⟩
  · rcases h.run hn s t hst hx with ⟨h1, h2⟩ | h1
    · exact .inl ⟨h1, .inr h2⟩
    · exact .inr h1

theorem Unhurried.bind {a : M β} {f : β → M α} (h : Unhurried env n T T' h0 a) (hf : ∀ x, Unhurried env n T T' h0 (f x)) : Unhurried env n T T' h0 (a >>= f) := by
  refine ⟨fun hn s t hst hx => ?_, .bind h.ext fun x => (hf x).ext⟩
  rcases h.run hn s t hst hx with ⟨h1, h2⟩ | h1
  · have h3 := ext_run h.ext s
    rw [bind_run, bind_run]
    revert h1 h2 h3
    rcases a env s with ⟨r, s1⟩
    rcases a env t with ⟨r', t1⟩
    intro h1 h2 h3
    obtain rfl : r = r' := h1
    cases r with
    | stop e => exact .inl ⟨rfl, h2⟩
    | ok x =>
      obtain ⟨x1, hx⟩ := hx
      obtain ⟨y, hy⟩ := h3
      exact (hf x).run hn s1 t1 h2 ⟨x1 ++ y, by rw [hy, hx, List.append_assoc]⟩
  · obtain ⟨x, hx⟩ := grow_bind' (b := a) s fun x => (hf x).ext
    obtain ⟨y, hy⟩ := grow_bind' (b := a) t fun x => (hf x).ext
    refine .inr ?_
    rw [hx, hy]
    exact Impatient.grow h1

theorem unhurried_doCall (c : Call) : Unhurried env n T T' h0 (doCall c) := by
  unfold doCall
  have call : ∀ e, Patient env n T T' h0 (M.emit e) := fun e => .self (slow_emit _) (.emit fun _ => ⟨_, rfl⟩)
  refine .bind (call _).unhurried fun _ => ?_
  have set : ∀ f : Client → Client, (∀ c k, f { c with timeout := k } = { f c with timeout := k }) → (∀ c, (f c).timeout = c.timeout) →
      ∀ r : CallRes, Unhurried env n T T' h0 (do M.modify f; pure r) := fun f h1 h2 r => (Patient.bind (.modify h1 h2) fun _ => .pure _).unhurried
  cases c with
  | setServerName p =>
    dsimp only
    unfold setServerName
    split
    · exact (Patient.pure _).unhurried
    · exact (Patient.stop _).unhurried
    · refine set _ ?_ ?_ _ <;> intros <;> rfl
  | setServerPort n => refine set _ ?_ ?_ _ <;> intros <;> rfl
  | setBatchMode b => refine set _ ?_ ?_ _ <;> intros <;> rfl
  | setCommandTimeout k =>
    refine ⟨fun _ s t hst _ => .inl ?_, .bind (.modify fun _ => .same rfl) fun _ => .pure _⟩
    rcases hst with rfl | hst
    · exact ⟨rfl, .inl rfl⟩
    · refine ⟨rfl, .inl ?_⟩
      show ({ s with client := { s.client with timeout := k } } : St) = { t with client := { t.client with timeout := k } }
      obtain ⟨h1, h2, h3, -, -, -⟩ := hst
      cases s; cases t
      simp only at h1 h2 h3 ⊢
      rw [h1, h2, h3]
  | setCredentials c => refine set _ ?_ ?_ _ <;> intros <;> rfl
  | setKeepUsingBaseSendCommands b => refine set _ ?_ ?_ _ <;> intros <;> rfl
  | setAcceptSelfSignedCert b => refine set _ ?_ ?_ _ <;> intros <;> rfl
  | sendMail m => exact (Patient.bind (pa_sendMail m) fun _ => .pure _).unhurried

theorem unhurried_runCalls (cs : List Call) : Unhurried env n T T' h0 (runCalls cs) := by
  induction cs with
  | nil => exact (Patient.pure _).unhurried
  | cons c cs ih => exact (unhurried_doCall c).bind fun _ => ih.bind fun _ => (Patient.pure _).unhurried

theorem unhurried_life (cs : List Call) : Unhurried env n T T' h0 (life cs) := by
  unfold life destroy
  refine (unhurried_runCalls cs).bind fun _ => (Patient.bind (.bind ?_ fun _ => pa_cleanup) fun _ => .pure _).unhurried
  exact .self (slow_emit _) (.emit fun _ => ⟨_, rfl⟩)

end Verif.Proofs
