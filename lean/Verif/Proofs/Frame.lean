import Verif.Proofs.Hoare
/-!
# Relations kept by the session code

Classes of relations between states, and for every function of the session code the lemma that it stays inside such a relation.
-/
namespace Verif.Proofs
open Verif Verif.Model

variable {α : Type} {env : Env} {R : St → St → Prop}

/-- Appending an event to the history. -/
def St.snoc (s : St) (e : Ev) : St := { s with hist := s.hist ++ [e] }

/-- Relations that do not care about the log, the last error number, the last response, the offered mechanisms, and events other
than sending, receiving, opening, closing, reading files, TLS and API calls. -/
class Harmless (R : St → St → Prop) : Prop extends Preord R where
  log : ∀ s l i p l', s.client.log = some l → l.add i p = .ok l' →
    R s { s with client := { s.client with log := some l' }, mem := s.mem ++ [.log (l.grows i p) l'.content] }
  errno : ∀ s e, R s { s with client := { s.client with lastErrNo := e } }
  resp : ∀ s r, R s { s with client := { s.client with lastResponse := some r }, mem := s.mem ++ [.response r] }
  auth : ∀ s t, R s { s with client := { s.client with authOptions := extractAuthOptions (some t) }, mem := s.mem ++ [.options (cstr t)] }
  fcntlGet : ∀ s fd r, R s (St.snoc s (.fcntlGet fd r))
  fcntlSet : ∀ s fd b r, R s (St.snoc s (.fcntlSet fd b r))
  select : ∀ s fd r, R s (St.snoc s (.select fd r))
  sockopt : ∀ s fd r, R s (St.snoc s (.sockopt fd r))
  resolve : ∀ s n r, R s (St.snoc s (.resolve n r))
  connect : ∀ s fd p r, R s (St.snoc s (.connect fd p r))

/-- … nor about reading files. -/
class Filing (R : St → St → Prop) : Prop extends Harmless R where
  readFile : ∀ s n r, R s (St.snoc s (.readFile n r))

/-- Harmless, and not about time passing. -/
class Sleeping (R : St → St → Prop) : Prop extends Harmless R where
  sleep : ∀ s, R s (St.snoc s .sleep)

/-- … nor about receiving. -/
class Reading (R : St → St → Prop) : Prop extends Sleeping R where
  recv : ∀ s c r, R s (St.snoc s (.recv c r))

/-- Harmless, and not about the steps of `cleanup`. -/
class Ending (R : St → St → Prop) : Prop extends Harmless R where
  disconnected : ∀ s, R s { s with client := { s.client with isConnected := false } }
  ctx : ∀ s b, R s { s with client := { s.client with ctx := b } }
  noBio : ∀ s, R s { s with client := { s.client with bio := none } }
  noSock : ∀ s, R s { s with client := { s.client with sock := 0 } }
  close : ∀ s fd, R s (St.snoc s (.close fd))
  bioFree : ∀ s id, R s (St.snoc s (.bioFree id))
  quit : ∀ s c r, R s (St.snoc s (.send .quit c quitCmd r))

/-- Neither about receiving nor about `cleanup`. -/
class Cleaning (R : St → St → Prop) : Prop extends Reading R, Ending R

/-- Neither about `cleanup` nor about opening a connection and TLS. -/
class Opening (R : St → St → Prop) : Prop extends Ending R where
  freshLog : ∀ s, R s { s with client := { s.client with log := some .fresh }, mem := s.mem ++ [.freshLog] }
  keep : ∀ s, R s { s with client := { s.client with keep := true, ptrRaw := true } }
  bio : ∀ s b, R s { s with client := { s.client with bio := b } }
  sock : ∀ s v, R s { s with client := { s.client with sock := v } }
  socket : ∀ s r, R s (St.snoc s (.socket r))
  tls : ∀ s op r, R s (St.snoc s (.tls op r))

/-- About nothing but reading, waiting and sending commands. -/
class Silent (R : St → St → Prop) : Prop extends Opening R, Filing R where
  connected : ∀ s, R s { s with client := { s.client with isConnected := true } }
  content : ∀ s c d r, R s (St.snoc s (.send .content c d r))

/-- … nor about sending. -/
class Sending (R : St → St → Prop) : Prop extends Cleaning R where
  send : ∀ s k c d r, R s (St.snoc s (.send k c d r))

/-- … nor about files and the beginning of a transmission. -/
class Talking (R : St → St → Prop) : Prop extends Sending R, Filing R where
  connected : ∀ s, R s { s with client := { s.client with isConnected := true } }

/-- … nor about anything that happens inside `sendMail`. -/
class Anything (R : St → St → Prop) : Prop extends Talking R where
  freshLog : ∀ s, R s { s with client := { s.client with log := some .fresh }, mem := s.mem ++ [.freshLog] }
  keep : ∀ s, R s { s with client := { s.client with keep := true, ptrRaw := true } }
  bio : ∀ s b, R s { s with client := { s.client with bio := b } }
  sock : ∀ s v, R s { s with client := { s.client with sock := v } }
  socket : ∀ s r, R s (St.snoc s (.socket r))
  tls : ∀ s op r, R s (St.snoc s (.tls op r))

/-- Relations that do not care about anything that happens while a connection is established. -/
class Establishing (R : St → St → Prop) : Prop extends Cleaning R, Opening R where
  askCmd : ∀ s c d r, R s (St.snoc s (.send .cmd c d r))

instance (R : St → St → Prop) [h : Anything R] : Establishing R where
  askCmd := fun s => h.send s .cmd
  freshLog := h.freshLog
  keep := h.keep
  bio := h.bio
  sock := h.sock
  socket := h.socket
  tls := h.tls

/-- … nor about the calls of the user. -/
class Lifelong (R : St → St → Prop) : Prop extends Anything R where
  call : ∀ s c, R s (St.snoc s (.call c))
  destroy : ∀ s, R s (St.snoc s .destroy)
  setKeep : ∀ s b, R s { s with client := { s.client with keep := b, ptrRaw := b } }
  serverName : ∀ s v, R s { s with client := { s.client with serverName := v } }
  port : ∀ s v, R s { s with client := { s.client with port := v } }
  batch : ∀ s v, R s { s with client := { s.client with batch := v } }
  timeout : ∀ s v, R s { s with client := { s.client with timeout := v } }
  credential : ∀ s v, R s { s with client := { s.client with credential := v } }
  accept : ∀ s v, R s { s with client := { s.client with acceptSelfSigned := v } }

/-- Using a `Steps` fact. -/
theorem Steps.state {m : M α} (h : Steps env R m) (s : St) : R s (m env s).2 := by
  have := h.run s
  unfold wp at this
  split at this <;> (rename_i e; rw [e]; exact this)

section Harmless
variable [hR : Harmless R]

theorem addLog_steps (i p : Bytes) : Steps env R (addLog i p) := by
  constructor
  intro s
  unfold addLog
  rw [wp_bind, wp_gets]
  cases hl : s.client.log with
  | none => exact hR.refl s
  | some l =>
    cases ha : l.add i p with
    | error u => simp only [ha]; exact hR.refl s
    | ok l' => simp only [ha]; exact hR.log s l i p l' hl ha

theorem setErrNo_steps (e : Int) : Steps env R (setErrNo e) := Steps.modify fun s => hR.errno s e

theorem logErrno_steps (e : Int) : Steps env R (logErrno e) := by
  unfold logErrno; steps [addLog_steps, setErrNo_steps]

theorem setLastServerResponse_steps (b : Bytes) : Steps env R (setLastServerResponse b) := Steps.modifyMem fun s => hR.resp s _

theorem setAuthOptions_steps (o) : Steps env R (setAuthOptions o) := Steps.modifyMem fun s => hR.auth s _

theorem logIfErr_steps (r : SysRes) : Steps env R (logIfErr r) := by
  unfold logIfErr; steps [logErrno_steps]

theorem sysFcntlGet_steps (fd) : Steps env R (sysFcntlGet fd) := Steps.ask fun s r => hR.fcntlGet s fd r
theorem sysFcntlSet_steps (fd b) : Steps env R (sysFcntlSet fd b) := Steps.ask fun s r => hR.fcntlSet s fd b r
theorem sysSelect_steps (fd t) : Steps env R (sysSelect fd t) := Steps.ask fun s r => hR.select s fd r
theorem sysSockopt_steps (fd) : Steps env R (sysSockopt fd) := Steps.ask fun s r => hR.sockopt s fd r
theorem sysResolve_steps (n) : Steps env R (sysResolve n) := Steps.ask fun s r => hR.resolve s n r
theorem sysConnect_steps (fd p) : Steps env R (sysConnect fd p) := Steps.ask fun s r => hR.connect s fd p r
theorem setNonBlocking_steps : Steps env R setNonBlocking := by
  unfold setNonBlocking; steps [logErrno_steps, logIfErr_steps, sysFcntlGet_steps, sysFcntlSet_steps]

theorem setBlocking_steps : Steps env R setBlocking := by
  unfold setBlocking; steps [logErrno_steps, sysFcntlGet_steps, sysFcntlSet_steps]

theorem connectPOSIX_steps (ip) : Steps env R (connectPOSIX ip) := by
  unfold connectPOSIX
  steps [logErrno_steps, sysConnect_steps, sysSelect_steps, sysSockopt_steps, setBlocking_steps]

theorem lastResponseText_steps : Steps env R lastResponseText := by
  unfold lastResponseText; steps []

theorem arrElems_steps (a : Arr α) : Steps env R (arrElems a) := by
  unfold arrElems; steps []

theorem greetingResult_steps (r) : Steps env R (greetingResult r) := by
  unfold greetingResult; steps [addLog_steps]

end Harmless

section Filing
variable [hR : Filing R]

theorem sysReadFile_steps (n) : Steps env R (sysReadFile n) := Steps.ask fun s r => hR.readFile s n r

theorem base64EncodedFile_steps (a) : Steps env R (base64EncodedFile a) := by
  unfold base64EncodedFile; steps [sysReadFile_steps]

theorem attachmentsLoop_steps (l) : Steps env R (attachmentsLoop l) := by
  induction l with
  | nil => unfold attachmentsLoop; steps []
  | cons a l ih => unfold attachmentsLoop; steps [base64EncodedFile_steps]

theorem createAttachmentsText_steps (l) : Steps env R (createAttachmentsText l) := by
  unfold createAttachmentsText; steps [attachmentsLoop_steps]

theorem fullBody_steps (m) : Steps env R (fullBody m) := by
  unfold fullBody; steps [createAttachmentsText_steps, arrElems_steps]

end Filing

section Reading
variable [hR : Reading R]

theorem sysSleep_steps : Steps env R sysSleep := Steps.emit fun s => hR.sleep s

theorem sysRecv_steps (c) : Steps env R (sysRecv c) := by
  unfold sysRecv; steps [Steps.ask]; exact hR.recv _ _ _

theorem rawReplyLoop_steps (n w a g) : Steps env R (rawReplyLoop n w a g) := by
  induction n generalizing w a g with
  | zero => unfold rawReplyLoop; steps []
  | succ n ih => unfold rawReplyLoop; steps [sysRecv_steps, sysSleep_steps, ih]

theorem getRawReply_steps : Steps env R getRawReply := by
  unfold getRawReply
  steps [setNonBlocking_steps, setBlocking_steps, rawReplyLoop_steps, addLog_steps, setLastServerResponse_steps]

theorem bioRead_steps : Steps env R bioRead := by
  unfold bioRead; steps [sysRecv_steps]

theorem waitLoop_steps {read : M RecvRes} (hr : Steps env R read) (n) : Steps env R (waitLoop read n) := by
  induction n with
  | zero => unfold waitLoop; steps []
  | succ n ih => unfold waitLoop; steps [sysSleep_steps]

theorem getTlsReply_steps : Steps env R getTlsReply := by
  unfold getTlsReply
  steps [waitLoop_steps bioRead_steps, addLog_steps, setLastServerResponse_steps]

theorem getServerReply_steps : Steps env R getServerReply := by
  unfold getServerReply; steps [getRawReply_steps, getTlsReply_steps]

theorem checkServerGreetings_steps : Steps env R checkServerGreetings := by
  unfold checkServerGreetings
  steps [waitLoop_steps bioRead_steps, waitLoop_steps (sysRecv_steps _), greetingResult_steps]

theorem ehloLoop_steps (t n o) : Steps env R (ehloLoop t n o) := by
  induction n generalizing o with
  | zero => unfold ehloLoop; steps []
  | succ n ih => unfold ehloLoop; steps [getServerReply_steps, lastResponseText_steps, ih]

end Reading

section Ending
variable [hR : Ending R]

theorem sendRawWith_steps {f : M Unit} (hf : Steps env R f) {k d} (hs : ∀ s c r, R s (St.snoc s (.send k c (cstr d) r))) (e) :
    Steps env R (sendRawWith f k d e) := by
  unfold sendRawWith sysSend
  steps [setErrNo_steps, Steps.ask]
  exact hs _ _ _

theorem sendBioWith_steps {f : M Unit} (hf : Steps env R f) {k d} (hs : ∀ s c r, R s (St.snoc s (.send k c (cstr d) r))) (e) :
    Steps env R (sendBioWith f k d e) := by
  unfold sendBioWith sysSend
  steps [setErrNo_steps, Steps.ask]
  exact hs _ _ _

theorem sendPtrWith_steps {f : M Unit} (hf : Steps env R f) {k d} (hs : ∀ s c r, R s (St.snoc s (.send k c (cstr d) r))) (e) :
    Steps env R (sendPtrWith f k d e) := by
  unfold sendPtrWith
  steps [sendRawWith_steps, sendBioWith_steps]

theorem sendQuitWith_steps {f : M Unit} (hf : Steps env R f) : Steps env R (sendQuitWith f) := by
  unfold sendQuitWith
  have : ∀ s c r, R s (St.snoc s (.send .quit c (cstr quitCmd) r)) := hR.quit
  steps [addLog_steps, sendPtrWith_steps]

theorem freeTls_steps : Steps env R freeTls := by
  unfold freeTls emitBioFree
  steps [Steps.modify, Steps.emit]
  · exact hR.ctx _ _
  · exact hR.bioFree _ _
  · exact hR.noBio _

theorem closeSocket_steps : Steps env R closeSocket := by
  unfold closeSocket sysClose
  steps [Steps.modify, Steps.emit]
  · exact hR.close _ _
  · exact hR.noSock _
  · exact hR.noSock _

theorem closeSession_steps : Steps env R closeSession := by
  unfold closeSession
  steps [Steps.modify, closeSocket_steps, freeTls_steps]
  exact hR.disconnected _

theorem cleanupN_steps (n) : Steps env R (cleanupN n) := by
  induction n with
  | zero => unfold cleanupN; steps []
  | succ n ih => unfold cleanupN; steps [sendQuitWith_steps, closeSession_steps]

theorem cleanup_steps : Steps env R cleanup := by
  unfold cleanup; steps [cleanupN_steps]

theorem sendRaw_steps {k d} (hs : ∀ s c r, R s (St.snoc s (.send k c (cstr d) r))) (e) : Steps env R (sendRaw k d e) :=
  sendRawWith_steps cleanup_steps hs e

theorem sendPtr_steps {k d} (hs : ∀ s c r, R s (St.snoc s (.send k c (cstr d) r))) (e) : Steps env R (sendPtr k d e) :=
  sendPtrWith_steps cleanup_steps hs e

theorem sendQuit_steps : Steps env R sendQuit := sendQuitWith_steps cleanup_steps

end Ending

section Cleaning
variable [hR : Cleaning R]

theorem sendRawFb_steps {d} (hs : ∀ s c r, R s (St.snoc s (.send .cmd c (cstr d) r))) (e t) : Steps env R (sendRawFb d e t) := by
  unfold sendRawFb
  steps [sendRaw_steps, getRawReply_steps, cleanup_steps]

theorem sendTlsFb_steps {d} (hs : ∀ s c r, R s (St.snoc s (.send .cmd c (cstr d) r))) (e t) : Steps env R (sendTlsFb d e t) := by
  unfold sendTlsFb
  steps [sendBioWith_steps, getTlsReply_steps, cleanup_steps]

theorem sendFb_steps {d} (hs : ∀ s c r, R s (St.snoc s (.send .cmd c (cstr d) r))) (e t) : Steps env R (sendFb d e t) := by
  unfold sendFb
  steps [sendRawFb_steps, sendTlsFb_steps]

theorem sendPtrFb_steps {d} (hs : ∀ s c r, R s (St.snoc s (.send .cmd c (cstr d) r))) (e t) : Steps env R (sendPtrFb d e t) := by
  unfold sendPtrFb
  steps [sendRawFb_steps, sendFb_steps]

theorem identify_steps (hs : ∀ s c r, R s (St.snoc s (.send .cmd c (cstr ehloCmd) r))) (e t) : Steps env R (identify e t) := by
  unfold identify
  steps [sendFb_steps, addLog_steps, lastResponseText_steps, ehloLoop_steps, setAuthOptions_steps]

end Cleaning

section Sending
variable [hR : Sending R]

theorem sendPtrFb_steps' (d e t) : Steps env R (sendPtrFb d e t) := sendPtrFb_steps (fun _ _ _ => hR.send _ _ _ _ _) e t
theorem sendPtr_steps' (k d e) : Steps env R (sendPtr k d e) := sendPtr_steps (fun _ _ _ => hR.send _ _ _ _ _) e

theorem mailFromLoop_steps (c l) : Steps env R (mailFromLoop c l) := by
  induction l generalizing c with
  | nil => unfold mailFromLoop; steps []
  | cons f l ih => unfold mailFromLoop; steps [addLog_steps, sendPtrFb_steps', ih]

theorem addMailRecipients_steps (c l) : Steps env R (addMailRecipients c l) := by
  induction l generalizing c with
  | nil => unfold addMailRecipients; steps []
  | cons f l ih => unfold addMailRecipients; steps [addLog_steps, sendPtrFb_steps', ih]

theorem recipientsLoop_steps (l) : Steps env R (recipientsLoop l) := by
  induction l with
  | nil => unfold recipientsLoop; steps []
  | cons a l ih => unfold recipientsLoop; steps [arrElems_steps, addMailRecipients_steps]

theorem setMailRecipients_steps (m) : Steps env R (setMailRecipients m) := by
  unfold setMailRecipients; steps [mailFromLoop_steps, recipientsLoop_steps]

theorem setMailHeaders_steps (m) : Steps env R (setMailHeaders m) := by
  unfold setMailHeaders addressHeader addMailHeader
  steps [addLog_steps, sendPtrFb_steps', sendPtr_steps', arrElems_steps]

theorem sendPieces_steps (l) : Steps env R (sendPieces l) := by
  induction l with
  | nil => unfold sendPieces; steps []
  | cons a l ih => unfold sendPieces; steps [sendPtr_steps']

theorem setMailBody_steps [Filing R] (m) : Steps env R (setMailBody m) := by
  unfold setMailBody sendBodyText
  steps [addLog_steps, sendPtrFb_steps', sendPtr_steps', fullBody_steps, sendPieces_steps, sendQuit_steps]

end Sending

section Talking
variable [hR : Talking R]

theorem sendMailConnected_steps (m) : Steps env R (sendMailConnected m) := by
  unfold sendMailConnected sendMailRest
  steps [Steps.modify, setMailRecipients_steps, setMailHeaders_steps, setMailBody_steps, cleanup_steps]
  exact hR.connected _

end Talking

section Opening
variable [hR : Opening R]

theorem initializePOSIX_steps : Steps env R initializePOSIX := by
  unfold initializePOSIX sysSocket
  steps [Steps.modify, Steps.ask, logErrno_steps, sysResolve_steps, setNonBlocking_steps, addLog_steps, connectPOSIX_steps]
  · exact hR.socket _ _
  · exact hR.sock _ _
  · exact hR.sock _ _

theorem initializeSession_steps : Steps env R initializeSession := by
  unfold initializeSession
  steps [Steps.modifyMem, initializePOSIX_steps]
  exact hR.freshLog _

theorem startTLSNegotiation_steps : Steps env R startTLSNegotiation := by
  unfold startTLSNegotiation sysTls
  steps [addLog_steps, setErrNo_steps, cleanup_steps, Steps.ask, Steps.modify]
  all_goals first | exact hR.tls _ _ _ | exact hR.ctx _ _ | exact hR.bio _ _

end Opening

section Establishing
variable [hR : Establishing R]

theorem authenticateIfNeeded_steps : Steps env R authenticateIfNeeded := by
  unfold authenticateIfNeeded authenticateClient authPlainM authLoginM authXOAuth2M
  have : ∀ d e t, Steps env R (sendPtrFb d e t) := fun d e t => sendPtrFb_steps (fun _ _ _ => hR.askCmd _ _ _ _) e t
  steps [addLog_steps, this]

theorem identify_steps' (e t) : Steps env R (identify e t) := identify_steps (fun _ _ _ => hR.askCmd _ _ _ _) e t

theorem establish_steps : Steps env R establish := by
  unfold establish establishGreeted establishForced establishOpportunistic upgradeToSecureConnection
    getServerSecureIdentification sendServerIdentification setKeepUsingBase
  have : ∀ d e t, Steps env R (sendRawFb d e t) := fun d e t => sendRawFb_steps (fun _ _ _ => hR.askCmd _ _ _ _) e t
  steps [addLog_steps, initializeSession_steps, checkServerGreetings_steps, identify_steps',
    startTLSNegotiation_steps, authenticateIfNeeded_steps, this, Steps.modify]
  exact hR.keep _

end Establishing

section Anything
variable [hR : Anything R]

theorem sendMail_steps (m) : Steps env R (sendMail m) := by
  unfold sendMail
  steps [establish_steps, sendMailConnected_steps]

end Anything

section Lifelong
variable [hR : Lifelong R]

theorem doCall_steps (c) : Steps env R (doCall c) := by
  unfold doCall setServerName setKeepUsingBase
  steps [sendMail_steps, Steps.modify, Steps.emit]
  all_goals first
    | exact hR.call _ _ | exact hR.serverName _ _ | exact hR.port _ _ | exact hR.batch _ _ | exact hR.timeout _ _
    | exact hR.credential _ _ | exact hR.setKeep _ _ | exact hR.accept _ _

theorem runCalls_steps (cs) : Steps env R (runCalls cs) := by
  induction cs with
  | nil => unfold runCalls; steps []
  | cons c cs ih => unfold runCalls; steps [doCall_steps]

theorem destroy_steps : Steps env R destroy := by
  unfold destroy
  steps [Steps.emit, cleanup_steps]
  exact hR.destroy _

theorem life_steps (cs) : Steps env R (life cs) := by
  unfold life
  steps [runCalls_steps, destroy_steps]

end Lifelong

end Verif.Proofs
