import Verif.Proofs.Frame
import Verif.Spec.Duration
/-!
# How often a call sends commands and waits for a connection
-/
namespace Verif.Proofs
open Verif Verif.Model Verif.Spec

variable {α β : Type} {env : Env}

/-- No command was sent, and `select` was not called. -/
def Free (s s' : St) : Prop := commandSends s'.hist = commandSends s.hist ∧ selects s'.hist = selects s.hist

instance : Preord Free where
  refl := fun _ => ⟨rfl, rfl⟩
  trans := fun h h' => ⟨h'.1.trans h.1, h'.2.trans h.2⟩

theorem free_event {s : St} {e : Ev} (h1 : commandSends [e] = 0) (h2 : selects [e] = 0) : Free s { s with hist := s.hist ++ [e] } := by
  unfold commandSends at h1
  unfold selects at h2
  refine ⟨?_, ?_⟩
  · show commandSends (s.hist ++ [e]) = _
    unfold commandSends
    rw [List.countP_append, h1]; rfl
  · show selects (s.hist ++ [e]) = _
    unfold selects
    rw [List.countP_append, h2]; rfl

theorem free_modify (f : Client → Client) : Steps env Free (M.modify f) := Steps.modify fun _ => ⟨rfl, rfl⟩
theorem free_modifyMem (op : SessionOp) (f : Client → Client) : Steps env Free (M.modifyMem op f) := Steps.modifyMem fun _ => ⟨rfl, rfl⟩

theorem free_addLog (i p : Bytes) : Steps env Free (addLog i p) := by
  unfold addLog
  steps [free_modifyMem]

theorem free_setErrNo (e : Int) : Steps env Free (setErrNo e) := free_modify _

theorem free_logErrno (e : Int) : Steps env Free (logErrno e) := by
  unfold logErrno; steps [free_addLog, free_setErrNo]

theorem free_fcntlGet (fd : Int) : Steps env Free (sysFcntlGet fd) := Steps.ask fun _ _ => free_event rfl rfl
theorem free_fcntlSet (fd : Int) (b : Bool) : Steps env Free (sysFcntlSet fd b) := Steps.ask fun _ _ => free_event rfl rfl
theorem free_sleep : Steps env Free sysSleep := Steps.emit fun _ => free_event rfl rfl
theorem free_tls (op : TlsOp) : Steps env Free (sysTls op) := Steps.ask fun _ _ => free_event rfl rfl
theorem free_readFile (n : Bytes) : Steps env Free (sysReadFile n) := Steps.ask fun _ _ => free_event rfl rfl

theorem free_recv (c : Chan) : Steps env Free (sysRecv c) := by
  unfold sysRecv
  steps [Steps.ask]
  exact free_event rfl rfl

theorem free_setNonBlocking : Steps env Free setNonBlocking := by
  unfold setNonBlocking logIfErr; steps [free_logErrno, free_fcntlGet, free_fcntlSet]

theorem free_setBlocking : Steps env Free setBlocking := by
  unfold setBlocking; steps [free_logErrno, free_fcntlGet, free_fcntlSet]

theorem free_rawLoop (n w : Nat) (a : Bytes) (g : Bool) : Steps env Free (rawReplyLoop n w a g) := by
  induction n generalizing w a g with
  | zero => unfold rawReplyLoop; steps []
  | succ n ih => unfold rawReplyLoop; steps [free_recv, free_sleep, ih]

theorem free_rawReply : Steps env Free getRawReply := by
  unfold getRawReply setLastServerResponse
  steps [free_setNonBlocking, free_setBlocking, free_rawLoop, free_addLog, free_modifyMem]

theorem free_bioRead : Steps env Free bioRead := by unfold bioRead; steps [free_recv]

theorem free_waitLoop {read : M RecvRes} (hr : Steps env Free read) (n : Nat) : Steps env Free (waitLoop read n) := by
  induction n with
  | zero => unfold waitLoop; steps []
  | succ n ih => unfold waitLoop; steps [free_sleep]

theorem free_tlsReply : Steps env Free getTlsReply := by
  unfold getTlsReply setLastServerResponse
  steps [free_waitLoop free_bioRead, free_addLog, free_modifyMem]

theorem free_reply : Steps env Free getServerReply := by unfold getServerReply; steps [free_rawReply, free_tlsReply]

theorem free_greetings : Steps env Free checkServerGreetings := by
  unfold checkServerGreetings greetingResult
  steps [free_waitLoop free_bioRead, free_waitLoop (free_recv _), free_addLog]

theorem free_ehloLoop (t : Int) (n : Nat) (o : Bytes) : Steps env Free (ehloLoop t n o) := by
  induction n generalizing o with
  | zero => unfold ehloLoop; steps []
  | succ n ih => unfold ehloLoop lastResponseText; steps [free_reply, ih]

theorem free_closeSession : Steps env Free closeSession := by
  unfold closeSession freeTls emitBioFree closeSocket sysClose
  steps [free_modify, Steps.emit]
  all_goals exact free_event rfl rfl

theorem free_ptrWith {f : M Unit} (hf : Steps env Free f) {k : SendKind} (hk : k ≠ .cmd) (d : Bytes) (e : Int) : Steps env Free (sendPtrWith f k d e) := by
  unfold sendPtrWith sendRawWith sendBioWith sysSend
  steps [free_setErrNo, Steps.ask]
  all_goals exact free_event (by cases k <;> first | rfl | exact absurd rfl hk) rfl

theorem free_cleanupN (n : Nat) : Steps env Free (cleanupN n) := by
  induction n with
  | zero => unfold cleanupN; steps []
  | succ n ih =>
    unfold cleanupN sendQuitWith
    have : Steps env Free (sendPtrWith (cleanupN n) .quit quitCmd (-99)) := free_ptrWith ih (by decide) _ _
    steps [this, free_addLog, free_closeSession]

theorem free_cleanup : Steps env Free cleanup := by unfold cleanup; steps [free_cleanupN]

theorem free_content (d : Bytes) (e : Int) : Steps env Free (sendPtr .content d e) := free_ptrWith free_cleanup (by decide) d e
theorem free_quit : Steps env Free sendQuit := by
  unfold sendQuit sendQuitWith
  have : Steps env Free (sendPtrWith cleanup .quit quitCmd (-99)) := free_ptrWith free_cleanup (by decide) _ _
  steps [this, free_addLog]

theorem free_startTls : Steps env Free startTLSNegotiation := by
  unfold startTLSNegotiation
  steps [free_addLog, free_setErrNo, free_cleanup, free_tls, free_modify]

/-- At most `k` commands are sent and `select` is called at most `n` times. -/
structure Cost (env : Env) (k n : Nat) (m : M α) : Prop where
  run : ∀ s, commandSends (m env s).2.hist ≤ commandSends s.hist + k ∧ selects (m env s).2.hist ≤ selects s.hist + n

namespace Cost
variable {k k' n n' : Nat}

theorem le {m : M α} (h : Cost env k n m) (hk : k ≤ k' := by omega) (hn : n ≤ n' := by omega) : Cost env k' n' m :=
  ⟨fun s => ⟨Nat.le_trans (h.run s).1 (by omega), Nat.le_trans (h.run s).2 (by omega)⟩⟩

theorem free {m : M α} (h : Steps env Free m) : Cost env k n m :=
  ⟨fun s => by have := h.state s; exact ⟨by rw [this.1]; omega, by rw [this.2]; omega⟩⟩

theorem bind {m : M α} {f : α → M β} (h : Cost env k n m) (hf : ∀ a, Cost env k' n' (f a)) : Cost env (k + k') (n + n') (m >>= f) := by
  constructor
  intro s
  have h1 := h.run s
  show commandSends ((M.bind m f) env s).2.hist ≤ _ ∧ selects ((M.bind m f) env s).2.hist ≤ _
  unfold M.bind
  cases hm : m env s with
  | mk r s1 =>
    rw [hm] at h1
    cases r with
    | ok a =>
      have h2 := (hf a).run s1
      dsimp only at h1 ⊢
      omega
    | stop e =>
      dsimp only at h1 ⊢
      omega

theorem then0 {m : M α} {f : α → M β} (h : Steps env Free m) (hf : ∀ a, Cost env k n (f a)) : Cost env k n (m >>= f) :=
  (bind (free (k := 0) (n := 0) h) hf).le

theorem gets {f : Client → α} {g : α → M β} (hf : ∀ a, Cost env k n (g a)) : Cost env k n (M.gets f >>= g) := then0 (.gets f) hf

theorem ite {c : Prop} [Decidable c] {a b : M α} (ha : Cost env k n a) (hb : Cost env k n b) : Cost env k n (if c then a else b) := by
  split <;> assumption

theorem pure (a : α) : Cost env k n (Pure.pure a : M α) := free (.pure a)
theorem stop (e : Stop) : Cost env k n (M.stop e : M α) := free (.stop e)

end Cost

theorem cost_sysSend (k : SendKind) (c : Chan) (d : Bytes) : Cost env 1 0 (sysSend k c d) := by
  unfold sysSend
  refine (Cost.bind (k := 1) (n := 0) (k' := 0) (n' := 0) ⟨fun s => ?_⟩ fun r => .ite (.stop _) (.pure _)).le
  unfold M.ask
  dsimp only
  generalize normSend _ _ _ = r
  refine ⟨?_, ?_⟩
  · unfold commandSends
    rw [List.countP_append]
    have := List.countP_le_length (p := fun | Ev.send .cmd _ _ _ => true | _ => false) (l := [Ev.send k c d r])
    exact Nat.add_le_add_left this _
  · unfold selects
    rw [List.countP_append]
    exact Nat.le_refl _

theorem cost_rawWith {f : M Unit} (hf : Steps env Free f) (k : SendKind) (d : Bytes) (e : Int) : Cost env 1 0 (sendRawWith f k d e) := by
  unfold sendRawWith
  refine Cost.gets fun sock => (Cost.bind (cost_sysSend _ _ _) (k' := 0) (n' := 0) fun r => ?_).le
  split
  · exact Cost.free (.bind (free_setErrNo _) fun _ => .bind hf fun _ => .pure _)
  · exact .pure _

theorem cost_bioWith {f : M Unit} (hf : Steps env Free f) (k : SendKind) (d : Bytes) (e : Int) : Cost env 1 0 (sendBioWith f k d e) := by
  unfold sendBioWith
  refine Cost.gets fun b => ?_
  have failed : Steps env Free (do setErrNo (← M.ask' (·.tlsErr)); f; pure e : M Int) := by steps [free_setErrNo]
  split
  · exact .free failed
  · refine (Cost.bind (cost_sysSend _ _ _) (k' := 0) (n' := 0) fun r => ?_).le
    split
    · exact .free failed
    · exact .pure _

theorem cost_fb {send reply : M Int} (hs : Cost env 1 0 send) (hr : Steps env Free reply) (e t : Int) :
    Cost env 1 0 (do if (← send) ≠ 0 then pure e else do
            let code ← reply
            if code ≠ -1 then pure code else do cleanup; pure t) := by
  refine (Cost.bind hs (k' := 0) (n' := 0) fun c => .ite (.pure _) (.free ?_)).le
  steps [free_cleanup]

theorem cost_rawFb (d : Bytes) (e t : Int) : Cost env 1 0 (sendRawFb d e t) := by
  unfold sendRawFb sendRaw
  exact cost_fb (cost_rawWith free_cleanup _ _ _) free_rawReply e t

theorem cost_sendFb (d : Bytes) (e t : Int) : Cost env 1 0 (sendFb d e t) := by
  unfold sendFb sendTlsFb
  exact .gets fun _ => .gets fun _ => .ite (cost_rawFb d e t) (cost_fb (cost_bioWith free_cleanup _ _ _) free_tlsReply e t)

theorem cost_ptrFb (d : Bytes) (e t : Int) : Cost env 1 0 (sendPtrFb d e t) := by
  unfold sendPtrFb
  exact .gets fun _ => .ite (cost_rawFb d e t) (cost_sendFb d e t)

theorem cost_identify (e t : Int) : Cost env 1 0 (identify e t) := by
  unfold identify
  refine .then0 (free_addLog _ _) fun _ => (Cost.bind (cost_sendFb _ _ _) (k' := 0) (n' := 0) fun c => .ite (.pure _) (.free ?_)).le
  unfold lastResponseText setAuthOptions
  steps [free_ehloLoop, free_modifyMem]

theorem cost_secureIdent : Cost env 1 0 getServerSecureIdentification := by
  unfold getServerSecureIdentification
  exact .then0 (free_addLog _ _) fun _ => cost_identify _ _

theorem cost_authenticate : Cost env 3 0 authenticateIfNeeded := by
  unfold authenticateIfNeeded
  refine .gets fun c => .ite ((Cost.bind (k := 3) (n := 0) (k' := 0) (n' := 0) ?_ fun r => .ite (.pure _) (.pure _)).le) (.pure _)
  unfold authenticateClient
  refine .gets fun c => ?_
  split
  · exact .pure _
  · refine .gets fun o => ?_
    split
    · exact .stop _
    · refine .ite ?_ (.ite ?_ (.ite ?_ (.pure _)))
      · exact .then0 (free_addLog _ _) fun _ => (cost_ptrFb _ _ _).le
      · refine .then0 (free_addLog _ _) fun _ => ?_
        refine (Cost.bind (cost_ptrFb _ _ _) (k' := 2) (n' := 0) fun c => .ite (.pure _) ?_).le
        exact (Cost.bind (cost_ptrFb _ _ _) (k' := 1) (n' := 0) fun c => .ite (.pure _) (cost_ptrFb _ _ _)).le
      · exact .then0 (free_addLog _ _) fun _ => (cost_ptrFb _ _ _).le

theorem cost_select (fd : Int) (t : Nat) : Cost env 0 1 (sysSelect fd t) := by
  constructor
  intro s
  unfold sysSelect M.ask commandSends selects
  dsimp only
  rw [List.countP_append, List.countP_append]
  exact ⟨Nat.le_refl _, Nat.le_refl _⟩

theorem cost_connect (ip : Bytes) : Cost env 0 1 (connectPOSIX ip) := by
  unfold connectPOSIX sysConnect
  refine .gets fun fd => .gets fun p => .then0 (Steps.ask fun _ _ => free_event rfl rfl) fun r => ?_
  split
  · exact .free free_setBlocking
  · refine .ite (.ite (.stop _) (.gets fun t => ?_)) (.then0 (free_logErrno _) fun _ => .pure _)
    refine (Cost.bind (cost_select _ _) (k' := 0) (n' := 0) fun r => .free ?_).le
    unfold sysSockopt
    steps [free_logErrno, free_setBlocking, Steps.ask]
    exact free_event rfl rfl

theorem cost_initialize : Cost env 0 1 initializeSession := by
  unfold initializeSession initializePOSIX sysSocket sysResolve
  refine .then0 (free_modifyMem _ _) fun _ => .then0 (Steps.ask fun _ _ => free_event rfl rfl) fun r => ?_
  split
  · exact .free (by steps [free_modify, free_logErrno])
  · refine .then0 (free_modify _) fun _ => .gets fun n => ?_
    split
    · exact .stop _
    · refine .then0 (Steps.ask fun _ _ => free_event rfl rfl) fun r => ?_
      split
      · exact .pure _
      · refine .ite (.stop _) (.then0 free_setNonBlocking fun r => .ite (.pure _) (.gets fun p => ?_))
        exact .then0 (free_addLog _ _) fun _ => cost_connect _

/-- Two EHLO, STARTTLS and three lines of a login, one connection. -/
theorem cost_establish : Cost env 6 1 establish := by
  unfold establish
  refine (Cost.bind cost_initialize (k' := 6) (n' := 0) fun c => .ite (.pure _) (.gets fun kind => ?_)).le
  have greeted : ∀ {rest : M Int}, Cost env 5 0 rest → Cost env 6 0 (establishGreeted rest) := by
    intro rest hr
    unfold establishGreeted sendServerIdentification
    refine .then0 free_greetings fun c => .ite (.pure _) ?_
    exact (Cost.bind (cost_identify _ _) fun c => .ite (.pure _) hr).le
  cases kind with
  | smtp => exact greeted cost_authenticate.le
  | opportunistic =>
    refine greeted ?_
    unfold establishOpportunistic
    refine .gets fun r => ?_
    split
    · exact .stop _
    · refine .then0 (free_addLog _ _) fun _ => ?_
      unfold upgradeToSecureConnection
      refine (Cost.bind (k := 1) (n := 0) (k' := 4) (n' := 0) (.then0 (free_addLog _ _) fun _ => cost_rawFb _ _ _) fun c => .ite (.pure _) ?_).le
      refine .then0 free_startTls fun c => .ite (.pure _) ?_
      exact (Cost.bind cost_secureIdent (k' := 3) (n' := 0) fun c => .ite (.pure _) cost_authenticate).le
    · refine .then0 (free_addLog _ _) fun _ => .then0 (free_modify _) fun _ => .pure _
  | forced =>
    unfold establishForced
    refine .then0 free_startTls fun c => .ite (.pure _) (.then0 free_greetings fun c => .ite (.pure _) ?_)
    exact (Cost.bind cost_secureIdent (k' := 3) (n' := 0) fun c => .ite (.pure _) cost_authenticate).le

theorem cost_mailFrom (c : Int) (l : List Bytes) : Cost env l.length 0 (mailFromLoop c l) := by
  induction l generalizing c with
  | nil => unfold mailFromLoop; exact .pure _
  | cons f l ih =>
    unfold mailFromLoop
    refine .then0 (free_addLog _ _) fun _ => (Cost.bind (cost_ptrFb _ _ _) (k' := l.length) (n' := 0) fun c => .ite (.pure _) (.ite (.pure _) (ih c))).le ?_
    rw [List.length_cons]; omega

theorem cost_rcpt (c : Int) (l : List MessageAddress) : Cost env l.length 0 (addMailRecipients c l) := by
  induction l generalizing c with
  | nil => unfold addMailRecipients; exact .pure _
  | cons f l ih =>
    unfold addMailRecipients
    refine .then0 (free_addLog _ _) fun _ => (Cost.bind (cost_ptrFb _ _ _) (k' := l.length) (n' := 0) fun c => ih _).le ?_
    rw [List.length_cons]; omega

theorem cost_elems {a : Arr α} {f : List α → M β} {k n : Nat} (hf : Cost env k n (f (elems a))) : Cost env k n (arrElems a >>= f) := by
  have stopped : ∀ u, Cost env k n ((M.stop u : M (List α)) >>= f) := fun u => ⟨fun s => ⟨Nat.le_add_right _ _, Nat.le_add_right _ _⟩⟩
  have good : ∀ l, l = elems a → Cost env k n ((Pure.pure l : M (List α)) >>= f) := fun l hl => ⟨fun s => by subst hl; exact hf.run s⟩
  unfold arrElems
  cases hp : a.ptr with
  | none =>
    dsimp only
    split
    · exact good _ (by simp [elems, hp])
    · exact stopped _
  | some l =>
    dsimp only
    split
    · exact good _ (by simp [elems, hp])
    · exact stopped _

theorem cost_recipients (l : List (Arr MessageAddress)) : Cost env (l.map fun a => (elems a).length).sum 0 (recipientsLoop l) := by
  induction l with
  | nil => unfold recipientsLoop; exact .pure _
  | cons a l ih =>
    unfold recipientsLoop
    simp only [List.map_cons, List.sum_cons]
    refine .ite ih.le (cost_elems ?_)
    exact (Cost.bind (cost_rcpt _ _) fun c => .ite (.pure _) ih).le

theorem cost_headers (m : Message) : Cost env 1 0 (setMailHeaders m) := by
  unfold setMailHeaders
  refine .then0 (free_addLog _ _) fun _ => (Cost.bind (cost_ptrFb _ _ _) (k' := 0) (n' := 0) fun c => .ite (.pure _) (.free ?_)).le
  unfold addressHeader addMailHeader arrElems
  steps [free_addLog, free_content]

theorem free_attachments (l : List Attachment) : Steps env Free (attachmentsLoop l) := by
  induction l with
  | nil => unfold attachmentsLoop; steps []
  | cons a l ih => unfold attachmentsLoop base64EncodedFile; steps [free_readFile]

theorem free_pieces (l : List Bytes) : Steps env Free (sendPieces l) := by
  induction l with
  | nil => unfold sendPieces; steps []
  | cons a l ih => unfold sendPieces; steps [free_content]

theorem cost_body (m : Message) : Cost env 1 0 (setMailBody m) := by
  unfold setMailBody
  have hb : Steps env Free (fullBody m) := by
    unfold fullBody createAttachmentsText arrElems
    steps [free_attachments]
  have ht : ∀ b, Steps env Free (sendBodyText b) := by
    intro b
    unfold sendBodyText
    steps [free_pieces, free_content]
  refine .then0 (free_addLog _ _) fun _ => .then0 hb fun b => .then0 (ht b) fun c => .ite (.pure _) (.then0 (free_addLog _ _) fun _ => ?_)
  refine (Cost.bind (cost_ptrFb _ _ _) (k' := 0) (n' := 0) fun c => .ite (.pure _) (.free ?_)).le
  steps [free_quit]

/-- A mail in an open session: at most three forms of the sender, the recipients, DATA and the end mark. -/
theorem cost_connected (m : Message) : Cost env (5 + (recipients m).length) 0 (sendMailConnected m) := by
  have hr : Cost env (3 + (recipients m).length) 0 (setMailRecipients m) := by
    unfold setMailRecipients
    refine (Cost.bind (cost_mailFrom _ _) fun c => .ite (.pure _) (cost_recipients _)).le ?_
    simp [mailFormats, recipients]
  unfold sendMailConnected sendMailRest
  refine .then0 (free_modify _) fun _ => ?_
  refine (Cost.bind hr (k' := 2) (n' := 0) fun c => .ite (.pure _) ?_).le
  refine (Cost.bind (cost_headers m) (k' := 1) (n' := 0) fun c => .ite (.pure _) ?_).le
  refine (Cost.bind (cost_body m) (k' := 0) (n' := 0) fun c => .ite (.pure _) (.free ?_)).le
  steps [free_cleanup]

/-- A call sends at most 11 commands and one for every recipient, and calls `select` at most once. -/
theorem cost_sendMail (m : Message) : Cost env (11 + (recipients m).length) 1 (sendMail m) := by
  unfold sendMail
  refine .gets fun b => .ite (cost_connected m).le ?_
  exact (Cost.bind cost_establish fun c => .ite (.pure _) (cost_connected m)).le

theorem sendMail_open (m : Message) (s : St) (h : s.client.isConnected = true) : sendMail m env s = sendMailConnected m env s := by
  have : sendMail m env s = (if s.client.isConnected = true then sendMailConnected m else do
    let code ← establish
    if code ≠ 0 then pure code else sendMailConnected m : M Int) env s := rfl
  rw [this, if_pos h]

end Verif.Proofs
