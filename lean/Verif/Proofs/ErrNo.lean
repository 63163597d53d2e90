import Verif.Proofs.Frame
import Verif.Spec.ErrNo
/-!
# The error number is that of the last failure
-/
namespace Verif.Proofs
open Verif Verif.Model Verif.Spec

variable {α β : Type} {env : Env}

/-- The error number follows the failures in the history. -/
def ErrnoKept (env : Env) (s s' : St) : Prop :=
  s'.client.kind = s.client.kind ∧ ∃ evs, s'.hist = s.hist ++ evs ∧
    (s'.client.lastErrNo = lastFailure s.client.lastErrNo evs ∨ (s.client.kind ≠ .smtp ∧ TlsNumber env s.hist evs s'.client.lastErrNo))

theorem lastFailure_append (n : Int) (a b : Hist) : lastFailure n (a ++ b) = lastFailure (lastFailure n a) b := by
  unfold lastFailure
  rw [List.filterMap_append, List.getLast?_append]
  cases (b.filterMap failNo).getLast? <;> simp

theorem lastFailure_none {n : Int} {b : Hist} (h : b.filterMap failNo = []) : lastFailure n b = n := by
  unfold lastFailure; rw [h]; rfl

theorem lastFailure_some {b : Hist} (h : b.filterMap failNo ≠ []) (n m : Int) : lastFailure n b = lastFailure m b := by
  unfold lastFailure
  obtain ⟨x, hx⟩ : ∃ x, (b.filterMap failNo).getLast? = some x := ⟨_, List.getLast?_eq_some_getLast h⟩
  rw [hx]; rfl

instance : Preord (ErrnoKept env) where
  refl s := ⟨rfl, [], by simp, .inl rfl⟩
  trans := by
    rintro a b c ⟨hk, e1, h1, o1⟩ ⟨hk', e2, h2, o2⟩
    refine ⟨hk'.trans hk, e1 ++ e2, by rw [h2, h1, List.append_assoc], ?_⟩
    rcases o2 with o2 | ⟨n2, p, q, rfl, hq, ht⟩
    · rcases o1 with o1 | ⟨n1, p, q, rfl, hq, ht⟩
      · left; rw [o2, o1, lastFailure_append]
      · by_cases he : e2.filterMap failNo = []
        · right
          refine ⟨n1, p, q ++ e2, by simp, by simp [hq, he], ?_⟩
          rw [o2, lastFailure_none he, ht]
        · left
          rw [o2, lastFailure_append]
          exact lastFailure_some he _ _
    · right
      refine ⟨by rw [← hk]; exact n2, e1 ++ p, q, by simp, hq, ?_⟩
      rw [ht, h1, List.append_assoc]

/-! ### Single steps -/

theorem errno_event {s : St} {e : Ev} (h : failNo e = none) : ErrnoKept env s { s with hist := s.hist ++ [e] } :=
  ⟨rfl, [e], rfl, .inl (lastFailure_none (by simp [h])).symm⟩

theorem errno_failed {s : St} {e : Ev} {n : Int} (h : failNo e = some n) :
    ErrnoKept env s { s with hist := s.hist ++ [e], client := { s.client with lastErrNo := n } } :=
  ⟨rfl, [e], rfl, .inl (by simp [lastFailure, h])⟩

theorem errno_client {s s' : St} (h : s'.hist = s.hist) (hk : s'.client.kind = s.client.kind) (he : s'.client.lastErrNo = s.client.lastErrNo) :
    ErrnoKept env s s' := ⟨hk, [], by simp [h], .inl he⟩

theorem errno_addLog (i p : Bytes) : Steps env (ErrnoKept env) (addLog i p) := by
  unfold addLog
  steps [Steps.modifyMem]
  exact errno_client rfl rfl rfl

/-- What is still to be done after a failure with number `n`. -/
structure Due (env : Env) (n : Int) (m : M α) : Prop where
  run : ∀ s, wp env m (fun _ => ErrnoKept env { s with client := { s.client with lastErrNo := n } })
    (fun _ => ErrnoKept env { s with client := { s.client with lastErrNo := n } }) s

theorem due_set {n : Int} {k : M α} (h : Steps env (ErrnoKept env) k) : Due env n (setErrNo n >>= fun _ => k) :=
  ⟨fun _ => h.run _⟩

theorem due_log {n : Int} : Due env n (logErrno n) := by
  unfold logErrno
  exact due_set (.bind (.env' _) fun _ => errno_addLog _ _)

theorem due_bind {n : Int} {m : M α} {k : α → M β} (hm : Due env n m) (hk : ∀ a, Steps env (ErrnoKept env) (k a)) : Due env n (m >>= k) := by
  constructor
  intro s
  rw [wp_bind]
  exact wp_mono (hm.run s) (fun a s' h => wp_mono ((hk a).run s') (fun _ _ h' => Preord.trans h h') (fun _ _ h' => Preord.trans h h')) (fun _ _ h => h)

theorem due_modify {n : Int} {f : Client → Client} {m : Unit → M α} (hk : ∀ c, (f c).kind = c.kind) (hm : ∀ u, Due env n (m u)) : Due env n (M.modify f >>= m) := by
  constructor
  intro s
  rw [wp_bind, wp_modify]
  have : ErrnoKept env { s with client := { s.client with lastErrNo := n } } { s with client := { f s.client with lastErrNo := n } } := errno_client rfl (hk _) rfl
  exact wp_mono ((hm ()).run { s with client := f s.client }) (fun _ _ h => Preord.trans this h) (fun _ _ h => Preord.trans this h)

theorem errno_ask {f : Env → Hist → α} {ev : α → Ev} {k : α → M β} (hn : ∀ a, failNo (ev a) = none → Steps env (ErrnoKept env) (k a))
    (hs : ∀ a n, failNo (ev a) = some n → Due env n (k a)) : Steps env (ErrnoKept env) (M.ask f ev >>= k) := by
  constructor
  intro s
  rw [wp_bind, wp_ask]
  generalize f env s.hist = a
  cases h : failNo (ev a) with
  | none => exact wp_mono ((hn a h).run _) (fun _ _ h' => Preord.trans (errno_event h) h') (fun _ _ h' => Preord.trans (errno_event h) h')
  | some n => exact wp_mono ((hs a n h).run _) (fun _ _ h' => Preord.trans (errno_failed h) h') (fun _ _ h' => Preord.trans (errno_failed h) h')

/-- Calls that never fail with a number. -/
theorem errno_quiet {f : Env → Hist → α} {ev : α → Ev} (h : ∀ a, failNo (ev a) = none) : Steps env (ErrnoKept env) (M.ask f ev) :=
  Steps.ask fun _ _ => errno_event (h _)

/-! ### Reading -/

theorem errno_setNonBlocking : Steps env (ErrnoKept env) setNonBlocking := by
  unfold setNonBlocking sysFcntlGet sysFcntlSet
  have h2 : ∀ sock : Int, Steps env (ErrnoKept env) (M.ask (fun e h => e.fcntlSet h sock true) (Ev.fcntlSet sock true) >>= fun r =>
      match r with | .err e => (do logErrno e; pure (-8)) | .ok => pure 0 : M Int) := by
    intro sock
    refine errno_ask (fun a h => ?_) fun a n h => ?_
    · cases a with
      | ok => exact .pure _
      | err e => cases h
    · cases a with
      | ok => cases h
      | err e => cases h; exact due_bind due_log fun _ => .pure _
  refine .bind (.gets _) fun sock => errno_ask (fun a h => ?_) fun a n h => ?_
  · cases a with
    | ok => exact .bind (.pure _) fun _ => h2 sock
    | err e => cases h
  · cases a with
    | ok => cases h
    | err e => cases h; exact due_bind due_log fun _ => h2 sock

theorem errno_setBlocking : Steps env (ErrnoKept env) setBlocking := by
  unfold setBlocking sysFcntlGet sysFcntlSet
  refine .bind (.gets _) fun sock => errno_ask (fun a h => ?_) fun a n h => ?_
  · cases a with
    | ok =>
      refine errno_ask (fun a h => ?_) fun a n h => ?_
      · cases a with
        | ok => exact .pure _
        | err e => cases h
      · cases a with
        | ok => cases h
        | err e => cases h; exact due_bind due_log fun _ => .pure _
    | err e => cases h
  · cases a with
    | ok => cases h
    | err e => cases h; exact due_bind due_log fun _ => .pure _

theorem errno_sleep : Steps env (ErrnoKept env) sysSleep := Steps.emit fun _ => errno_event rfl

theorem errno_recv (c : Chan) : Steps env (ErrnoKept env) (sysRecv c) := by
  unfold sysRecv
  steps [errno_quiet]
  rfl

theorem errno_response (b : Bytes) : Steps env (ErrnoKept env) (setLastServerResponse b) := Steps.modifyMem fun _ => errno_client rfl rfl rfl
theorem errno_options (b : Bytes) : Steps env (ErrnoKept env) (setAuthOptions b) := Steps.modifyMem fun _ => errno_client rfl rfl rfl

theorem errno_rawLoop (n w : Nat) (a : Bytes) (g : Bool) : Steps env (ErrnoKept env) (rawReplyLoop n w a g) := by
  induction n generalizing w a g with
  | zero => unfold rawReplyLoop; steps []
  | succ n ih => unfold rawReplyLoop; steps [errno_recv, errno_sleep, ih]

theorem errno_rawReply : Steps env (ErrnoKept env) getRawReply := by
  unfold getRawReply
  steps [errno_setNonBlocking, errno_setBlocking, errno_rawLoop, errno_addLog, errno_response]

theorem errno_bioRead : Steps env (ErrnoKept env) bioRead := by
  unfold bioRead; steps [errno_recv]

theorem errno_waitLoop {read : M RecvRes} (hr : Steps env (ErrnoKept env) read) (n) : Steps env (ErrnoKept env) (waitLoop read n) := by
  induction n with
  | zero => unfold waitLoop; steps []
  | succ n ih => unfold waitLoop; steps [errno_sleep]

theorem errno_tlsReply : Steps env (ErrnoKept env) getTlsReply := by
  unfold getTlsReply
  steps [errno_waitLoop errno_bioRead, errno_addLog, errno_response]

theorem errno_reply : Steps env (ErrnoKept env) getServerReply := by
  unfold getServerReply; steps [errno_rawReply, errno_tlsReply]

theorem errno_greetings : Steps env (ErrnoKept env) checkServerGreetings := by
  unfold checkServerGreetings greetingResult
  steps [errno_waitLoop errno_bioRead, errno_waitLoop (errno_recv _), errno_addLog]

theorem errno_lastText : Steps env (ErrnoKept env) lastResponseText := by
  unfold lastResponseText; steps []

theorem errno_ehloLoop (t n o) : Steps env (ErrnoKept env) (ehloLoop t n o) := by
  induction n generalizing o with
  | zero => unfold ehloLoop; steps []
  | succ n ih => unfold ehloLoop; steps [errno_reply, errno_lastText, ih]

/-! ### The code for the clients with TLS -/

/-- As `Steps`, for clients made for TLS. -/
structure SecureErrno (env : Env) (m : M α) : Prop where
  run : ∀ s, s.client.kind ≠ .smtp → wp env m (fun _ => ErrnoKept env s) (fun _ => ErrnoKept env s) s

namespace SecureErrno

theorem of_steps {m : M α} (h : Steps env (ErrnoKept env) m) : SecureErrno env m := ⟨fun s _ => h.run s⟩

theorem bind {m : M α} {k : α → M β} (hm : SecureErrno env m) (hk : ∀ a, SecureErrno env (k a)) : SecureErrno env (m >>= k) := by
  constructor
  intro s hs
  rw [wp_bind]
  exact wp_mono (hm.run s hs) (fun a s' h => wp_mono ((hk a).run s' (by rw [h.1]; exact hs)) (fun _ _ h' => Preord.trans h h') (fun _ _ h' => Preord.trans h h'))
    (fun _ _ h => h)

theorem ite {c : Prop} [Decidable c] {a b : M α} (ha : SecureErrno env a) (hb : SecureErrno env b) : SecureErrno env (if c then a else b) := by
  split <;> assumption

/-- The number of the TLS library. -/
theorem number : SecureErrno env (M.ask' (·.tlsErr) >>= setErrNo) := by
  constructor
  intro s hs
  exact ⟨rfl, [], by simp, .inr ⟨hs, [], [], rfl, rfl, by simp⟩⟩

theorem numberThen {k : M α} (h : SecureErrno env k) : SecureErrno env (M.ask' (·.tlsErr) >>= fun n => setErrNo n >>= fun _ => k) :=
  ⟨fun s hs => (bind number fun _ => h).run s hs⟩

end SecureErrno

/-- A choice that depends on the class. -/
theorem errno_kind {a b : M α} (ha : Steps env (ErrnoKept env) a) (hb : SecureErrno env b) (x : Bool) :
    Steps env (ErrnoKept env) (M.gets (·.kind) >>= fun k => if (x || k == .smtp) = true then a else b) := by
  constructor
  intro s
  rw [wp_bind, wp_gets]
  by_cases hk : s.client.kind = .smtp
  · simp only [hk, BEq.rfl, Bool.or_true, if_true]; exact ha.run s
  · split
    · exact ha.run s
    · exact hb.run s hk

/-! ### Sending -/

theorem errno_sendRawWith {f : M Unit} (hf : Steps env (ErrnoKept env) f) (k d e) : Steps env (ErrnoKept env) (sendRawWith f k d e) := by
  unfold sendRawWith sysSend
  refine .bind (.gets _) fun sock => ?_
  constructor
  intro s
  simp only [wp_bind, wp_ask]
  generalize normSend _ _ _ = r
  cases r with
  | fail n =>
    have hd : Due env n (setErrNo n >>= fun _ => f >>= fun _ => pure e) := due_set (.bind hf fun _ => .pure _)
    have := hd.run { s with hist := s.hist ++ [.send k (.raw sock) (cstr d) (.fail n)] }
    have h1 : ErrnoKept env s { s with hist := s.hist ++ [.send k (.raw sock) (cstr d) (.fail n)], client := { s.client with lastErrNo := n } } := errno_failed rfl
    show wp env (setErrNo n >>= fun _ => f >>= fun _ => pure e) (fun _ => ErrnoKept env s) (fun _ => ErrnoKept env s) _
    exact wp_mono this (fun _ _ h => Preord.trans h1 h) (fun _ _ h => Preord.trans h1 h)
  | sent n => exact errno_event rfl
  | never => exact errno_event rfl

theorem errno_sendBioWith {f : M Unit} (hf : SecureErrno env f) (k d e) : SecureErrno env (sendBioWith f k d e) := by
  unfold sendBioWith sysSend
  refine .bind (.of_steps (.gets _)) fun b => ?_
  split
  · exact .numberThen (.bind hf fun _ => .of_steps (.pure _))
  · refine .bind (.of_steps (.bind (errno_quiet fun r => ?_) fun r => .ite (.stop _) (.pure _))) fun r => ?_
    · rfl
    split
    · exact .numberThen (.bind hf fun _ => .of_steps (.pure _))
    · exact .of_steps (.pure _)

theorem errno_sendPtrWith {f : M Unit} (hf : Steps env (ErrnoKept env) f) (k d e) : Steps env (ErrnoKept env) (sendPtrWith f k d e) := by
  unfold sendPtrWith
  exact .bind (.gets _) fun x => errno_kind (errno_sendRawWith hf k d e) (errno_sendBioWith (.of_steps hf) k d e) x

theorem errno_quitWith {f : M Unit} (hf : Steps env (ErrnoKept env) f) : Steps env (ErrnoKept env) (sendQuitWith f) := by
  unfold sendQuitWith
  steps [errno_addLog, errno_sendPtrWith]

theorem errno_closeSession : Steps env (ErrnoKept env) closeSession := by
  unfold closeSession closeSocket freeTls emitBioFree sysClose
  steps [Steps.modify, Steps.emit]
  all_goals first | exact errno_client rfl rfl rfl | exact errno_event rfl

theorem errno_cleanupN (n) : Steps env (ErrnoKept env) (cleanupN n) := by
  induction n with
  | zero => unfold cleanupN; steps []
  | succ n ih => unfold cleanupN; steps [errno_quitWith, errno_closeSession]

theorem errno_cleanup : Steps env (ErrnoKept env) cleanup := by
  unfold cleanup; steps [errno_cleanupN]

theorem errno_sendPtr (k d e) : Steps env (ErrnoKept env) (sendPtr k d e) := errno_sendPtrWith errno_cleanup k d e
theorem errno_quit : Steps env (ErrnoKept env) sendQuit := errno_quitWith errno_cleanup

theorem errno_sendRawFb (d e t) : Steps env (ErrnoKept env) (sendRawFb d e t) := by
  unfold sendRawFb sendRaw
  steps [errno_sendRawWith, errno_rawReply, errno_cleanup]

theorem errno_sendTlsFb (d e t) : SecureErrno env (sendTlsFb d e t) := by
  unfold sendTlsFb
  refine .bind (errno_sendBioWith (.of_steps errno_cleanup) _ _ _) fun r => .ite (.of_steps (.pure _)) ?_
  refine .of_steps ?_
  steps [errno_tlsReply, errno_cleanup]

theorem errno_sendFb (d e t) : Steps env (ErrnoKept env) (sendFb d e t) := by
  unfold sendFb
  constructor
  intro s
  simp only [wp_bind, wp_gets]
  by_cases hk : s.client.kind = .smtp
  · simp only [hk, BEq.rfl, Bool.true_or, if_true]; exact (errno_sendRawFb d e t).run s
  · split
    · exact (errno_sendRawFb d e t).run s
    · exact (errno_sendTlsFb d e t).run s hk

theorem errno_sendPtrFb (d e t) : Steps env (ErrnoKept env) (sendPtrFb d e t) := by
  unfold sendPtrFb
  steps [errno_sendRawFb, errno_sendFb]

/-! ### Opening -/

theorem errno_connect (ip) : Steps env (ErrnoKept env) (connectPOSIX ip) := by
  unfold connectPOSIX sysConnect
  refine .bind (.gets _) fun sock => .bind (.gets _) fun p => errno_ask (fun a h => ?_) fun a n h => ?_
  · cases a with
    | ok => exact errno_setBlocking
    | err e =>
      have : e = 115 := by
        by_cases hv : e = 115
        · exact hv
        · simp [failNo, hv] at h
      subst this
      simp only [if_true]
      refine .ite (.stop _) (.bind (.gets _) fun t => ?_)
      unfold sysSelect
      refine errno_ask (fun a h => ?_) fun a n h => ?_
      · cases a with
        | err e =>
          have : e = 4 := Decidable.byContradiction fun hv => by simp [failNo, hv] at h
          subst this
          exact .pure _
        | timeout => exact .pure _
        | ready =>
          unfold sysSockopt
          refine errno_ask (fun a h => ?_) fun a n h => ?_
          · cases a with
            | err e => cases h
            | val v =>
              have : v = 0 := Decidable.byContradiction fun hv => by simp [failNo, hv] at h
              subst this
              exact errno_setBlocking
          · cases a with
            | err e => cases h; exact due_bind due_log fun _ => .pure _
            | val v =>
              simp only [failNo] at h
              split at h
              · cases h
              · rename_i hv; cases h
                simp only [hv, ne_eq, not_false_eq_true, if_true]
                exact due_bind due_log fun _ => .pure _
      · cases a with
        | err e =>
          simp only [failNo] at h
          split at h
          · cases h
          · rename_i hv; cases h
            simp only [hv, ne_eq, not_false_eq_true, if_true]
            exact due_bind due_log fun _ => .pure _
        | timeout => cases h
        | ready => cases h
  · cases a with
    | ok => cases h
    | err e =>
      simp only [failNo] at h
      split at h
      · cases h
      · rename_i hv; cases h
        simp only [hv, if_false]
        exact due_bind due_log fun _ => .pure _

theorem errno_initialize : Steps env (ErrnoKept env) initializeSession := by
  unfold initializeSession initializePOSIX sysSocket
  refine .bind (.modifyMem fun _ => errno_client rfl rfl rfl) fun _ => errno_ask (fun a h => ?_) fun a n h => ?_
  · cases a with
    | err e => cases h
    | val v =>
      unfold sysResolve
      steps [Steps.modify, errno_quiet, errno_setNonBlocking, errno_addLog, errno_connect]
      all_goals first | exact errno_client rfl rfl rfl | rfl
  · cases a with
    | val v => cases h
    | err e => cases h; exact due_modify (fun _ => rfl) fun _ => due_bind due_log fun _ => .pure _

theorem errno_tls (op) : Steps env (ErrnoKept env) (sysTls op) := errno_quiet fun _ => rfl

theorem errno_startTLS : SecureErrno env startTLSNegotiation := by
  unfold startTLSNegotiation
  have hm : ∀ f : Client → Client, (∀ c, (f c).kind = c.kind ∧ (f c).lastErrNo = c.lastErrNo) → SecureErrno env (M.modify f) := fun f h =>
    .of_steps (.modify fun s => errno_client rfl (h _).1 (h _).2)
  refine .bind (.of_steps (errno_addLog _ _)) fun _ => .bind (.of_steps (errno_tls _)) fun _ => .ite ?_ ?_
  · exact .bind (hm _ fun _ => ⟨rfl, rfl⟩) fun _ => .numberThen (.of_steps (.pure _))
  refine .bind (hm _ fun _ => ⟨rfl, rfl⟩) fun _ => .bind (.of_steps .histLength) fun id => .bind (.of_steps (errno_tls _)) fun _ => .ite ?_ ?_
  · exact .bind (hm _ fun _ => ⟨rfl, rfl⟩) fun _ => .of_steps (.pure _)
  refine .bind (.of_steps (.gets _)) fun sock => .bind (hm _ fun _ => ⟨rfl, rfl⟩) fun _ => .bind (.of_steps (.gets _)) fun nm => ?_
  split
  · exact .of_steps (.stop _)
  refine .bind (.of_steps (.gets _)) fun p => .ite (.of_steps (.stop _)) (.bind (.of_steps (errno_tls _)) fun _ => .ite (.of_steps (.pure _)) ?_)
  refine .bind (.of_steps (errno_tls _)) fun _ => .ite (.bind (.of_steps errno_cleanup) fun _ => .numberThen (.of_steps (.pure _))) ?_
  refine .bind (.of_steps (errno_addLog _ _)) fun _ => .bind (.of_steps (errno_tls _)) fun _ => .ite (.bind (.of_steps errno_cleanup) fun _ => .numberThen (.of_steps (.pure _))) ?_
  refine .of_steps ?_
  steps [errno_addLog, errno_tls, errno_cleanup]

theorem errno_identify (e t) : Steps env (ErrnoKept env) (identify e t) := by
  unfold identify
  steps [errno_sendFb, errno_addLog, errno_lastText, errno_ehloLoop, errno_options]

theorem errno_authenticate : Steps env (ErrnoKept env) authenticateIfNeeded := by
  unfold authenticateIfNeeded authenticateClient authPlainM authLoginM authXOAuth2M
  steps [errno_addLog, errno_sendPtrFb]

theorem errno_greeted {rest : M Int} (h : SecureErrno env rest) : SecureErrno env (establishGreeted rest) := by
  unfold establishGreeted sendServerIdentification
  exact .bind (.of_steps errno_greetings) fun _ => .ite (.of_steps (.pure _)) (.bind (.of_steps (errno_identify _ _)) fun _ => .ite (.of_steps (.pure _)) h)

theorem errno_secureIdent : Steps env (ErrnoKept env) getServerSecureIdentification := by
  unfold getServerSecureIdentification
  steps [errno_addLog, errno_identify]

theorem errno_forced : SecureErrno env establishForced := by
  unfold establishForced
  refine .bind errno_startTLS fun _ => .of_steps ?_
  steps [errno_greetings, errno_secureIdent, errno_authenticate]

theorem errno_opportunistic : SecureErrno env establishOpportunistic := by
  unfold establishOpportunistic upgradeToSecureConnection setKeepUsingBase
  refine .bind (.of_steps (.gets _)) fun r => ?_
  split
  · exact .of_steps (.stop _)
  · refine .bind (.of_steps (errno_addLog _ _)) fun _ => .bind (.of_steps ?_) fun _ => .ite (.of_steps (.pure _)) (.bind errno_startTLS fun _ => .of_steps ?_)
    · steps [errno_addLog, errno_sendRawFb]
    · steps [errno_secureIdent, errno_authenticate]
  · refine .of_steps ?_
    steps [errno_addLog, Steps.modify]
    exact errno_client rfl rfl rfl

theorem errno_establish : Steps env (ErrnoKept env) establish := by
  unfold establish
  refine .bind errno_initialize fun _ => .ite (.pure _) ?_
  constructor
  intro s
  rw [wp_bind, wp_gets]
  cases hk : s.client.kind with
  | smtp =>
    refine Steps.run ?_ s
    unfold establishGreeted sendServerIdentification
    steps [errno_greetings, errno_identify, errno_authenticate]
  | opportunistic => exact (errno_greeted errno_opportunistic).run s (by rw [hk]; decide)
  | forced => exact errno_forced.run s (by rw [hk]; decide)

/-! ### Mails -/

theorem errno_mailFromLoop (c l) : Steps env (ErrnoKept env) (mailFromLoop c l) := by
  induction l generalizing c with
  | nil => unfold mailFromLoop; steps []
  | cons f l ih => unfold mailFromLoop; steps [errno_addLog, errno_sendPtrFb, ih]

theorem errno_addRecipients (c l) : Steps env (ErrnoKept env) (addMailRecipients c l) := by
  induction l generalizing c with
  | nil => unfold addMailRecipients; steps []
  | cons f l ih => unfold addMailRecipients; steps [errno_addLog, errno_sendPtrFb, ih]

theorem errno_arrElems {γ : Type} (a : Arr γ) : Steps env (ErrnoKept env) (arrElems a) := by
  unfold arrElems; steps []

theorem errno_recipientsLoop (l) : Steps env (ErrnoKept env) (recipientsLoop l) := by
  induction l with
  | nil => unfold recipientsLoop; steps []
  | cons a l ih => unfold recipientsLoop; steps [errno_arrElems, errno_addRecipients]

theorem errno_recipients (m) : Steps env (ErrnoKept env) (setMailRecipients m) := by
  unfold setMailRecipients; steps [errno_mailFromLoop, errno_recipientsLoop]

theorem errno_headers (m) : Steps env (ErrnoKept env) (setMailHeaders m) := by
  unfold setMailHeaders addressHeader addMailHeader
  steps [errno_addLog, errno_sendPtrFb, errno_sendPtr, errno_arrElems]

theorem errno_pieces (l) : Steps env (ErrnoKept env) (sendPieces l) := by
  induction l with
  | nil => unfold sendPieces; steps []
  | cons a l ih => unfold sendPieces; steps [errno_sendPtr]

theorem errno_attachments (l) : Steps env (ErrnoKept env) (attachmentsLoop l) := by
  induction l with
  | nil => unfold attachmentsLoop; steps []
  | cons a l ih =>
    unfold attachmentsLoop base64EncodedFile sysReadFile
    steps [errno_quiet]
    rfl

theorem errno_fullBody (m) : Steps env (ErrnoKept env) (fullBody m) := by
  unfold fullBody createAttachmentsText; steps [errno_attachments, errno_arrElems]

theorem errno_body (m) : Steps env (ErrnoKept env) (setMailBody m) := by
  unfold setMailBody sendBodyText
  steps [errno_addLog, errno_sendPtrFb, errno_sendPtr, errno_fullBody, errno_pieces, errno_quit]

theorem errno_sendMail (m) : Steps env (ErrnoKept env) (sendMail m) := by
  unfold sendMail sendMailConnected sendMailRest
  steps [errno_establish, Steps.modify, errno_recipients, errno_headers, errno_body, errno_cleanup]
  all_goals exact errno_client rfl rfl rfl

theorem errno_doCall (c) : Steps env (ErrnoKept env) (doCall c) := by
  unfold doCall setServerName setKeepUsingBase
  steps [errno_sendMail, Steps.modify, Steps.emit]
  all_goals first | exact errno_client rfl rfl rfl | exact errno_event rfl

theorem errno_runCalls (cs) : Steps env (ErrnoKept env) (runCalls cs) := by
  induction cs with
  | nil => unfold runCalls; steps []
  | cons c cs ih => unfold runCalls; steps [errno_doCall]

theorem errno_life (cs) : Steps env (ErrnoKept env) (life cs) := by
  unfold life destroy
  steps [errno_runCalls, Steps.emit, errno_cleanup]
  exact errno_event rfl

end Verif.Proofs
