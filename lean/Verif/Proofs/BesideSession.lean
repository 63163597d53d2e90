import Verif.Proofs.Beside
/-!
# A session on Windows beside a session on POSIX
-/
namespace Verif.Proofs
open Verif Verif.Model Verif.Spec

variable {e : Env} {w : WinCalls} {α β : Type} {s s' : St} {N : Nat → Nat → Prop} {k : Prop}

theorem cstr_le (t : Bytes) : (cstr t).length ≤ t.length := by
  unfold cstr
  exact (List.takeWhile_prefix _).length_le

/-! ### Sending and cleaning up -/

theorem sendRawWith_sim (hk : k) {c c' : M Unit} (hc : Sim e (Beside N k) c c') (kd : SendKind) (cmd : Bytes) (err : Int) (hf : Fits cmd) :
    Sim e (Beside N k) ((windows w).sendRaw c kd cmd err) (posix.sendRaw c' kd cmd err) := by
  show Sim e _ (winSendRaw c kd cmd err) (sendRawWith c' kd cmd err)
  unfold winSendRaw
  rw [if_neg (by have := cstr_le cmd; unfold Fits at hf; omega)]
  unfold sendRawWith
  sim [sock_sim hk, sendSock_sim, setErrNo_sim, hc]

/-- Reading the pointer to the TLS connection. -/
theorem bio_both {f f' : Option Bio → M α} {Q : α → α → St → St → Prop} {E : St → St → Prop} (h : Beside N k s s')
    (hn : both e (f none) (f' none) Q E s s')
    (hs : ∀ i i' fd, (relayed s'.hist).id i' = i → both e (f (some { id := i, fd := fd })) (f' (some { id := i', fd := fd })) Q E s s') :
    both e (M.gets (·.bio) >>= f) (M.gets (·.bio) >>= f') Q E s s' := by
  refine both_bind ?_
  rw [both_gets]
  rcases h.bio with ⟨h1, h2⟩ | ⟨i, i', fd, h1, h2, -, h4⟩
  · rw [h1, h2]; exact hn
  · rw [h1, h2]; exact hs i i' fd h4

theorem then_both {m m' : M α} {f f' : α → M β} {Q : β → β → St → St → Prop}
    (hm : both e m m' (fun x y t t' => x = y ∧ Beside N k t t') Parted s s')
    (hf : ∀ x t t', Beside N k t t' → both e (f x) (f' x) Q Parted t t') : both e (m >>= f) (m' >>= f') Q Parted s s' :=
  both_bind (both_mono hm (fun x y t t' q => by obtain ⟨rfl, q⟩ := q; exact hf x t t' q) fun _ _ h => h)

theorem sendBioWith_sim {c c' : M Unit} (hc : Sim e (Beside N k) c c') (kd : SendKind) (cmd : Bytes) (err : Int) :
    Sim e (Beside N k) (sendBioWith c kd cmd err) (sendBioWith c' kd cmd err) := by
  unfold sendBioWith
  refine ⟨fun s s' h => bio_both h ?_ fun i i' fd hi => ?_⟩
  · exact Sim.run (by sim [tlsErr_sim, setErrNo_sim, hc]) _ _ h
  · subst hi
    refine then_both (sysSend_both kd (.tls i' fd) (cstr cmd) h) fun x t t' h => ?_
    exact Sim.run (by sim [tlsErr_sim, setErrNo_sim, hc]) _ _ h

theorem sendPtrWith_sim (hk : k) {c c' : M Unit} (hc : Sim e (Beside N k) c c') (kd : SendKind) (cmd : Bytes) (err : Int) (hf : Fits cmd) :
    Sim e (Beside N k) (Gen.sendPtrWith (windows w) c kd cmd err) (Gen.sendPtrWith posix c' kd cmd err) := by
  unfold Gen.sendPtrWith
  sim [ptrRaw_sim, kind_sim, sendRawWith_sim hk hc, sendBioWith_sim hc]

theorem freeTls_sim : Sim e (Beside N k) freeTls freeTls := by
  unfold freeTls
  refine Sim.bind (setCtx_sim false) fun _ => ⟨fun s s' h => bio_both h ?_ fun i i' fd hi => ?_⟩
  · exact Sim.run (Sim.bind Sim.pure fun _ => noBio_sim) _ _ h
  · subst hi
    refine both_bind ?_
    show both e (M.emit _) (M.emit _) _ _ _ _
    rw [both_emit]
    exact noBio_sim.run _ _ (h.event (.bioFree i') trivial)

theorem closeSocket_sim (hk : k) : Sim e (Beside N k) closeSocket closeSocket := by
  unfold closeSocket
  sim [sock_sim hk, sysClose_sim, noSock_sim]

theorem closeSession_sim (hk : k) : Sim e (Beside N k) closeSession closeSession := by
  unfold closeSession
  sim [setConnected_sim hk, kind_sim, closeSocket_sim hk, freeTls_sim]

/-- Code of Windows only. -/
theorem both_then {m m' : M α} {f : α → M α} {Q : α → α → St → St → Prop} {E : St → St → Prop}
    (h : both e m m' (fun a b t t' => both e (f a) (pure b : M α) Q E t t') E s s') : both e (m >>= f) m' Q E s s' := by
  show both e (M.bind m f) m' Q E s s'
  unfold both M.bind at *
  cases h1 : m e s with
  | mk r t =>
    cases h2 : m' (asPosix e) s' with
    | mk r' t' =>
      rw [h1, h2] at h
      cases r <;> cases r' <;> first | exact h | exact h.elim

theorem winClose_sim (hk : k) : Sim e (Beside N k) (windows w).close posix.close := by
  refine ⟨fun s s' h => ?_⟩
  show both e (winClose w) closeSession _ _ s s'
  unfold winClose
  refine both_then (both_mono ((closeSession_sim hk).run s s' h) (fun a b t t' q => ?_) fun _ _ q => q)
  obtain ⟨-, h⟩ := q
  show both e (M.bind _ _) _ _ _ t t'
  unfold both M.bind M.ask'
  dsimp only
  cases w.stopFails t.hist with
  | none => exact ⟨rfl, h⟩
  | some n =>
    have h6 : Beside N k { t with client := { t.client with lastErrNo := n } } t' := { h with same := { h.same with } }
    obtain ⟨l, m, hl, h7⟩ := addLog_ok e (b!"WSACleanup failed with error: " ++ intDec n) b!"c" (h6.log (.inl hk)).1
    simp only [bind, M.bind, setErrNo, M.modify, h7]
    exact ⟨trivial, h6.relogWin hk hl m⟩

theorem quit_fits : Fits quitCmd := by show _ < _; decide

theorem sendQuitWith_sim (hk : k) {c c' : M Unit} (hc : Sim e (Beside N k) c c') : Sim e (Beside N k) (Gen.sendQuitWith (windows w) c) (Gen.sendQuitWith posix c') := by
  unfold Gen.sendQuitWith
  sim [addLog_sim hk, sendPtrWith_sim hk hc, quit_fits]

theorem cleanupN_sim (hk : k) : ∀ n, Sim e (Beside N k) (Gen.cleanupN (windows w) n) (Gen.cleanupN posix n)
  | 0 => by unfold Gen.cleanupN; exact Sim.stop
  | n + 1 => by
    unfold Gen.cleanupN
    sim [batch_sim, connected_sim, sendQuitWith_sim hk (cleanupN_sim hk n), winClose_sim hk]

theorem cleanup_sim (hk : k) : Sim e (Beside N k) (Gen.cleanup (windows w)) (Gen.cleanup posix) := by
  unfold Gen.cleanup
  sim [depth_sim, cleanupN_sim hk]

theorem sendRaw_sim (hk : k) (kd : SendKind) (cmd : Bytes) (err : Int) (hf : Fits cmd) : Sim e (Beside N k) (Gen.sendRaw (windows w) kd cmd err) (Gen.sendRaw posix kd cmd err) :=
  sendRawWith_sim hk (cleanup_sim hk) kd cmd err hf

theorem sendPtr_sim (hk : k) (kd : SendKind) (cmd : Bytes) (err : Int) (hf : Fits cmd) : Sim e (Beside N k) (Gen.sendPtr (windows w) kd cmd err) (Gen.sendPtr posix kd cmd err) :=
  sendPtrWith_sim hk (cleanup_sim hk) kd cmd err hf

theorem sendQuit_sim (hk : k) : Sim e (Beside N k) (Gen.sendQuit (windows w)) (Gen.sendQuit posix) := sendQuitWith_sim hk (cleanup_sim hk)

/-! ### Receiving -/

/-- The result of a change of mode is never looked at. -/
theorem mode_both (hk : k) (nb : Bool) {f f' : M α} (hf : Sim e (Beside N k) f f') :
    Sim e (Beside N k) (do let _ ← winMode nb; f) (do let _ ← (if nb then setNonBlocking else setBlocking); f') := by
  refine ⟨fun s s' h => ?_⟩
  refine both_bind (both_mono (Q := fun _ _ t t' => Beside N k t t') (E := Parted) ?_ (fun _ _ t t' q => hf.run t t' q) fun _ _ q => q)
  have hset : ∀ (c : Int), both e (match e.fcntlSet s.hist s.client.sock nb with | .err n => (do logErrno n; pure (if nb then -8 else -7)) | .ok => (pure 0 : M Int))
      (match e.fcntlSet s.hist s.client.sock nb with | .err n => (do logErrno n; pure c) | .ok => (pure 0 : M Int)) (fun _ _ t t' => Beside N k t t') Parted
      { s with hist := s.hist ++ [.fcntlSet s.client.sock nb (e.fcntlSet s.hist s.client.sock nb)] }
      { s' with hist := s'.hist ++ [.fcntlGet s.client.sock .ok] ++ [.fcntlSet s.client.sock nb (e.fcntlSet s.hist s.client.sock nb)] } := by
    intro c
    have h1 := (h.extra s.client.sock .ok).event (.fcntlSet s.client.sock nb (e.fcntlSet s.hist s.client.sock nb)) trivial
    generalize e.fcntlSet s.hist s.client.sock nb = v at h1 ⊢
    cases v with
    | ok => exact h1
    | err n => exact both_bind (both_mono ((logErrno_sim hk n).run _ _ h1) (fun _ _ t t' q => q.2) fun _ _ q => q)
  have hs := h.sock (.inl hk)
  have hx : (asPosix e).fcntlSet (s'.hist ++ [.fcntlGet s.client.sock .ok]) s.client.sock nb = e.fcntlSet s.hist s.client.sock nb := by
    have h1 := (h.extra s.client.sock .ok).hist
    show (if _ then _ else _) = _
    rw [h1.1, h1.2]
    rfl
  unfold winMode
  cases nb
  · simp only [Bool.false_eq_true, if_false]
    unfold setBlocking
    have h3 := hset (-8)
    unfold both at h3 ⊢
    simp only [bind, M.bind, M.gets, sysFcntlGet, sysFcntlSet, M.ask, ← hs, asPosix] at hx h3 ⊢
    rw [hx]
    exact h3
  · simp only [if_true]
    unfold setNonBlocking
    have h3 := hset (-8)
    unfold both at h3 ⊢
    simp only [bind, M.bind, M.gets, sysFcntlGet, sysFcntlSet, M.ask, ← hs, asPosix, logIfErr, pure, M.pure] at hx h3 ⊢
    rw [hx]
    exact h3

theorem rawReplyLoop_sim (hk : k) : ∀ n w acc got, Sim e (Beside N k) (rawReplyLoop n w acc got) (rawReplyLoop n w acc got)
  | 0, _, _, _ => by unfold rawReplyLoop; exact Sim.stop
  | n + 1, w, acc, got => by
    unfold rawReplyLoop
    sim [sock_sim hk, timeout_sim, recvSock_sim, sysSleep_sim, rawReplyLoop_sim hk n]

theorem getRawReply_sim (hk : k) : Sim e (Beside N k) (Gen.getRawReply (windows w)) (Gen.getRawReply posix) := by
  unfold Gen.getRawReply
  refine mode_both hk true ?_
  refine Sim.bind fuel_sim fun _ => Sim.bind (rawReplyLoop_sim hk _ _ _ _) fun p => ?_
  obtain ⟨wait, acc, got⟩ := p
  refine mode_both hk false ?_
  sim [timeout_sim, setResponse_sim, addLog_sim hk]

theorem bioRead_sim : Sim e (Beside N k) bioRead bioRead := by
  unfold bioRead
  exact ⟨fun s s' h => bio_both h ⟨rfl, h⟩ fun i i' fd hi => by subst hi; exact sysRecv_both (.tls i' fd) h⟩

theorem waitLoop_sim {read : M RecvRes} (hr : Sim e (Beside N k) read read) : ∀ n, Sim e (Beside N k) (waitLoop read n) (waitLoop read n)
  | 0 => by unfold waitLoop; sim [hr]
  | n + 1 => by
    unfold waitLoop
    sim [hr, sysSleep_sim, waitLoop_sim hr n]

theorem getTlsReply_sim (hk : k) : Sim e (Beside N k) getTlsReply getTlsReply := by
  unfold getTlsReply
  sim [timeout_sim, waitLoop_sim bioRead_sim, setResponse_sim, addLog_sim hk]

theorem getServerReply_sim (hk : k) : Sim e (Beside N k) (Gen.getServerReply (windows w)) (Gen.getServerReply posix) := by
  unfold Gen.getServerReply
  sim [kind_sim, getRawReply_sim hk, getTlsReply_sim hk]

/-! ### Commands with a reply -/

theorem sendRawFb_sim (hk : k) (cmd : Bytes) (err timeout : Int) (hf : Fits cmd) :
    Sim e (Beside N k) (Gen.sendRawFb (windows w) cmd err timeout) (Gen.sendRawFb posix cmd err timeout) := by
  unfold Gen.sendRawFb
  sim [sendRaw_sim hk, getRawReply_sim hk, cleanup_sim hk]

theorem sendTlsFb_sim (hk : k) (cmd : Bytes) (err timeout : Int) :
    Sim e (Beside N k) (Gen.sendTlsFb (windows w) cmd err timeout) (Gen.sendTlsFb posix cmd err timeout) := by
  unfold Gen.sendTlsFb
  sim [sendBioWith_sim (cleanup_sim hk), getTlsReply_sim hk, cleanup_sim hk]

theorem sendFb_sim (hk : k) (cmd : Bytes) (err timeout : Int) (hf : Fits cmd) :
    Sim e (Beside N k) (Gen.sendFb (windows w) cmd err timeout) (Gen.sendFb posix cmd err timeout) := by
  unfold Gen.sendFb
  refine Sim.bind kind_sim fun kd => ⟨fun s s' h => bio_both h ?_ fun i i' fd _ => ?_⟩
  · exact Sim.run (by sim [sendRawFb_sim hk, sendTlsFb_sim hk]) _ _ h
  · exact Sim.run (R := Beside N k) (by simp only [Option.isNone_some]; sim [sendRawFb_sim hk, sendTlsFb_sim hk]) _ _ h

theorem sendPtrFb_sim (hk : k) (cmd : Bytes) (err timeout : Int) (hf : Fits cmd) :
    Sim e (Beside N k) (Gen.sendPtrFb (windows w) cmd err timeout) (Gen.sendPtrFb posix cmd err timeout) := by
  unfold Gen.sendPtrFb
  sim [ptrRaw_sim, sendRawFb_sim hk, sendFb_sim hk]

/-! ### Greeting and EHLO -/

theorem greetingResult_sim (hk : k) (x : Option Bytes) : Sim e (Beside N k) (greetingResult x) (greetingResult x) := by
  unfold greetingResult
  sim [addLog_sim hk]

theorem checkServerGreetings_sim (hk : k) : Sim e (Beside N k) checkServerGreetings checkServerGreetings := by
  unfold checkServerGreetings
  sim [kind_sim, waitLoop_sim bioRead_sim, timeout_sim, greetingResult_sim hk, sock_sim hk, waitLoop_sim (recvSock_sim _)]

theorem lastResponseText_sim : Sim e (Beside N k) lastResponseText lastResponseText := by
  unfold lastResponseText
  sim [response_sim]

theorem ehloLoop_sim (hk : k) (c : Int) : ∀ n o, Sim e (Beside N k) (Gen.ehloLoop (windows w) c n o) (Gen.ehloLoop posix c n o)
  | 0, _ => by unfold Gen.ehloLoop; exact Sim.stop
  | n + 1, o => by
    unfold Gen.ehloLoop
    sim [getServerReply_sim hk, lastResponseText_sim, ehloLoop_sim hk c n]

theorem ehlo_fits : Fits ehloCmd := by show _ < _; decide

theorem identify_sim (hk : k) (err timeout : Int) : Sim e (Beside N k) (Gen.identify (windows w) err timeout) (Gen.identify posix err timeout) := by
  unfold Gen.identify
  sim [addLog_sim hk, sendFb_sim hk, ehlo_fits, lastResponseText_sim, fuel_sim, ehloLoop_sim hk, setOptions_sim]

theorem secureIdent_sim (hk : k) : Sim e (Beside N k) (Gen.getServerSecureIdentification (windows w)) (Gen.getServerSecureIdentification posix) := by
  unfold Gen.getServerSecureIdentification
  sim [addLog_sim hk, identify_sim hk]

/-! ### Login -/

theorem loginCmd_fits : Fits b!"AUTH LOGIN\r\n" := by show _ < _; decide

theorem authenticateClient_sim (hk : k) : Sim e (Beside N k) (Gen.authenticateClient (windows w)) (Gen.authenticateClient posix) := by
  unfold Gen.authenticateClient
  refine ⟨fun s s' h => both_bind ?_⟩
  rw [both_gets, ← h.same.credential]
  cases hc : s.client.credential with
  | none => exact ⟨rfl, h⟩
  | some c =>
    have hf := h.login c hc
    refine Sim.run ?_ s s' h
    unfold Gen.authPlainM Gen.authLoginM Gen.authXOAuth2M
    sim [options_sim, addLog_sim hk, sendPtrFb_sim hk, hf.plain, hf.username, hf.password, hf.xoauth2, loginCmd_fits]

theorem authenticateIfNeeded_sim (hk : k) : Sim e (Beside N k) (Gen.authenticateIfNeeded (windows w)) (Gen.authenticateIfNeeded posix) := by
  unfold Gen.authenticateIfNeeded
  sim [Sim.gets fun _ _ h => h.same.credential, authenticateClient_sim hk]

end Verif.Proofs
