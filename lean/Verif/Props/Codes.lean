import Verif.Proofs.Said
import Verif.Proofs.Deliver
import Verif.Spec.Codes
import Verif.Spec.Script
/-!
# C48: the values sendMail returns
-/
namespace Verif.Props
open Verif Verif.Model Verif.Spec

/-- The value is explained by what happened between the two states. -/
def Good (code : Int) (s s' : St) : Prop :=
  ∃ evs, s'.hist = s.hist ++ evs ∧ (Explained evs code ∨ (code = 1 ∧ FlagsFailed evs))

theorem Good.after {code : Int} {a b c : St} (h : Proofs.Ext a b) (h' : Good code b c) : Good code a c := by
  obtain ⟨x, hx⟩ := h
  obtain ⟨y, hy, h'⟩ := h'
  refine ⟨x ++ y, by rw [hy, hx, List.append_assoc], ?_⟩
  rcases h' with (h | h | ⟨pre, mid, post, rfl, h1, h2⟩) | ⟨h, fd, b, e, he⟩
  · exact .inl (.inl h)
  · exact .inl (.inr (.inl h))
  · exact .inl (.inr (.inr ⟨x ++ pre, mid, post, by simp, h1, h2⟩))
  · exact .inr ⟨h, fd, b, e, by simp [he]⟩

theorem Good.before {code : Int} {a b c : St} (h : Good code a b) (h' : Proofs.Ext b c) : Good code a c := by
  obtain ⟨x, hx, h⟩ := h
  obtain ⟨y, hy⟩ := h'
  refine ⟨x ++ y, by rw [hy, hx, List.append_assoc], ?_⟩
  rcases h with (h | h | ⟨pre, mid, post, rfl, h1, h2⟩) | ⟨h, fd, b, e, he⟩
  · exact .inl (.inl h)
  · exact .inl (.inr (.inl h))
  · exact .inl (.inr (.inr ⟨pre, mid, post ++ y, by simp, h1, h2⟩))
  · exact .inr ⟨h, fd, b, e, by simp [he]⟩

/-- Every value the code returns is explained. -/
def Coded (env : Env) (m : M Int) : Prop := ∀ s, Proofs.wp env m (fun code s' => Good code s s') (fun _ _ => True) s

variable {env : Env} {α : Type}

theorem coded_pure {c : Int} (h : c = 0 ∨ IsLibraryCode c) : Coded env (pure c) := by
  intro s
  refine ⟨[], by simp, .inl ?_⟩
  rcases h with h | h
  · exact .inl h
  · exact .inr (.inl h)

theorem coded_bind {m : M α} {f : α → M Int} (hm : Proofs.Steps env Proofs.Ext m) (hf : ∀ a, Coded env (f a)) : Coded env (m >>= f) := by
  intro s
  rw [Proofs.wp_bind]
  exact Proofs.wp_mono (hm.run s) (fun a s1 h1 => Proofs.wp_mono (hf a s1) (fun _ _ h => h.after h1) (fun _ _ h => h)) (fun _ _ _ => trivial)

theorem coded_test {m rest : M Int} {k : Int} (hm : Coded env m) (hx : Proofs.Steps env Proofs.Ext m) (hr : Coded env rest) :
    Coded env (do let code ← m; if code ≠ k then pure code else rest) := by
  intro s
  rw [Proofs.wp_bind]
  refine Proofs.wp_mono (Proofs.wp_and (hm s) (hx.run s)) (fun a s1 ⟨h1, h2⟩ => ?_) (fun _ _ _ => trivial)
  rw [Proofs.wp_ite]
  exact ⟨fun _ => h1, fun _ => Proofs.wp_mono (hr s1) (fun _ _ h => h.after h2) (fun _ _ h => h)⟩

theorem coded_ite {c : Prop} [Decidable c] {a b : M Int} (ha : Coded env a) (hb : Coded env b) : Coded env (if c then a else b) := by
  split <;> assumption

theorem coded_stop (e : Stop) : Coded env (M.stop e) := fun _ => trivial

theorem gotCode_good {s s' : St} {code : Int} (h : Proofs.GotCode s code s') : Good code s s' := by
  obtain ⟨t, ⟨_, evs, h1, h2, h3⟩, hc⟩ := h
  refine ⟨evs, h1, .inl ?_⟩
  rcases hc with rfl | hc
  · exact .inr (.inl (by decide))
  · refine .inr (.inr ⟨[], evs, [], by simp, fun e he => ?_, by rw [h3]; exact hc⟩)
    have := h2 e he
    cases e <;> simp_all [Proofs.QuietEv, Proofs.DeafEv, IsSend]

theorem getRawReply_coded : Coded env getRawReply := fun s =>
  Proofs.wp_mono (Proofs.getRawReply_code s) (fun _ _ h => gotCode_good h) (fun _ _ _ => trivial)
theorem getTlsReply_coded : Coded env getTlsReply := fun s =>
  Proofs.wp_mono (Proofs.getTlsReply_code s) (fun _ _ h => gotCode_good h) (fun _ _ _ => trivial)

theorem getServerReply_coded : Coded env getServerReply := by
  unfold getServerReply
  exact coded_bind (.gets _) fun _ => coded_ite getRawReply_coded getTlsReply_coded

theorem reply_coded {m : M Int} (hm : Coded env m) {t : Int} (ht : IsLibraryCode t) : Coded env (do
    let code ← m
    if code ≠ -1 then pure code
    else do
      cleanup
      pure t) := by
  intro s
  rw [Proofs.wp_bind]
  refine Proofs.wp_mono (hm s) (fun code s1 h => ?_) (fun _ _ h => h)
  rw [Proofs.wp_ite]
  refine ⟨fun _ => h, fun _ => ?_⟩
  rw [Proofs.wp_bind]
  refine Proofs.wp_mono ((Proofs.cleanup_steps (R := Proofs.Ext)).run s1) (fun _ s2 h2 => ?_) (fun _ _ _ => trivial)
  obtain ⟨x, hx, _⟩ := h
  obtain ⟨y, hy⟩ := h2
  exact ⟨x ++ y, by rw [hy, hx, List.append_assoc], .inl (.inr (.inl ht))⟩

theorem sendRawFb_coded {d : Bytes} {e t : Int} (he : IsLibraryCode e) (ht : IsLibraryCode t) : Coded env (sendRawFb d e t) := by
  unfold sendRawFb
  exact coded_bind (Proofs.sendRaw_steps (fun _ _ _ => Proofs.Ext.one) _) fun _ => coded_ite (coded_pure (.inr he)) (reply_coded getRawReply_coded ht)

theorem sendTlsFb_coded {d : Bytes} {e t : Int} (he : IsLibraryCode e) (ht : IsLibraryCode t) : Coded env (sendTlsFb d e t) := by
  unfold sendTlsFb
  exact coded_bind (Proofs.sendBioWith_steps Proofs.cleanup_steps (fun _ _ _ => Proofs.Ext.one) _) fun _ =>
    coded_ite (coded_pure (.inr he)) (reply_coded getTlsReply_coded ht)

theorem sendFb_coded {d : Bytes} {e t : Int} (he : IsLibraryCode e) (ht : IsLibraryCode t) : Coded env (sendFb d e t) := by
  unfold sendFb
  exact coded_bind (.gets _) fun _ => coded_bind (.gets _) fun _ => coded_ite (sendRawFb_coded he ht) (sendTlsFb_coded he ht)

theorem sendPtrFb_coded {d : Bytes} {e t : Int} (he : IsLibraryCode e) (ht : IsLibraryCode t) : Coded env (sendPtrFb d e t) := by
  unfold sendPtrFb
  exact coded_bind (.gets _) fun _ => coded_ite (sendRawFb_coded he ht) (sendFb_coded he ht)

theorem sendPtr_coded {k : SendKind} {d : Bytes} {e : Int} (he : IsLibraryCode e) : Coded env (sendPtr k d e) := by
  intro s
  refine Proofs.wp_mono (Proofs.wp_and (Proofs.sendPtr_out k d e s) ((Proofs.sendPtr_steps' (R := Proofs.Ext) k d e).run s)) ?_ (fun _ _ _ => trivial)
  rintro code s' ⟨h, evs, hx⟩
  refine ⟨evs, hx, .inl ?_⟩
  rcases h with ⟨rfl, _⟩ | ⟨rfl, _⟩
  · exact .inl rfl
  · exact .inr (.inl he)

/-! ### Opening -/

theorem setBlocking_coded : Coded env setBlocking := by
  unfold setBlocking
  refine coded_bind (.gets _) fun _ => coded_bind (Proofs.sysFcntlGet_steps _) fun r => ?_
  cases r with
  | err e => exact coded_bind (Proofs.logErrno_steps _) fun _ => coded_pure (.inr (by decide))
  | ok =>
    refine coded_bind (Proofs.sysFcntlSet_steps _ _) fun r => ?_
    cases r with
    | err e => exact coded_bind (Proofs.logErrno_steps _) fun _ => coded_pure (.inr (by decide))
    | ok => exact coded_pure (.inl rfl)

theorem connectPOSIX_coded (ip : Bytes) : Coded env (connectPOSIX ip) := by
  unfold connectPOSIX
  refine coded_bind (.gets _) fun sock => coded_bind (.gets _) fun _ => coded_bind (Proofs.sysConnect_steps _ _) fun r => ?_
  cases r with
  | ok => exact setBlocking_coded
  | err e =>
    refine coded_ite (coded_ite (coded_stop _) (coded_bind (.gets _) fun _ => coded_bind (Proofs.sysSelect_steps _ _) fun r => ?_))
      (coded_bind (Proofs.logErrno_steps _) fun _ => coded_pure (.inr (by decide)))
    cases r with
    | err e => exact coded_ite (coded_bind (Proofs.logErrno_steps _) fun _ => coded_pure (.inr (by decide))) (coded_pure (.inr (by decide)))
    | timeout => exact coded_pure (.inr (by decide))
    | ready =>
      refine coded_bind (Proofs.sysSockopt_steps _) fun r => ?_
      cases r with
      | err e => exact coded_bind (Proofs.logErrno_steps _) fun _ => coded_pure (.inr (by decide))
      | val v => exact coded_ite (coded_bind (Proofs.logErrno_steps _) fun _ => coded_pure (.inr (by decide))) setBlocking_coded

/-- Setting the socket to non-blocking mode fails only when the system call failed. -/
theorem setNonBlocking_flags (s : St) :
    Proofs.wp env setNonBlocking (fun code s' => code ≠ 0 → ∃ evs, s'.hist = s.hist ++ evs ∧ FlagsFailed evs) (fun _ _ => True) s := by
  unfold setNonBlocking
  rw [Proofs.wp_bind, Proofs.wp_gets, Proofs.wp_bind]
  refine Proofs.wp_mono ((Proofs.sysFcntlGet_steps (R := Proofs.Ext) _).run s) (fun r s1 h1 => ?_) (fun _ _ _ => trivial)
  rw [Proofs.wp_bind]
  refine Proofs.wp_mono ((Proofs.logIfErr_steps (R := Proofs.Ext) _).run s1) (fun _ s2 h2 => ?_) (fun _ _ _ => trivial)
  rw [Proofs.wp_bind]
  unfold sysFcntlSet
  rw [Proofs.wp_ask]
  cases hr : env.fcntlSet s2.hist s.client.sock true with
  | ok => exact fun h => absurd rfl h
  | err e =>
    dsimp only
    rw [Proofs.wp_bind]
    refine Proofs.wp_mono ((Proofs.logErrno_steps (R := Proofs.Ext) _).run _) (fun _ s3 h3 _ => ?_) (fun _ _ _ => trivial)
    obtain ⟨x, hx⟩ := h1.trans h2
    obtain ⟨y, hy⟩ := h3
    exact ⟨x ++ (.fcntlSet s.client.sock true (.err e) :: y), by rw [hy, hx]; simp, s.client.sock, true, e, by simp⟩

theorem initializeSession_coded : Coded env initializeSession := by
  unfold initializeSession initializePOSIX
  refine coded_bind (.modifyMem fun s => .same rfl) fun _ => coded_bind (.ask fun s r => .one) fun r => ?_
  cases r with
  | err e => exact coded_bind (.modify fun s => .same rfl) fun _ => coded_bind (Proofs.logErrno_steps _) fun _ => coded_pure (.inr (by decide))
  | val fd =>
    refine coded_bind (.modify fun s => .same rfl) fun _ => coded_bind (.gets _) fun name => ?_
    cases name with
    | none => exact coded_stop _
    | some name =>
      refine coded_bind (Proofs.sysResolve_steps _) fun b => ?_
      cases b with
      | none => exact coded_pure (.inr (by decide))
      | some a =>
        intro s
        dsimp only
        rw [Proofs.wp_ite]
        refine ⟨fun _ => trivial, fun _ => ?_⟩
        rw [Proofs.wp_bind]
        refine Proofs.wp_mono (Proofs.wp_and (setNonBlocking_flags s) ((Proofs.setNonBlocking_steps (R := Proofs.Ext)).run s)) ?_ (fun _ _ _ => trivial)
        rintro code s1 ⟨hf, hx⟩
        rw [Proofs.wp_ite]
        refine ⟨fun h => ?_, fun _ => ?_⟩
        · obtain ⟨evs, he, hf⟩ := hf h
          exact ⟨evs, he, .inr ⟨rfl, hf⟩⟩
        · have : Coded env (do
              addLog (b!"Trying to connect to " ++ name ++ b!" on port " ++ natDec (← M.gets (·.port)))
              connectPOSIX (sinAddr a)) :=
            coded_bind (.gets _) fun _ => coded_bind (Proofs.addLog_steps _ _) fun _ => connectPOSIX_coded _
          exact Proofs.wp_mono (this s1) (fun _ _ h => h.after hx) (fun _ _ h => h)

theorem checkServerGreetings_coded : Coded env checkServerGreetings := by
  have key : ∀ {read : M RecvRes}, (∀ s, Proofs.wp env read
      (fun r s' => match r with | .data d => Proofs.Heard (upToNul d) s s' | _ => Proofs.Heard [] s s') (fun _ => Proofs.Quiet s) s) →
      ∀ n, Coded env (do greetingResult (← waitLoop read n)) := by
    intro read hr n s
    rw [Proofs.wp_bind]
    refine Proofs.wp_mono (Proofs.waitLoop_heard hr n s) (fun r s1 h => ?_) (fun _ _ _ => trivial)
    cases r with
    | none =>
      obtain ⟨_, evs, he, _⟩ := h
      exact ⟨evs, he, .inl (.inr (.inl (by decide)))⟩
    | some d =>
      have hg := gotCode_good ⟨_, h, Proofs.buffer_code d⟩
      unfold greetingResult
      dsimp only
      rw [Proofs.wp_bind]
      refine Proofs.wp_mono ((Proofs.addLog_steps (R := Proofs.Ext) _ _).run s1) (fun _ s2 h2 => ?_) (fun _ _ _ => trivial)
      rw [Proofs.wp_ite]
      refine ⟨fun _ => ?_, fun _ => hg.before h2⟩
      rw [Proofs.wp_bind]
      exact Proofs.wp_mono ((Proofs.addLog_steps (R := Proofs.Ext) _ _).run s2) (fun _ s3 h3 => (hg.before h2).before h3) (fun _ _ _ => trivial)
  unfold checkServerGreetings
  refine coded_bind (.gets _) fun _ => coded_ite ?_ ?_
  · exact coded_bind (.gets _) fun t => key Proofs.bioRead_heard t
  · exact coded_bind (.gets _) fun sock => coded_bind (.gets _) fun t => key (Proofs.sysRecv_heard _) t

theorem ehloLoop_coded {t : Int} (ht : IsLibraryCode t) (n : Nat) (o : Bytes) (s : St) :
    Proofs.wp env (ehloLoop t n o) (fun r s' => match r with | .inl code => Good code s s' | .inr _ => True) (fun _ _ => True) s := by
  induction n generalizing o s with
  | zero => trivial
  | succ n ih =>
    unfold ehloLoop
    rw [Proofs.wp_ite]
    refine ⟨fun _ => trivial, fun _ => ?_⟩
    rw [Proofs.wp_bind]
    refine Proofs.wp_mono (Proofs.wp_and (getServerReply_coded s) ((Proofs.getServerReply_steps (R := Proofs.Ext)).run s)) ?_ (fun _ _ _ => trivial)
    rintro code s1 ⟨hg, hx⟩
    rw [Proofs.wp_ite]
    refine ⟨fun _ => ?_, fun _ => ?_⟩
    · obtain ⟨evs, hx⟩ := hx
      exact ⟨evs, hx, .inl (.inr (.inl ht))⟩
    · rw [Proofs.wp_ite]
      refine ⟨fun _ => hg, fun _ => ?_⟩
      rw [Proofs.wp_bind]
      refine Proofs.wp_mono ((Proofs.lastResponseText_steps (R := Proofs.Ext)).run s1) (fun r s2 h2 => ?_) (fun _ _ _ => trivial)
      refine Proofs.wp_mono (ih _ s2) (fun r s3 h3 => ?_) (fun _ _ h => h)
      cases r with
      | inl c => exact h3.after (hx.trans h2)
      | inr _ => trivial

/-- The result 250 of `identify` is never passed on. -/
theorem identify_test {e t : Int} (he : IsLibraryCode e) (ht : IsLibraryCode t) {rest : M Int} (hr : Coded env rest) :
    Coded env (do let code ← identify e t; if code ≠ 250 then pure code else rest) := by
  intro s
  rw [Proofs.wp_bind]
  have : Proofs.wp env (identify e t) (fun code s' => code = 250 ∨ Good code s s') (fun _ _ => True) s := by
    unfold identify
    rw [Proofs.wp_bind]
    refine Proofs.wp_mono ((Proofs.addLog_steps (R := Proofs.Ext) _ _).run s) (fun _ s1 h1 => ?_) (fun _ _ _ => trivial)
    rw [Proofs.wp_bind]
    refine Proofs.wp_mono (Proofs.wp_and (sendFb_coded he ht s1) ((Proofs.sendFb_steps (R := Proofs.Ext) (fun _ _ _ => .one) _ _).run s1)) ?_ (fun _ _ _ => trivial)
    rintro code s2 ⟨hg, hx⟩
    rw [Proofs.wp_ite]
    refine ⟨fun _ => .inr (hg.after h1), fun _ => ?_⟩
    rw [Proofs.wp_bind]
    refine Proofs.wp_mono ((Proofs.lastResponseText_steps (R := Proofs.Ext)).run s2) (fun r s3 h3 => ?_) (fun _ _ _ => trivial)
    rw [Proofs.wp_bind, Proofs.wp_env, Proofs.wp_bind]
    refine Proofs.wp_mono (ehloLoop_coded ht _ _ s3) (fun r s4 h4 => ?_) (fun _ _ h => h)
    cases r with
    | inl c => exact .inr (h4.after ((h1.trans hx).trans h3))
    | inr _ => exact .inl rfl
  refine Proofs.wp_mono (Proofs.wp_and this ((Proofs.identify_steps' (R := Proofs.Ext) e t).run s)) (fun a s1 ⟨h1, h2⟩ => ?_) (fun _ _ _ => trivial)
  rw [Proofs.wp_ite]
  exact ⟨fun h => h1.resolve_left h, fun _ => Proofs.wp_mono (hr s1) (fun _ _ h => h.after h2) (fun _ _ h => h)⟩

theorem startTLSNegotiation_coded : Coded env startTLSNegotiation := by
  have tls : ∀ op, Proofs.Steps env Proofs.Ext (sysTls op) := fun op => .ask fun s r => .one
  have mod : ∀ f, Proofs.Steps env Proofs.Ext (M.modify f) := fun f => .modify fun s => .same rfl
  have lc : ∀ {c : Int}, IsLibraryCode c → Coded env (pure c) := fun h => coded_pure (.inr h)
  have errno : ∀ {c : Int}, IsLibraryCode c → Coded env (do setErrNo (← M.ask' (·.tlsErr)); pure c) := fun h =>
    coded_bind (.ask' _) fun _ => coded_bind (Proofs.setErrNo_steps _) fun _ => lc h
  unfold startTLSNegotiation
  refine coded_bind (Proofs.addLog_steps _ _) fun _ => coded_bind (tls _) fun _ => coded_ite
    (coded_bind (mod _) fun _ => errno (by decide)) (coded_bind (mod _) fun _ => coded_bind .histLength fun id => coded_bind (tls _) fun _ =>
      coded_ite (coded_bind (mod _) fun _ => lc (by decide)) (coded_bind (.gets _) fun _ => coded_bind (mod _) fun _ =>
      coded_bind (.gets _) fun name => ?_))
  cases name with
  | none => exact coded_stop _
  | some name =>
    refine coded_bind (.gets _) fun _ => coded_ite (coded_stop _) (coded_bind (tls _) fun _ => coded_ite (lc (by decide))
      (coded_bind (tls _) fun _ => coded_ite (coded_bind Proofs.cleanup_steps fun _ => errno (by decide))
      (coded_bind (Proofs.addLog_steps _ _) fun _ => coded_bind (tls _) fun _ => coded_ite (coded_bind Proofs.cleanup_steps fun _ => errno (by decide))
      (coded_bind (Proofs.addLog_steps _ _) fun _ => coded_bind (tls _) fun _ => coded_ite (coded_bind Proofs.cleanup_steps fun _ => lc (by decide))
      (coded_bind (tls _) fun res => coded_bind (.gets _) fun _ => coded_ite ?_ (coded_ite ?_ ?_))))))
    · exact coded_bind (Proofs.addLog_steps _ _) fun _ => coded_bind (Proofs.addLog_steps _ _) fun _ => coded_pure (.inl rfl)
    · exact coded_bind (.env' _) fun _ => coded_bind (Proofs.addLog_steps _ _) fun _ => coded_bind Proofs.cleanup_steps fun _ => lc (by decide)
    · exact coded_bind (Proofs.addLog_steps _ _) fun _ => coded_pure (.inl rfl)

theorem authenticateIfNeeded_coded : Coded env authenticateIfNeeded := by
  have fb : ∀ d, Coded env (sendPtrFb d (-81) (-82)) := fun d => sendPtrFb_coded (by decide) (by decide)
  have fx : ∀ d, Proofs.Steps env Proofs.Ext (sendPtrFb d (-81) (-82)) := fun d => Proofs.sendPtrFb_steps' d _ _
  unfold authenticateIfNeeded
  refine coded_bind (.gets _) fun _ => coded_ite (coded_test ?_ ?_ (coded_pure (.inl rfl))) (coded_pure (.inl rfl))
  · unfold authenticateClient
    refine coded_bind (.gets _) fun c => ?_
    cases c with
    | none => exact coded_pure (.inr (by decide))
    | some c =>
      refine coded_bind (.gets _) fun o => ?_
      cases o with
      | none => exact coded_stop _
      | some o =>
        refine coded_ite (coded_bind (Proofs.addLog_steps _ _) fun _ => fb _) (coded_ite (coded_bind (Proofs.addLog_steps _ _) fun _ =>
          coded_bind (fx _) fun _ => coded_ite (coded_pure (.inr (by decide))) (coded_bind (fx _) fun _ => coded_ite (coded_pure (.inr (by decide))) (fb _)))
          (coded_ite (coded_bind (Proofs.addLog_steps _ _) fun _ => fb _) (coded_pure (.inr (by decide)))))
  · unfold authenticateClient authPlainM authLoginM authXOAuth2M
    steps [Proofs.addLog_steps, fx]

theorem secureIdent_test {rest : M Int} (hr : Coded env rest) :
    Coded env (do let code ← getServerSecureIdentification; if code ≠ 250 then pure code else rest) := by
  intro s
  rw [Proofs.wp_bind]
  unfold getServerSecureIdentification
  rw [Proofs.wp_bind]
  refine Proofs.wp_mono ((Proofs.addLog_steps (R := Proofs.Ext) _ _).run s) (fun _ s1 h1 => ?_) (fun _ _ _ => trivial)
  have := identify_test (env := env) (e := -59) (t := -60) (by decide) (by decide) hr s1
  rw [Proofs.wp_bind] at this
  exact Proofs.wp_mono this (fun _ _ h => Proofs.wp_mono h (fun _ _ h => h.after h1) (fun _ _ h => h)) (fun _ _ h => h)

theorem establish_coded : Coded env establish := by
  have greeted : ∀ rest, Coded env rest → Coded env (establishGreeted rest) := by
    intro rest hr
    unfold establishGreeted
    exact coded_test checkServerGreetings_coded Proofs.checkServerGreetings_steps (identify_test (by decide) (by decide) hr)
  have raw : ∀ d e t, Proofs.Steps env Proofs.Ext (sendRawFb d e t) := fun d e t => Proofs.sendRawFb_steps (fun _ _ _ => .one) e t
  unfold establish
  refine coded_test initializeSession_coded Proofs.initializeSession_steps (coded_bind (.gets _) fun k => ?_)
  cases k with
  | smtp => exact greeted _ authenticateIfNeeded_coded
  | forced =>
    exact coded_test startTLSNegotiation_coded Proofs.startTLSNegotiation_steps
      (coded_test checkServerGreetings_coded Proofs.checkServerGreetings_steps (secureIdent_test authenticateIfNeeded_coded))
  | opportunistic =>
    refine greeted _ ?_
    unfold establishOpportunistic
    refine coded_bind (.gets _) fun r => ?_
    split
    · exact coded_stop _
    · refine coded_bind (Proofs.addLog_steps _ _) fun _ => coded_test ?_ ?_
        (coded_test startTLSNegotiation_coded Proofs.startTLSNegotiation_steps (secureIdent_test authenticateIfNeeded_coded))
      · exact coded_bind (Proofs.addLog_steps _ _) fun _ => sendRawFb_coded (by decide) (by decide)
      · unfold upgradeToSecureConnection
        steps [Proofs.addLog_steps, raw]
    · exact coded_bind (Proofs.addLog_steps _ _) fun _ => coded_bind (.modify fun s => .same rfl) fun _ => coded_pure (.inl rfl)

/-! ### The mail -/

theorem mailFromLoop_coded (l : List Bytes) (last : Int) (s0 s : St) (hx : Proofs.Ext s0 s) (hl : Good last s0 s) :
    Proofs.wp env (mailFromLoop last l) (fun code s' => code = 250 ∨ Good code s0 s') (fun _ _ => True) s := by
  induction l generalizing last s with
  | nil => exact .inr hl
  | cons f l ih =>
    unfold mailFromLoop
    rw [Proofs.wp_bind]
    refine Proofs.wp_mono ((Proofs.addLog_steps (R := Proofs.Ext) _ _).run s) (fun _ s1 h1 => ?_) (fun _ _ _ => trivial)
    rw [Proofs.wp_bind]
    refine Proofs.wp_mono (Proofs.wp_and (sendPtrFb_coded (e := -85) (t := -86) (by decide) (by decide) s1)
      ((Proofs.sendPtrFb_steps' (R := Proofs.Ext) f _ _).run s1)) ?_ (fun _ _ _ => trivial)
    rintro code s2 ⟨hg, h2⟩
    have hg : Good code s0 s2 := hg.after (hx.trans h1)
    rw [Proofs.wp_ite]
    refine ⟨fun _ => .inl rfl, fun _ => ?_⟩
    rw [Proofs.wp_ite]
    exact ⟨fun _ => .inr hg, fun _ => ih code s2 ((hx.trans h1).trans h2) hg⟩

theorem addMailRecipients_coded (l : List MessageAddress) (ret : Int) (s0 s : St) (hx : Proofs.Ext s0 s) (hl : ret = 250 ∨ Good ret s0 s) :
    Proofs.wp env (addMailRecipients ret l) (fun code s' => code = 250 ∨ Good code s0 s') (fun _ _ => True) s := by
  induction l generalizing ret s with
  | nil => exact hl
  | cons f l ih =>
    unfold addMailRecipients
    rw [Proofs.wp_bind]
    refine Proofs.wp_mono ((Proofs.addLog_steps (R := Proofs.Ext) _ _).run s) (fun _ s1 h1 => ?_) (fun _ _ _ => trivial)
    rw [Proofs.wp_bind]
    refine Proofs.wp_mono (Proofs.wp_and (sendPtrFb_coded (e := -87) (t := -88) (by decide) (by decide) s1)
      ((Proofs.sendPtrFb_steps' (R := Proofs.Ext) _ _ _).run s1)) ?_ (fun _ _ _ => trivial)
    rintro code s2 ⟨hg, h2⟩
    refine ih _ s2 ((hx.trans h1).trans h2) ?_
    split
    · exact .inr (hg.after (hx.trans h1))
    · rcases hl with h | h
      · exact .inl h
      · exact .inr (h.before (h1.trans h2))

theorem recipientsLoop_coded (l : List (Arr MessageAddress)) : Coded env (recipientsLoop l) := by
  induction l with
  | nil => exact coded_pure (.inl rfl)
  | cons a l ih =>
    unfold recipientsLoop
    refine coded_ite ih (coded_bind (Proofs.arrElems_steps _) fun as => ?_)
    intro s
    rw [Proofs.wp_bind]
    refine Proofs.wp_mono (Proofs.wp_and (addMailRecipients_coded as 250 s s (.same rfl) (.inl rfl))
      ((Proofs.addMailRecipients_steps (R := Proofs.Ext) _ _).run s)) ?_ (fun _ _ _ => trivial)
    rintro code s1 ⟨hg, hx⟩
    rw [Proofs.wp_ite]
    exact ⟨fun h => hg.resolve_left h, fun _ => Proofs.wp_mono (ih s1) (fun _ _ h => h.after hx) (fun _ _ h => h)⟩

theorem setMailRecipients_coded (m : Message) : Coded env (setMailRecipients m) := by
  intro s
  unfold setMailRecipients
  rw [Proofs.wp_bind]
  refine Proofs.wp_mono (Proofs.wp_and (mailFromLoop_coded _ 0 s s (.same rfl) ⟨[], by simp, .inl (.inl rfl)⟩)
    ((Proofs.mailFromLoop_steps (R := Proofs.Ext) _ _).run s)) ?_ (fun _ _ _ => trivial)
  rintro code s1 ⟨hg, hx⟩
  rw [Proofs.wp_ite]
  exact ⟨fun h => hg.resolve_left h, fun _ => Proofs.wp_mono (recipientsLoop_coded _ s1) (fun _ _ h => h.after hx) (fun _ _ h => h)⟩

theorem content_coded {d : Bytes} {e : Int} (he : IsLibraryCode e) {rest : M Int} (hr : Coded env rest) :
    Coded env (do let code ← sendPtr .content d e; if code ≠ 0 then pure code else rest) :=
  coded_test (sendPtr_coded he) (Proofs.sendPtr_steps' _ _ _) hr

theorem setMailHeaders_coded (m : Message) : Coded env (setMailHeaders m) := by
  have addr : ∀ f a, Proofs.Steps env Proofs.Ext (addressHeader f a) := by
    intro f a
    unfold addressHeader addMailHeader
    steps [Proofs.arrElems_steps, Proofs.addLog_steps, Proofs.sendPtr_steps']
  unfold setMailHeaders
  refine coded_bind (Proofs.addLog_steps _ _) fun _ => coded_test (sendPtrFb_coded (by decide) (by decide)) (Proofs.sendPtrFb_steps' _ _ _) (coded_test ?_ ?_
    (coded_bind (addr _ _) fun _ => coded_bind (addr _ _) fun _ => coded_bind (Proofs.addLog_steps _ _) fun _ => content_coded (by decide)
    (coded_bind (Proofs.addLog_steps _ _) fun _ => content_coded (by decide) (coded_pure (.inl rfl)))))
  · exact coded_bind (Proofs.addLog_steps _ _) fun _ => sendPtr_coded (by decide)
  · unfold addMailHeader
    steps [Proofs.addLog_steps, Proofs.sendPtr_steps']

theorem sendPieces_coded (l : List Bytes) : Coded env (sendPieces l) := by
  induction l with
  | nil => exact coded_pure (.inl rfl)
  | cons p l ih => exact content_coded (by decide) ih

theorem setMailBody_coded (m : Message) : Coded env (setMailBody m) := by
  unfold setMailBody
  refine coded_bind (Proofs.addLog_steps _ _) fun _ => coded_bind (Proofs.fullBody_steps _) fun body => coded_test ?_ ?_ ?_
  · exact coded_ite (sendPieces_coded _) (content_coded (by decide) (coded_pure (.inl rfl)))
  · unfold sendBodyText
    steps [Proofs.sendPieces_steps, Proofs.sendPtr_steps']
  · refine coded_bind (Proofs.addLog_steps _ _) fun _ => coded_test (sendPtrFb_coded (by decide) (by decide)) (Proofs.sendPtrFb_steps' _ _ _)
      (coded_bind (.gets _) fun _ => coded_ite (coded_pure (.inl rfl)) (coded_test ?_ Proofs.sendQuit_steps (coded_pure (.inl rfl))))
    unfold sendQuit sendQuitWith
    exact coded_bind (Proofs.addLog_steps _ _) fun _ => sendPtr_coded (by decide)

theorem sendMailConnected_coded (m : Message) : Coded env (sendMailConnected m) := by
  unfold sendMailConnected sendMailRest
  exact coded_bind (.modify fun s => .same rfl) fun _ => coded_test (setMailRecipients_coded m) (Proofs.setMailRecipients_steps m)
    (coded_test (setMailHeaders_coded m) (Proofs.setMailHeaders_steps m) (coded_test (setMailBody_coded m) (Proofs.setMailBody_steps m)
    (coded_bind (.gets _) fun _ => coded_ite (coded_pure (.inl rfl)) (coded_bind Proofs.cleanup_steps fun _ => coded_pure (.inl rfl)))))

theorem sendMail_coded (m : Message) : Coded env (sendMail m) := by
  unfold sendMail
  exact coded_bind (.gets _) fun _ => coded_ite (sendMailConnected_coded m)
    (coded_test establish_coded Proofs.establish_steps (sendMailConnected_coded m))

/-- **C48, partial.** Every value `sendMail` returns is 0, a documented error code, or the code of a reply read during this call; or it is
1, and then a call of `fcntl(F_SETFL)` failed. Missing: the undocumented value 1 (refuted below). -/
theorem C48_values_of_sendMail_partial (env : Env) (m : Message) (s s' : St) (code : Int) (h : sendMail m env s = (.ok code, s')) :
    ∃ evs, s'.hist = s.hist ++ evs ∧ (Explained evs code ∨ (code = 1 ∧ FlagsFailed evs)) := by
  have := sendMail_coded (env := env) m s
  unfold Proofs.wp at this
  rw [h] at this
  exact this

/-- **C48, refuted**: when the socket cannot be put into non-blocking mode, `sendMail` returns 1. There was no server yet, and 1 is
not a documented code (`if (int r = setSocketToNonBlockingPOSIX() != 0) return r;`). -/
theorem C48_undocumented_value :
    let env := { scripted [] with fcntlSet := fun _ _ _ => .err 22 }
    (sendMail mail env (fresh .smtp)).1 = .ok 1 ∧ ¬ IsLibraryCode 1 ∧ heard (sendMail mail env (fresh .smtp)).2.hist = [] := by
  decide +kernel

/-- **C48**: the three kinds of values cannot always be told apart. A server that answers RCPT TO with `-85` makes `sendMail` return
-85, documented as an error of the MAIL FROM command, which was answered 250. -/
theorem C48_kinds_collide :
    (let r := sendMail mail (scripted ([.data b!"220 hi\r\n"] ++ clear [b!"250 ok\r\n", b!"250 ok\r\n", b!"-85 no\r\n"])) (fresh .smtp)
     (r.1, commands r.2.hist)) =
      (.ok (-85), [b!"ehlo localhost\r\n", b!"MAIL FROM: <me@here.org>\r\n", b!"RCPT TO: <you@there.org>\r\n"]) := by
  decide +kernel

/-- Non-vacuity: a reply code passed on, and an error code. -/
example : (sendMail mail (scripted ([.data b!"220 hi\r\n"] ++ clear [b!"250 ok\r\n", b!"250 ok\r\n", b!"550 no\r\n"])) (fresh .smtp)).1 = .ok 550 ∧
    (sendMail mail (scripted ([.data b!"220 hi\r\n"] ++ clear [b!"250 ok\r\n", b!"250 ok\r\n"])) (fresh .smtp)).1 = .ok (-88) := by
  decide +kernel

end Verif.Props
