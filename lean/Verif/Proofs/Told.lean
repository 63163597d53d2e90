import Verif.Proofs.Causes
import Verif.Proofs.Cooperation
/-!
# What an error code tells: the opening
-/
namespace Verif.Proofs
open Verif Verif.Model Verif.Spec

variable {env : Env} {α : Type}

/-! ### Later is still true -/

theorem EndsIn.after {P : Ev → Prop} {h : Hist} (x : Hist) (hh : EndsIn P h) : EndsIn P (x ++ h) := by
  obtain ⟨pre, e, rfl, hp⟩ := hh
  exact ⟨x ++ pre, e, by simp, hp⟩

theorem SendFailed.after {k P a} {h : Hist} (x : Hist) (hh : SendFailed k P a h) : SendFailed k P a (x ++ h) := by
  obtain ⟨pre, ch, d, e, post, rfl, hp⟩ := hh
  exact ⟨x ++ pre, ch, d, e, post, by simp, hp⟩

theorem NoReply.after {T P a} {h : Hist} (x : Hist) (hh : NoReply T P a h) : NoReply T P a (x ++ h) := by
  obtain ⟨pre, ch, d, n, mid, post, rfl, hp⟩ := hh
  exact ⟨x ++ pre, ch, d, n, mid, post, by simp, hp⟩

theorem NoRest.after {T c} {h : Hist} (x : Hist) (hh : NoRest T c h) : NoRest T c (x ++ h) := by
  obtain ⟨pre, ch, n, part, mid, rfl, hp⟩ := hh
  exact ⟨x ++ pre, ch, n, part, mid, by simp, hp⟩

theorem TlsFailed.after {P} {h : Hist} (x : Hist) (hh : TlsFailed P h) : TlsFailed P (x ++ h) := by
  obtain ⟨pre, op, r, post, rfl, hp⟩ := hh
  exact ⟨x ++ pre, op, r, post, by simp, hp⟩

theorem LoginRefused.after {T} {h : Hist} (x : Hist) (hh : LoginRefused T h) : LoginRefused T (x ++ h) := by
  obtain ⟨pre, ch, d, n, mid, post, rfl, hp⟩ := hh
  exact ⟨x ++ pre, ch, d, n, mid, post, by simp, hp⟩

theorem AfterEhlo.after {h : Hist} (x : Hist) (hh : AfterEhlo h) : AfterEhlo (x ++ h) := by
  obtain ⟨pre, ch, n, mid, rfl, hp⟩ := hh
  exact ⟨x ++ pre, ch, n, mid, by simp, hp⟩

theorem NoTls.after {k} {h : Hist} (x : Hist) (hh : NoTls k h) : NoTls k (x ++ h) := by
  obtain ⟨hk, pre, fd, n, mid, post, rfl, hp⟩ := hh
  exact ⟨hk, x ++ pre, fd, n, mid, post, by simp, hp⟩

theorem BodyFailed.after {P b} {h : Hist} (x : Hist) (hh : BodyFailed P b h) : BodyFailed P b (x ++ h) := by
  obtain ⟨pre, ch, n, mid, ch', d, e, post, rfl, hp⟩ := hh
  exact ⟨x ++ pre, ch, n, mid, ch', d, e, post, by simp, hp⟩

theorem QuitFailed.after {h : Hist} (x : Hist) (hh : QuitFailed h) : QuitFailed (x ++ h) := by
  obtain ⟨pre, ch, n, mid, t, ch', e, post, rfl, hp⟩ := hh
  exact ⟨x ++ pre, ch, n, mid, t, ch', e, post, by simp, hp⟩

theorem Cause.after {T k code} {h : Hist} (x : Hist) (hh : Cause T k h code) : Cause T k (x ++ h) code := by
  cases hh with
  | socket h => exact .socket (EndsIn.after x h)
  | connect h => exact .connect (EndsIn.after x h)
  | slowConnect h => exact .slowConnect (EndsIn.after x h)
  | resolve h => exact .resolve (EndsIn.after x h)
  | getFlags h => exact .getFlags (EndsIn.after x h)
  | setFlags h => exact .setFlags (EndsIn.after x h)
  | sockopt h => exact .sockopt (EndsIn.after x h)
  | delayed h => exact .delayed (EndsIn.after x h)
  | ehlo hk h => exact .ehlo hk (SendFailed.after x h)
  | ehloLate hk h => exact .ehloLate hk (h.imp (NoReply.after x) (NoRest.after x))
  | starttls hk h => exact .starttls hk (SendFailed.after x h)
  | starttlsLate hk h => exact .starttlsLate hk (NoReply.after x h)
  | ctxNew hk h => exact .ctxNew hk (EndsIn.after x h)
  | bioNew hk h => exact .bioNew hk (EndsIn.after x h)
  | verifyPaths hk h => exact .verifyPaths hk (EndsIn.after x h)
  | tlsConnect hk h => exact .tlsConnect hk (TlsFailed.after x h)
  | handshake hk h => exact .handshake hk (TlsFailed.after x h)
  | peerCert hk h => exact .peerCert hk (TlsFailed.after x h)
  | verifyResult hk h => exact .verifyResult hk (TlsFailed.after x h)
  | secureEhlo hk h => exact .secureEhlo hk (SendFailed.after x h)
  | secureEhloLate hk h => exact .secureEhloLate hk (h.imp (NoReply.after x) (NoRest.after x))
  | login h => exact .login (SendFailed.after x h)
  | loginRefused h => exact .loginRefused (LoginRefused.after x h)
  | loginLate h => exact .loginLate (NoReply.after x h)
  | noMechanism h => exact .noMechanism (AfterEhlo.after x h)
  | mailFrom h => exact .mailFrom (SendFailed.after x h)
  | mailFromLate h => exact .mailFromLate (NoReply.after x h)
  | rcptTo h => exact .rcptTo (SendFailed.after x h)
  | rcptToLate h => exact .rcptToLate (NoReply.after x h)
  | data h => exact .data (SendFailed.after x h)
  | dataLate h => exact .dataLate (NoReply.after x h)
  | headerFrom h => exact .headerFrom (SendFailed.after x h)
  | noTls h => exact .noTls (NoTls.after x h)
  | headerMiddle h => exact .headerMiddle (SendFailed.after x h)
  | contentType h => exact .contentType (SendFailed.after x h)
  | bodyPart h => exact .bodyPart (BodyFailed.after x h)
  | body h => exact .body (BodyFailed.after x h)
  | endData h => exact .endData (SendFailed.after x h)
  | endDataLate h => exact .endDataLate (NoReply.after x h)
  | quit h => exact .quit (QuitFailed.after x h)

/-! ### Codes and what they tell -/

/-- The timeout and the class stay, the history grows. -/
def Onward (s s' : St) : Prop := s'.client.timeout = s.client.timeout ∧ s'.client.kind = s.client.kind ∧ Ext s s'

theorem Onward.same {s s' : St} (ht : s'.client.timeout = s.client.timeout) (hk : s'.client.kind = s.client.kind) (h : s'.hist = s.hist) : Onward s s' :=
  ⟨ht, hk, .same h⟩
theorem Onward.one {s : St} {e : Ev} : Onward s (St.snoc s e) := ⟨rfl, rfl, .one⟩
theorem Onward.trans {a b c : St} (h : Onward a b) (h' : Onward b c) : Onward a c := ⟨h'.1.trans h.1, h'.2.1.trans h.2.1, h.2.2.trans h'.2.2⟩

instance : Anything Onward where
  refl := fun _ => .same rfl rfl rfl
  trans := .trans
  log := fun _ _ _ _ _ _ _ => .same rfl rfl rfl
  errno := fun _ _ => .same rfl rfl rfl
  resp := fun _ _ => .same rfl rfl rfl
  auth := fun _ _ => .same rfl rfl rfl
  fcntlGet := fun _ _ _ => .one
  fcntlSet := fun _ _ _ _ => .one
  select := fun _ _ _ => .one
  sockopt := fun _ _ _ => .one
  resolve := fun _ _ _ => .one
  connect := fun _ _ _ _ => .one
  readFile := fun _ _ _ => .one
  sleep := fun _ => .one
  recv := fun _ _ _ => .one
  disconnected := fun _ => .same rfl rfl rfl
  ctx := fun _ _ => .same rfl rfl rfl
  noBio := fun _ => .same rfl rfl rfl
  noSock := fun _ => .same rfl rfl rfl
  close := fun _ _ => .one
  bioFree := fun _ _ => .one
  quit := fun _ _ _ => .one
  connected := fun _ => .same rfl rfl rfl
  send := fun _ _ _ _ _ => .one
  freshLog := fun _ => .same rfl rfl rfl
  keep := fun _ => .same rfl rfl rfl
  bio := fun _ _ => .same rfl rfl rfl
  sock := fun _ _ => .same rfl rfl rfl
  socket := fun _ _ => .one
  tls := fun _ _ _ => .one

/-- A negative code tells what happened. -/
def Told (code : Int) (s s' : St) : Prop :=
  ∃ evs, s'.hist = s.hist ++ evs ∧ (0 ≤ code ∨ Garbled evs ∨ Cause s.client.timeout s.client.kind evs code)

theorem Told.after {code : Int} {a b c : St} (h : Onward a b) (h' : Told code b c) : Told code a c := by
  obtain ⟨ht, hk, x, hx⟩ := h
  obtain ⟨y, hy, h'⟩ := h'
  refine ⟨x ++ y, by rw [hy, hx, List.append_assoc], ?_⟩
  rcases h' with h | h | h
  · exact .inl h
  · exact .inr (.inl (by simpa using Garbled.mono (pre := x) (post := []) h))
  · rw [ht, hk] at h
    exact .inr (.inr (Cause.after x h))

/-- Every value the code returns tells what happened. -/
def TellsCause (env : Env) (K : Kind → Prop) (m : M Int) : Prop := ∀ s, K s.client.kind → wp env m (fun code s' => Told code s s') (fun _ _ => True) s

variable {K : Kind → Prop}

theorem told_good {c : Int} (h : 0 ≤ c) {s s' : St} (hx : Ext s s') : Told c s s' := by
  obtain ⟨x, hx⟩ := hx
  exact ⟨x, hx, .inl h⟩

theorem tells_pure {c : Int} (h : 0 ≤ c) : TellsCause env K (pure c) := fun _ _ => told_good h (.same rfl)

theorem tells_bind {m : M α} {f : α → M Int} (hm : Steps env Onward m) (hf : ∀ a, TellsCause env K (f a)) : TellsCause env K (m >>= f) := by
  intro s hk
  rw [wp_bind]
  exact wp_mono (hm.run s) (fun a s1 h1 => wp_mono (hf a s1 (by rw [h1.2.1]; exact hk)) (fun _ _ h => h.after h1) (fun _ _ h => h)) (fun _ _ _ => trivial)

theorem tells_test {m rest : M Int} {k : Int} (hm : TellsCause env K m) (hx : Steps env Onward m) (hr : TellsCause env K rest) :
    TellsCause env K (do let code ← m; if code ≠ k then pure code else rest) := by
  intro s hk
  rw [wp_bind]
  refine wp_mono (wp_and (hm s hk) (hx.run s)) (fun a s1 ⟨h1, h2⟩ => ?_) (fun _ _ _ => trivial)
  rw [wp_ite]
  exact ⟨fun _ => h1, fun _ => wp_mono (hr s1 (by rw [h2.2.1]; exact hk)) (fun _ _ h => h.after h2) (fun _ _ h => h)⟩

theorem tells_ite {c : Prop} [Decidable c] {a b : M Int} (ha : TellsCause env K a) (hb : TellsCause env K b) : TellsCause env K (if c then a else b) := by
  split <;> assumption

theorem tells_stop (e : Stop) : TellsCause env K (M.stop e) := fun _ _ => trivial

theorem TellsCause.mono {K' : Kind → Prop} {m : M Int} (h : TellsCause env K m) (hk : ∀ k, K' k → K k) : TellsCause env K' m := fun s hs => h s (hk _ hs)

/-- Nothing of this happened in the world. -/
def StandsStill (s s' : St) : Prop := s'.client.timeout = s.client.timeout ∧ s'.client.kind = s.client.kind ∧ s'.hist = s.hist

instance : Preord StandsStill where
  refl := fun _ => ⟨rfl, rfl, rfl⟩
  trans := fun h h' => ⟨h'.1.trans h.1, h'.2.1.trans h.2.1, h'.2.2.trans h.2.2⟩

theorem StandsStill.onward {s s' : St} (h : StandsStill s s') : Onward s s' := ⟨h.1, h.2.1, .same h.2.2⟩

theorem addLog_still (i p : Bytes) : Steps env StandsStill (addLog i p) := by
  constructor
  intro s
  unfold addLog
  rw [wp_bind, wp_gets]
  cases hl : s.client.log with
  | none => exact Preord.refl (R := StandsStill) s
  | some l =>
    cases ha : l.add i p with
    | error u => simp only [ha]; exact Preord.refl (R := StandsStill) s
    | ok l' => simp only [ha]; exact ⟨rfl, rfl, rfl⟩

theorem setErrNo_still (e : Int) : Steps env StandsStill (setErrNo e) := .modify fun _ => ⟨rfl, rfl, rfl⟩

theorem logErrno_still (e : Int) : Steps env StandsStill (logErrno e) := by
  unfold logErrno; steps [addLog_still, setErrNo_still]

/-- Something happened, and then a code is returned. -/
theorem still_pure {m : M Unit} (hm : Steps env StandsStill m) {s : St} {e : Ev} {c : Int} (hc : ∀ x, Cause s.client.timeout s.client.kind (x ++ [e]) c) :
    wp env (do m; pure c) (fun code s' => Told code s s') (fun _ _ => True) (St.snoc s e) := by
  rw [wp_bind]
  refine wp_mono (hm.run _) (fun _ s1 h1 => ?_) (fun _ _ _ => trivial)
  exact ⟨[e], h1.2.2, .inr (.inr (by simpa using hc []))⟩

theorem here {P : Ev → Prop} {e : Ev} (h : P e) (x : Hist) : EndsIn P (x ++ [e]) := ⟨x, e, rfl, h⟩

/-- A system call, and what is done with its answer. -/
theorem ask_tells {β : Type} {f : Env → Hist → β} {ev : β → Ev} {g : β → M Int}
    (h : ∀ s r, K s.client.kind → wp env (g r) (fun code s' => Told code s s') (fun _ _ => True) (St.snoc s (ev r))) : TellsCause env K (M.ask f ev >>= g) := by
  intro s hk
  rw [wp_bind, wp_ask]
  exact h s _ hk

theorem tells_later {m : M Int} (hm : TellsCause env K m) {s : St} {e : Ev} (hk : K s.client.kind) :
    wp env m (fun code s' => Told code s s') (fun _ _ => True) (St.snoc s e) :=
  wp_mono (hm (St.snoc s e) hk) (fun _ _ h => h.after .one) (fun _ _ h => h)

theorem setBlocking_tells : TellsCause env K setBlocking := by
  unfold setBlocking sysFcntlGet sysFcntlSet
  refine tells_bind (.gets _) fun sock => ask_tells fun s r hk => ?_
  cases r with
  | err e => exact still_pure (logErrno_still e) fun x => .getFlags (here ⟨_, _, rfl⟩ x)
  | ok =>
    refine tells_later (ask_tells fun s r hk => ?_) hk
    cases r with
    | err e => exact still_pure (logErrno_still e) fun x => .setFlags (here ⟨_, _, rfl⟩ x)
    | ok => exact told_good (Int.le_refl 0) .one

theorem connectPOSIX_tells (ip : Bytes) : TellsCause env K (connectPOSIX ip) := by
  unfold connectPOSIX sysConnect sysSelect sysSockopt
  refine tells_bind (.gets _) fun sock => tells_bind (.gets _) fun _ => ask_tells fun s r hk => ?_
  cases r with
  | ok => exact tells_later setBlocking_tells hk
  | err e =>
    dsimp only
    rw [wp_ite]
    refine ⟨fun _ => ?_, fun he => still_pure (logErrno_still _) fun x => .connect (here ⟨_, _, _, .inl ⟨rfl, he⟩⟩ x)⟩
    refine tells_later (tells_ite (tells_stop _) (tells_bind (.gets _) fun _ => ask_tells fun s r hk => ?_)) hk
    cases r with
    | timeout => exact ⟨[_], rfl, .inr (.inr (.slowConnect (here ⟨_, .inl rfl⟩ [])))⟩
    | err e =>
      dsimp only
      rw [wp_ite]
      refine ⟨fun he => still_pure (logErrno_still _) fun x => .connect (here ⟨sock, ⟨[], 0⟩, _, .inr ⟨rfl, he⟩⟩ x), fun he => ?_⟩
      have he := Decidable.not_not.mp he
      subst he
      exact ⟨[_], rfl, .inr (.inr (.slowConnect (here ⟨_, .inr rfl⟩ [])))⟩
    | ready =>
      refine tells_later (ask_tells fun s r hk => ?_) hk
      cases r with
      | err e => exact still_pure (logErrno_still _) fun x => .sockopt (here ⟨_, _, rfl⟩ x)
      | val v =>
        dsimp only
        rw [wp_ite]
        exact ⟨fun hv => still_pure (logErrno_still _) fun x => .delayed (here ⟨_, _, rfl, hv⟩ x), fun _ => tells_later setBlocking_tells hk⟩

theorem initializeSession_tells : TellsCause env K initializeSession := by
  unfold initializeSession initializePOSIX sysSocket sysResolve
  refine tells_bind (.modifyMem fun s => .same rfl rfl rfl) fun _ => ask_tells fun s r hk => ?_
  cases r with
  | err e =>
    dsimp only
    have : Steps env StandsStill (do M.modify ({ · with sock := -1 }); logErrno e : M Unit) := .bind (.modify fun _ => ⟨rfl, rfl, rfl⟩) fun _ => logErrno_still e
    have := still_pure this (s := s) (e := .socket (.err e)) fun x => Cause.socket (here ⟨_, rfl⟩ x)
    simpa only [wp_bind] using this
  | val fd =>
    refine tells_later (tells_bind (.modify fun s => .same rfl rfl rfl) fun _ => tells_bind (.gets _) fun name => ?_) hk
    cases name with
    | none => exact tells_stop _
    | some name =>
      refine ask_tells fun s r hk => ?_
      cases r with
      | none => exact ⟨[_], rfl, .inr (.inr (.resolve (here ⟨_, rfl⟩ [])))⟩
      | some a =>
        exact tells_later (tells_ite (tells_stop _) (tells_bind setNonBlocking_steps fun _ => tells_ite (tells_pure (by decide))
          (tells_bind (.gets _) fun _ => tells_bind (addLog_steps _ _) fun _ => connectPOSIX_tells _))) hk

/-! ### TLS -/

theorem sysTls_shut_tells {op : TlsOp} {r : Int} {m : M Unit} (hm : Steps env OnlyCloses m) {s : St} {c : Int}
    (hc : ∀ h, TlsFailed (fun o v => o = op ∧ v = r) h → Cause s.client.timeout s.client.kind h c) :
    wp env (do m; pure c) (fun code s' => Told code s s') (fun _ _ => True) (St.snoc s (.tls op r)) := by
  rw [wp_bind]
  refine wp_mono (hm.run _) (fun _ s1 h1 => ?_) (fun _ _ _ => trivial)
  obtain ⟨-, -, post, he, hp⟩ := h1
  exact ⟨.tls op r :: post, by rw [he]; simp [St.snoc], .inr (.inr (hc _ ⟨[], op, r, post, rfl, ⟨rfl, rfl⟩, hp⟩))⟩

theorem TlsFailed.imp {P Q : TlsOp → Int → Prop} (hpq : ∀ o r, P o r → Q o r) {h : Hist} (hh : TlsFailed P h) : TlsFailed Q h := by
  obtain ⟨pre, op, r, post, rfl, hp, h⟩ := hh
  exact ⟨pre, op, r, post, rfl, hpq _ _ hp, h⟩

theorem startTLSNegotiation_tells : TellsCause env (· ≠ .smtp) startTLSNegotiation := by
  have errno : Steps env OnlyCloses (do cleanup; setErrNo (← M.ask' (·.tlsErr)) : M Unit) := .bind cleanup_shut fun _ => .bind (.ask' _) fun _ => setErrNo_shut _
  unfold startTLSNegotiation sysTls
  refine tells_bind (addLog_steps _ _) fun _ => ask_tells fun s r hk => ?_
  rw [wp_ite]
  refine ⟨fun h0 => ?_, fun _ => tells_later (K := (· ≠ .smtp)) (tells_bind (.modify fun _ => .same rfl rfl rfl) fun _ => tells_bind .histLength fun id => ask_tells fun s r hk => ?_) hk⟩
  · subst h0
    have : Steps env StandsStill (do M.modify ({ · with ctx := false }); setErrNo (← M.ask' (·.tlsErr)) : M Unit) :=
      .bind (.modify fun _ => ⟨rfl, rfl, rfl⟩) fun _ => .bind (.ask' _) fun _ => setErrNo_still _
    have := still_pure this (s := s) (e := .tls .ctxNew 0) fun x => Cause.ctxNew hk ⟨x, _, rfl, rfl⟩
    simpa only [wp_bind] using this
  rw [wp_ite]
  refine ⟨fun h0 => ?_, fun _ => tells_later (K := (· ≠ .smtp)) (tells_bind (.gets _) fun _ => tells_bind (.modify fun _ => .same rfl rfl rfl) fun _ => tells_bind (.gets _) fun name => ?_) hk⟩
  · subst h0
    exact still_pure (.modify fun _ => ⟨rfl, rfl, rfl⟩) fun x => Cause.bioNew hk ⟨x, _, rfl, rfl⟩
  cases name with
  | none => exact tells_stop _
  | some name =>
    refine tells_bind (.gets _) fun _ => tells_ite (tells_stop _) (ask_tells fun s r hk => ?_)
    rw [wp_ite]
    refine ⟨fun h0 => ?_, fun _ => tells_later (K := (· ≠ .smtp)) (ask_tells fun s r hk => ?_) hk⟩
    · subst h0
      exact ⟨[_], rfl, .inr (.inr (.verifyPaths hk ⟨[], _, rfl, rfl⟩))⟩
    rw [wp_ite]
    refine ⟨fun h0 => ?_, fun _ => tells_later (K := (· ≠ .smtp)) (tells_bind (addLog_steps _ _) fun _ => ask_tells fun s r hk => ?_) hk⟩
    · have := sysTls_shut_tells errno (op := .connect id) (r := r) (s := s) fun h hh => Cause.tlsConnect hk (TlsFailed.imp (fun o v ⟨a, b⟩ => ⟨id, a, b ▸ h0⟩) hh)
      simpa only [wp_bind] using this
    rw [wp_ite]
    refine ⟨fun h0 => ?_, fun _ => tells_later (K := (· ≠ .smtp)) (tells_bind (addLog_steps _ _) fun _ => ask_tells fun s r hk => ?_) hk⟩
    · have := sysTls_shut_tells errno (op := .handshake id) (r := r) (s := s) fun h hh => Cause.handshake hk (TlsFailed.imp (fun o v ⟨a, b⟩ => ⟨id, a, b ▸ h0⟩) hh)
      simpa only [wp_bind] using this
    rw [wp_ite]
    refine ⟨fun h0 => ?_, fun _ => tells_later (K := (· ≠ .smtp)) (ask_tells fun s r hk => ?_) hk⟩
    · exact sysTls_shut_tells cleanup_shut fun h hh => Cause.peerCert hk (TlsFailed.imp (fun o v ⟨a, b⟩ => ⟨id, a, b ▸ h0⟩) hh)
    simp only [wp_bind, wp_gets]
    rw [wp_ite]
    refine ⟨fun _ => ?_, fun _ => ?_⟩
    · exact tells_later (K := fun _ => True) (tells_bind (addLog_steps _ _) fun _ => tells_bind (addLog_steps _ _) fun _ => tells_pure (by decide)) trivial
    rw [wp_ite]
    refine ⟨fun h0 => ?_, fun _ => ?_⟩
    · have : ∀ t, Steps env OnlyCloses (do addLog t b!"s"; cleanup : M Unit) := fun t => .bind (addLog_shut _ _) fun _ => cleanup_shut
      have := sysTls_shut_tells (.bind (.env' fun e => e.x509Text r) this) (op := .verifyResult id) (r := r) (s := s) fun h hh =>
        Cause.verifyResult hk (TlsFailed.imp (fun o v ⟨a, b⟩ => ⟨id, a, b ▸ h0⟩) hh)
      simpa only [wp_bind] using this
    · exact tells_later (K := fun _ => True) (tells_bind (addLog_steps _ _) fun _ => tells_pure (by decide)) trivial

end Verif.Proofs
