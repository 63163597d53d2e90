import Verif.Proofs.Twin
import Verif.Proofs.Envelope
import Verif.Spec.SelfSigned
/-!
# C90: two runs, one of which accepts self-signed certificates
-/
namespace Verif.Proofs
open Verif Verif.Model Verif.Spec

variable {α β : Type} {env : Env}

/-- The same state but for the setting. -/
structure Lax (s t : St) : Prop where
  client : s.client = { t.client with acceptSelfSigned := s.client.acceptSelfSigned }
  hist : s.hist = t.hist

theorem Lax.modify {s t : St} (h : Lax s t) {f : Client → Client} (hf : ∀ c cr, f { c with acceptSelfSigned := cr } = { f c with acceptSelfSigned := cr })
    (hc : ∀ c, (f c).acceptSelfSigned = c.acceptSelfSigned) : Lax { s with client := f s.client } { t with client := f t.client } := by
  refine ⟨?_, h.hist⟩
  show f s.client = { f t.client with acceptSelfSigned := (f s.client).acceptSelfSigned }
  rw [hc s.client, ← hf, ← h.client]

theorem Lax.remem {s t : St} (h : Lax s t) (l l' : List SessionOp) : Lax { s with mem := l } { t with mem := l' } := ⟨h.client, h.hist⟩

theorem lax_modify {f : Client → Client} (hf : ∀ c cr, f { c with acceptSelfSigned := cr } = { f c with acceptSelfSigned := cr })
    (hc : ∀ c, (f c).acceptSelfSigned = c.acceptSelfSigned) : Twin env Lax (M.modify f) (M.modify f) := .modify fun h => h.modify hf hc

theorem lax_modifyMem {op : SessionOp} {f : Client → Client} (hf : ∀ c cr, f { c with acceptSelfSigned := cr } = { f c with acceptSelfSigned := cr })
    (hc : ∀ c, (f c).acceptSelfSigned = c.acceptSelfSigned) : Twin env Lax (M.modifyMem op f) (M.modifyMem op f) := .modifyMem fun h => (h.modify hf hc).remem _ _

theorem Lax.get {s t : St} (h : Lax s t) {f : Client → α} (hf : ∀ c cr, f { c with acceptSelfSigned := cr } = f c) : f s.client = f t.client := by
  rw [h.client, hf]

theorem Lax.emit {s t : St} (h : Lax s t) (e : Ev) : Lax { s with hist := s.hist ++ [e] } { t with hist := t.hist ++ [e] } :=
  ⟨h.client, by show s.hist ++ [e] = t.hist ++ [e]; rw [h.hist]⟩

theorem lax_ask {f : Env → Hist → α} {ev : α → Ev} : Twin env Lax (M.ask f ev) (M.ask f ev) := by
  constructor
  intro s t hst
  refine ⟨congrArg (fun h => Res.ok (f env h)) hst.hist, ?_⟩
  show Lax { s with hist := s.hist ++ [ev (f env s.hist)] } { t with hist := t.hist ++ [ev (f env t.hist)] }
  rw [hst.hist]
  have := hst.emit (ev (f env t.hist))
  rw [hst.hist] at this
  exact this

theorem lax_emit (e : Ev) : Twin env Lax (M.emit e) (M.emit e) := ⟨fun _ _ h => ⟨rfl, h.emit e⟩⟩

theorem lax_sysSend (k c d) : Twin env Lax (sysSend k c d) (sysSend k c d) := by
  unfold sysSend
  twins [lax_ask]

instance lax_alike : Alike env (fun _ d d' => d = d') Lax where
  refl := fun _ _ => rfl
  kind := fun h => h.get fun _ _ => rfl
  sock := fun h => h.get fun _ _ => rfl
  ptrRaw := fun h => h.get fun _ _ => rfl
  bio := fun h => h.get fun _ _ => rfl
  batch := fun h => h.get fun _ _ => rfl
  isConnected := fun h => h.get fun _ _ => rfl
  timeout := fun h => h.get fun _ _ => rfl
  setConnected := fun b _ _ h => h.modify (f := ({ · with isConnected := b })) (fun _ _ => rfl) (fun _ => rfl)
  setCtx := fun b _ _ h => h.modify (f := ({ · with ctx := b })) (fun _ _ => rfl) (fun _ => rfl)
  setBio := fun b _ _ h => h.modify (f := ({ · with bio := b })) (fun _ _ => rfl) (fun _ => rfl)
  setSock := fun b _ _ h => h.modify (f := ({ · with sock := b })) (fun _ _ => rfl) (fun _ => rfl)
  setErr := fun b _ _ h => h.modify (f := ({ · with lastErrNo := b })) (fun _ _ => rfl) (fun _ => rfl)
  setResp := fun b _ _ h => (h.modify (f := ({ · with lastResponse := some b })) (fun _ _ => rfl) (fun _ => rfl)).remem _ _
  addLog := by
    intro i p
    unfold addLog
    refine .bind (.gets fun h => h.get fun _ _ => rfl) fun l => ?_
    cases l with
    | none => exact .stop _
    | some l =>
      dsimp only
      cases l.add i p with
      | error u => exact .stop _
      | ok l' => exact lax_modifyMem (fun _ _ => rfl) (fun _ => rfl)
  send := by
    intro k c d d' hd β f f' hf hs
    subst hd
    constructor
    intro s t hst
    have key := (lax_sysSend (env := env) k c d).run s t hst
    show (M.bind _ f env s).1 = (M.bind _ f' env t).1 ∧ Lax (M.bind _ f env s).2 (M.bind _ f' env t).2
    unfold M.bind
    revert key
    have nn : ∀ s', sysSend k c d env s ≠ (.ok .never, s') := by
      intro s' h
      unfold sysSend at h
      rw [bind_run] at h
      unfold M.ask at h
      dsimp only at h
      split at h
      · cases h
      · rename_i hne
        exact hne (congrArg (fun x => match x with | (Res.ok a, _) => a | _ => SendRes.fail 0) h)
    rcases e1 : sysSend k c d env s with ⟨r, s1⟩
    rcases sysSend k c d env t with ⟨r', t1⟩
    rintro ⟨h1, h2⟩
    simp only at h1 h2
    subst h1
    cases r with
    | stop x => exact ⟨rfl, h2⟩
    | ok r =>
      cases r with
      | fail x => exact (hf x).run _ _ h2
      | sent n => exact (hs n n).run _ _ h2
      | never => exact absurd e1 (nn s1)
  recv := by
    intro c
    unfold sysRecv
    twins [lax_ask]
  fcntlGet := fun fd => lax_ask
  fcntlSet := fun fd b => lax_ask
  sleep := lax_emit _
  close := fun _ => lax_emit _
  bioFree := fun _ => lax_emit _
  tlsErr := ⟨fun _ _ h => ⟨congrArg (fun x => Res.ok (env.tlsErr x)) h.hist, h⟩⟩
  readFile := fun n => lax_ask

/-! ### The parts that open a connection -/

theorem lax_connectPOSIX (ip : Bytes) : Twin env Lax (connectPOSIX ip) (connectPOSIX ip) := by
  have port : Twin env Lax (M.gets (·.port)) (M.gets (·.port)) := .gets fun h => h.get fun _ _ => rfl
  have c1 : ∀ fd p, Twin env Lax (sysConnect fd p) (sysConnect fd p) := fun fd p => lax_ask
  have c2 : ∀ fd p, Twin env Lax (sysSelect fd p) (sysSelect fd p) := fun fd p => lax_ask
  have c3 : ∀ fd, Twin env Lax (sysSockopt fd) (sysSockopt fd) := fun fd => lax_ask
  unfold connectPOSIX
  twins [tw_sock, port, c1, c2, c3, tw_setBlocking, tw_logErrno, tw_timeout]

theorem lax_initializeSession : Twin env Lax initializeSession initializeSession := by
  have hA := lax_alike (env := env)
  have port : Twin env Lax (M.gets (·.port)) (M.gets (·.port)) := .gets fun h => h.get fun _ _ => rfl
  have name : Twin env Lax (M.gets (·.serverName)) (M.gets (·.serverName)) := .gets fun h => h.get fun _ _ => rfl
  have log : Twin env Lax (M.modifyMem .freshLog ({ · with log := some .fresh })) (M.modifyMem .freshLog ({ · with log := some .fresh })) :=
    lax_modifyMem (fun _ _ => rfl) (fun _ => rfl)
  have c1 : Twin env Lax sysSocket sysSocket := lax_ask
  have c2 : ∀ n, Twin env Lax (sysResolve n) (sysResolve n) := fun n => lax_ask
  unfold initializeSession initializePOSIX
  twins [tw_setSock, port, name, log, c1, c2, tw_setNonBlocking, tw_logErrno, hA.addLog, lax_connectPOSIX]

theorem lax_greetings : Twin env Lax checkServerGreetings checkServerGreetings := by
  have hA := lax_alike (env := env)
  unfold checkServerGreetings greetingResult
  twins [tw_kind, tw_sock, tw_timeout, tw_waitLoop, tw_bioRead, hA.recv, hA.addLog]

theorem lax_identify (e t) : Twin env Lax (identify e t) (identify e t) := by
  have hA := lax_alike (env := env)
  have resp : Twin env Lax lastResponseText lastResponseText := by
    unfold lastResponseText
    have : Twin env Lax (M.gets (·.lastResponse)) (M.gets (·.lastResponse)) := .gets fun h => h.get fun _ _ => rfl
    twins [this]
  have loop : ∀ n o, Twin env Lax (ehloLoop t n o) (ehloLoop t n o) := by
    intro n
    induction n with
    | zero => intro o; unfold ehloLoop; exact .stop _
    | succ n ih => intro o; unfold ehloLoop; twins [tw_getServerReply, resp, ih]
  have opts : ∀ o, Twin env Lax (setAuthOptions o) (setAuthOptions o) :=
    fun o => lax_modifyMem (fun _ _ => rfl) (fun _ => rfl)
  have cmd := tw_sendFb (env := env) (R := Lax) (d := ehloCmd) (d' := ehloCmd) rfl e t
  unfold identify
  twins [hA.addLog, resp, loop, opts]

theorem lax_auth : Twin env Lax authenticateIfNeeded authenticateIfNeeded := by
  have hA := lax_alike (env := env)
  have cr : Twin env Lax (M.gets (·.credential)) (M.gets (·.credential)) := .gets fun h => h.get fun _ _ => rfl
  have op : Twin env Lax (M.gets (·.authOptions)) (M.gets (·.authOptions)) := .gets fun h => h.get fun _ _ => rfl
  unfold authenticateIfNeeded authenticateClient authPlainM authLoginM authXOAuth2M
  twins [cr, op, hA.addLog, tw_cmd]

/-! ### Runs that part -/

variable {h0 : Hist} {s t : St}

theorem Judged.grow {x y : Hist} {h h' : Hist} (hs : Judged h0 h h') : Judged h0 (h ++ x) (h' ++ y) := by
  obtain ⟨shared, id, rest, rest', rfl, rfl⟩ := hs
  exact ⟨shared, id, rest ++ x, rest' ++ y, by simp, by simp⟩

theorem grow_bind' {b : M β} {k : β → M α} (s : St) (hk : ∀ x, Steps env Ext (k x)) : Ext (b env s).2 ((b >>= k) env s).2 := by
  show Ext _ (M.bind b k env s).2
  unfold M.bind
  cases b env s with
  | mk r t =>
    cases r with
    | ok x => exact ext_run (hk x) t
    | stop e => exact .same rfl

/-- Both programs do the same, or a self-signed certificate parts them. -/
structure Judges (env : Env) (h0 : Hist) (m m' : M α) : Prop where
  run : ∀ s t, Lax s t → (∃ x, s.hist = h0 ++ x) → ((m env s).1 = (m' env t).1 ∧ Lax (m env s).2 (m' env t).2) ∨ Judged h0 (m env s).2.hist (m' env t).2.hist
  ext : Steps env Ext m
  ext' : Steps env Ext m'

theorem Judges.self {m m' : M α} (h : Twin env Lax m m') (e : Steps env Ext m) (e' : Steps env Ext m') : Judges env h0 m m' :=
  ⟨fun s t hst _ => .inl (h.run s t hst), e, e'⟩

theorem Judges.pure (a : α) : Judges env h0 (Pure.pure a) (Pure.pure a) := .self (.pure a) (.pure a) (.pure a)
theorem Judges.stop (x : Stop) : Judges (α := α) env h0 (M.stop x) (M.stop x) := .self (.stop x) (.stop x) (.stop x)

theorem Judges.bind {a a' : M β} {f g : β → M α} (h : Judges env h0 a a') (hf : ∀ x, Judges env h0 (f x) (g x)) : Judges env h0 (a >>= f) (a' >>= g) := by
  refine ⟨fun s t hst hx => ?_, .bind h.ext fun x => (hf x).ext, .bind h.ext' fun x => (hf x).ext'⟩
  rcases h.run s t hst hx with ⟨h1, h2⟩ | h1
  · have h3 := ext_run h.ext s
    show ((M.bind a f env s).1 = (M.bind a' g env t).1 ∧ Lax (M.bind a f env s).2 (M.bind a' g env t).2) ∨ Judged h0 (M.bind a f env s).2.hist (M.bind a' g env t).2.hist
    unfold M.bind
    revert h1 h2 h3
    rcases a env s with ⟨r, s1⟩
    rcases a' env t with ⟨r', t1⟩
    intro h1 h2 h3
    obtain rfl : r = r' := h1
    cases r with
    | stop e => exact .inl ⟨rfl, h2⟩
    | ok x =>
      obtain ⟨x1, hx⟩ := hx
      obtain ⟨y, hy⟩ := h3
      exact (hf x).run s1 t1 h2 ⟨x1 ++ y, by rw [hy, hx, List.append_assoc]⟩
  · obtain ⟨x, hx⟩ := grow_bind' (b := a) s fun x => (hf x).ext
    obtain ⟨y, hy⟩ := grow_bind' (b := a') t fun x => (hf x).ext'
    refine .inr ?_
    rw [hx, hy]
    exact Judged.grow h1

theorem Judges.ite {c : Prop} [Decidable c] {m m' n n' : M α} (h : Judges env h0 m m') (h' : Judges env h0 n n') :
    Judges env h0 (if c then m else n) (if c then m' else n') := by
  split
  · exact h
  · exact h'

/-- The verdict on the certificate: what follows may differ if it is 18. -/
theorem judges_verdict {id : Nat} {f : Int → M α} (hf : ∀ x, x ≠ 18 → Twin env Lax (f x) (f x)) (he : ∀ x, Steps env Ext (f x)) :
    Judges env h0 (sysTls (.verifyResult id) >>= f) (sysTls (.verifyResult id) >>= f) := by
  have hx : Steps env Ext (sysTls (.verifyResult id)) := .ask fun _ _ => ⟨_, rfl⟩
  refine ⟨fun s t hst hs => ?_, .bind hx he, .bind hx he⟩
  obtain ⟨x, hs⟩ := hs
  by_cases h18 : env.tls s.hist (.verifyResult id) = 18
  · have h18' : env.tls t.hist (.verifyResult id) = 18 := by rw [← hst.hist]; exact h18
    obtain ⟨y, hy⟩ := grow_bind' (b := sysTls (.verifyResult id)) (env := env) s he
    obtain ⟨y', hy'⟩ := grow_bind' (b := sysTls (.verifyResult id)) (env := env) t he
    refine .inr ⟨x, id, y, y', ?_, ?_⟩
    · rw [hy]
      show s.hist ++ [.tls (.verifyResult id) (env.tls s.hist (.verifyResult id))] ++ y = _
      rw [h18, hs]
      simp
    · rw [hy']
      show t.hist ++ [.tls (.verifyResult id) (env.tls t.hist (.verifyResult id))] ++ y' = _
      rw [h18', ← hst.hist, hs]
      simp
  · refine .inl ?_
    have e : env.tls t.hist (.verifyResult id) = env.tls s.hist (.verifyResult id) := by rw [hst.hist]
    have key := (hf _ h18).run _ _ (hst.emit (.tls (.verifyResult id) (env.tls s.hist (.verifyResult id))))
    rw [show (sysTls (.verifyResult id) >>= f) env t = f (env.tls t.hist (.verifyResult id)) env { t with hist := t.hist ++ [.tls (.verifyResult id) (env.tls t.hist (.verifyResult id))] } from rfl, e]
    exact key

theorem judges_startTLS : Judges env h0 startTLSNegotiation startTLSNegotiation := by
  have hA := lax_alike (env := env)
  have name : Twin env Lax (M.gets (·.serverName)) (M.gets (·.serverName)) := .gets fun h => h.get fun _ _ => rfl
  have port : Twin env Lax (M.gets (·.port)) (M.gets (·.port)) := .gets fun h => h.get fun _ _ => rfl
  have len : Twin env Lax M.histLength M.histLength := ⟨fun s t h => ⟨congrArg (fun x : Hist => Res.ok x.length) h.hist, h⟩⟩
  have tls : ∀ op, Judges env h0 (sysTls op) (sysTls op) := fun op => .self lax_ask (.ask fun _ _ => ⟨_, rfl⟩) (.ask fun _ _ => ⟨_, rfl⟩)
  have both : ∀ {β : Type} {m : M β}, Twin env Lax m m → Steps env Ext m → Judges env h0 m m := fun h e => .self h e e
  have err : Judges env h0 (M.ask' (·.tlsErr)) (M.ask' (·.tlsErr)) := both hA.tlsErr (.ask' _)
  have clean : Judges env h0 cleanup cleanup := both tw_cleanup cleanup_steps
  have log : ∀ i p, Judges env h0 (addLog i p) (addLog i p) := fun i p => both (hA.addLog i p) (addLog_steps _ _)
  have setErr : ∀ e, Judges env h0 (setErrNo e) (setErrNo e) := fun e => both (tw_setErrNo e) (setErrNo_steps e)
  unfold startTLSNegotiation
  refine (log _ _).bind fun _ => (tls _).bind fun r => .ite ?_ ?_
  · exact .bind (both (tw_ctx _) (.modify fun _ => .same rfl)) fun _ => err.bind fun e => (setErr e).bind fun _ => .pure _
  refine .bind (both (tw_ctx _) (.modify fun _ => .same rfl)) fun _ => .bind (both len .histLength) fun id => (tls _).bind fun r => .ite ?_ ?_
  · exact .bind (both (tw_setBio _) (.modify fun _ => .same rfl)) fun _ => .pure _
  refine .bind (both tw_sock (.gets _)) fun sock => .bind (both (tw_setBio _) (.modify fun _ => .same rfl)) fun _ => .bind (both name (.gets _)) fun n => ?_
  cases n with
  | none => exact .stop _
  | some n =>
    refine .bind (both port (.gets _)) fun p => .ite (.stop _) ?_
    refine (tls _).bind fun r => .ite (.pure _) ((tls _).bind fun r => .ite (clean.bind fun _ => err.bind fun e => (setErr e).bind fun _ => .pure _) ?_)
    refine (log _ _).bind fun _ => (tls _).bind fun r => .ite (clean.bind fun _ => err.bind fun e => (setErr e).bind fun _ => .pure _) ?_
    refine (log _ _).bind fun _ => (tls _).bind fun r => .ite (clean.bind fun _ => .pure _) ?_
    refine judges_verdict (fun x hx => ?_) (fun x => ?_)
    · constructor
      intro s t hst
      have rest : Twin env Lax (if x ≠ 0 then do addLog (← M.env (·.x509Text x)) b!"s"; cleanup; Pure.pure (-58) else do addLog b!"TLS session ready!"; Pure.pure 0 : M Int)
          (if x ≠ 0 then do addLog (← M.env (·.x509Text x)) b!"s"; cleanup; Pure.pure (-58) else do addLog b!"TLS session ready!"; Pure.pure 0 : M Int) := by
        twins [hA.addLog, tw_cleanup]
      have one : ∀ b : Bool, ¬ (x = 18 ∧ b = true) := fun b h => hx h.1
      rw [bind_run, bind_run]
      dsimp only [M.gets]
      rw [if_neg (one _), if_neg (one _)]
      exact rest.run s t hst
    · steps [addLog_steps, cleanup_steps]

/-! ### The whole life -/

theorem judges_identify (e t) : Judges env h0 (identify e t) (identify e t) := .self (lax_identify e t) (identify_steps' _ _) (identify_steps' _ _)

theorem judges_auth : Judges env h0 authenticateIfNeeded authenticateIfNeeded := .self lax_auth authenticateIfNeeded_steps authenticateIfNeeded_steps

theorem judges_addLog (i p) : Judges env h0 (addLog i p) (addLog i p) := .self ((lax_alike (env := env)).addLog i p) (addLog_steps _ _) (addLog_steps _ _)

theorem judges_greetings : Judges env h0 checkServerGreetings checkServerGreetings := .self lax_greetings checkServerGreetings_steps checkServerGreetings_steps

theorem judges_secure : Judges env h0 getServerSecureIdentification getServerSecureIdentification := by
  unfold getServerSecureIdentification
  exact (judges_addLog _ _).bind fun _ => judges_identify _ _

theorem judges_opportunistic : Judges env h0 establishOpportunistic establishOpportunistic := by
  have upgrade : Judges env h0 upgradeToSecureConnection upgradeToSecureConnection := by
    unfold upgradeToSecureConnection
    refine (judges_addLog _ _).bind fun _ => .self (tw_sendRawFb (R := Lax) rfl _ _) ?_ ?_ <;> exact sendRawFb_steps (fun _ _ _ => ⟨_, rfl⟩) _ _
  unfold establishOpportunistic
  refine .bind (.self (.gets fun h => h.get fun _ _ => rfl) (.gets _) (.gets _)) fun resp => ?_
  split
  · exact .stop _
  · refine (judges_addLog _ _).bind fun _ => upgrade.bind fun code => .ite (.pure _) ?_
    refine judges_startTLS.bind fun code => .ite (.pure _) ?_
    exact judges_secure.bind fun code => .ite (.pure _) judges_auth
  · refine (judges_addLog _ _).bind fun _ => .bind (.self ?_ ?_ ?_) fun _ => .pure _
    · exact lax_modify (fun _ _ => rfl) (fun _ => rfl)
    · exact .modify fun _ => .same rfl
    · exact .modify fun _ => .same rfl

theorem judges_forced : Judges env h0 establishForced establishForced := by
  unfold establishForced
  refine judges_startTLS.bind fun code => .ite (.pure _) ?_
  refine judges_greetings.bind fun code => .ite (.pure _) ?_
  exact judges_secure.bind fun code => .ite (.pure _) judges_auth

theorem judges_greeted {rest : M Int} (h : Judges env h0 rest rest) : Judges env h0 (establishGreeted rest) (establishGreeted rest) := by
  unfold establishGreeted
  refine judges_greetings.bind fun code => .ite (.pure _) ?_
  refine .bind ?_ fun code => .ite (.pure _) h
  unfold sendServerIdentification
  exact judges_identify _ _

theorem judges_establish : Judges env h0 establish establish := by
  unfold establish
  refine .bind (.self lax_initializeSession initializeSession_steps initializeSession_steps) fun code => .ite (.pure _) ?_
  refine .bind (.self tw_kind (.gets _) (.gets _)) fun k => ?_
  cases k
  · exact judges_greeted judges_auth
  · exact judges_greeted judges_opportunistic
  · exact judges_forced

theorem judges_sendMail (m) : Judges env h0 (sendMail m) (sendMail m) := by
  have rest : Judges env h0 (sendMailConnected m) (sendMailConnected m) := .self (tw_sendMailConnected m) (sendMailConnected_steps m) (sendMailConnected_steps m)
  unfold sendMail
  exact .bind (.self (.gets fun h => h.get fun _ _ => rfl) (.gets _) (.gets _)) fun b => .ite rest (.bind judges_establish fun code => .ite (.pure _) rest)

theorem judges_doCall (c : Call) : Judges env h0 (doCall c) (doCall c) := by
  unfold doCall
  refine .bind (.self (lax_emit _) (.emit fun _ => ⟨_, rfl⟩) (.emit fun _ => ⟨_, rfl⟩)) fun _ => ?_
  have set : ∀ f : Client → Client, (∀ c cr, f { c with acceptSelfSigned := cr } = { f c with acceptSelfSigned := cr }) → (∀ c, (f c).acceptSelfSigned = c.acceptSelfSigned) →
      ∀ r : CallRes, Judges env h0 (do M.modify f; pure r) (do M.modify f; pure r) := fun f h1 h2 r =>
    .bind (.self (lax_modify h1 h2) (.modify fun _ => .same rfl) (.modify fun _ => .same rfl)) fun _ => .pure _
  cases c with
  | setServerName p =>
    dsimp only
    unfold setServerName
    split
    · exact .pure _
    · exact .stop _
    · refine set _ ?_ ?_ _ <;> intros <;> rfl
  | setServerPort n => refine set _ ?_ ?_ _ <;> intros <;> rfl
  | setBatchMode b => refine set _ ?_ ?_ _ <;> intros <;> rfl
  | setCommandTimeout n => refine set _ ?_ ?_ _ <;> intros <;> rfl
  | setCredentials c => refine set _ ?_ ?_ _ <;> intros <;> rfl
  | setKeepUsingBaseSendCommands b => refine set _ ?_ ?_ _ <;> intros <;> rfl
  | setAcceptSelfSignedCert b =>
    refine .bind (.self (.modify fun {s t} h => ⟨?_, h.hist⟩) (.modify fun _ => .same rfl) (.modify fun _ => .same rfl)) fun _ => .pure _
    show { s.client with acceptSelfSigned := b } = { t.client with acceptSelfSigned := b }
    rw [h.client]
  | sendMail m => exact (judges_sendMail m).bind fun _ => .pure _

theorem judges_runCalls (cs : List Call) : Judges env h0 (runCalls cs) (runCalls cs) := by
  induction cs with
  | nil => exact .pure _
  | cons c cs ih => exact (judges_doCall c).bind fun _ => ih.bind fun _ => .pure _

theorem judges_life (cs : List Call) : Judges env h0 (life cs) (life cs) := by
  unfold life destroy
  refine (judges_runCalls cs).bind fun _ => .bind ?_ fun _ => .pure _
  exact .bind (.self (lax_emit _) (.emit fun _ => ⟨_, rfl⟩) (.emit fun _ => ⟨_, rfl⟩)) fun _ => .self tw_cleanup cleanup_steps cleanup_steps

end Verif.Proofs
