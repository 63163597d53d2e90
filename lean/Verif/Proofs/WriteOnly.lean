import Verif.Proofs.SelfSigned
import Verif.Proofs.Log
/-!
# C92: two runs that differ in the log and the error number
-/
namespace Verif.Proofs
open Verif Verif.Model Verif.Spec

variable {α β : Type} {env : Env} {a b : Bytes} {x x' : Int}

/-- Two logs in order: the same text after these two beginnings, or the same text. -/
def Beginnings (a b : Bytes) : Option Log → Option Log → Prop
  | some l, some l' => LogOk l ∧ LogOk l' ∧ ((∃ y, l.content = a ++ y ∧ l'.content = b ++ y) ∨ l.content = l'.content)
  | _, _ => False

/-- The same state but for log and error number. -/
structure Diag (a b : Bytes) (x x' : Int) (s t : St) : Prop where
  client : s.client = { t.client with log := s.client.log, lastErrNo := s.client.lastErrNo }
  hist : s.hist = t.hist
  logs : Beginnings a b s.client.log t.client.log
  errs : (s.client.lastErrNo = x ∧ t.client.lastErrNo = x') ∨ s.client.lastErrNo = t.client.lastErrNo

theorem Diag.modify {s t : St} (h : Diag a b x x' s t) {f : Client → Client} (hf : ∀ c l e, f { c with log := l, lastErrNo := e } = { f c with log := l, lastErrNo := e })
    (hc : ∀ c, (f c).log = c.log ∧ (f c).lastErrNo = c.lastErrNo) : Diag a b x x' { s with client := f s.client } { t with client := f t.client } := by
  refine ⟨?_, h.hist, ?_, ?_⟩
  · show f s.client = { f t.client with log := (f s.client).log, lastErrNo := (f s.client).lastErrNo }
    rw [(hc s.client).1, (hc s.client).2, ← hf, ← h.client]
  · show Beginnings a b (f s.client).log (f t.client).log
    rw [(hc _).1, (hc _).1]
    exact h.logs
  · show ((f s.client).lastErrNo = x ∧ (f t.client).lastErrNo = x') ∨ (f s.client).lastErrNo = (f t.client).lastErrNo
    rw [(hc _).2, (hc _).2]
    exact h.errs

theorem Diag.remem {s t : St} (h : Diag a b x x' s t) (l l' : List SessionOp) : Diag a b x x' { s with mem := l } { t with mem := l' } := ⟨h.client, h.hist, h.logs, h.errs⟩

theorem diag_modify {f : Client → Client} (hf : ∀ c l e, f { c with log := l, lastErrNo := e } = { f c with log := l, lastErrNo := e })
    (hc : ∀ c, (f c).log = c.log ∧ (f c).lastErrNo = c.lastErrNo) : Twin env (Diag a b x x') (M.modify f) (M.modify f) := .modify fun h => h.modify hf hc

theorem diag_modifyMem {op : SessionOp} {f : Client → Client} (hf : ∀ c l e, f { c with log := l, lastErrNo := e } = { f c with log := l, lastErrNo := e })
    (hc : ∀ c, (f c).log = c.log ∧ (f c).lastErrNo = c.lastErrNo) : Twin env (Diag a b x x') (M.modifyMem op f) (M.modifyMem op f) := .modifyMem fun h => (h.modify hf hc).remem _ _

theorem Diag.get {s t : St} (h : Diag a b x x' s t) {f : Client → α} (hf : ∀ c l e, f { c with log := l, lastErrNo := e } = f c) : f s.client = f t.client := by
  rw [h.client, hf]

theorem Diag.emit {s t : St} (h : Diag a b x x' s t) (e : Ev) : Diag a b x x' { s with hist := s.hist ++ [e] } { t with hist := t.hist ++ [e] } :=
  ⟨h.client, by show s.hist ++ [e] = t.hist ++ [e]; rw [h.hist], h.logs, h.errs⟩

theorem diag_ask {f : Env → Hist → α} {ev : α → Ev} : Twin env (Diag a b x x') (M.ask f ev) (M.ask f ev) := by
  constructor
  intro s t hst
  refine ⟨congrArg (fun h => Res.ok (f env h)) hst.hist, ?_⟩
  show Diag a b x x' { s with hist := s.hist ++ [ev (f env s.hist)] } { t with hist := t.hist ++ [ev (f env t.hist)] }
  rw [hst.hist]
  have := hst.emit (ev (f env t.hist))
  rw [hst.hist] at this
  exact this

theorem diag_emit (e : Ev) : Twin env (Diag a b x x') (M.emit e) (M.emit e) := ⟨fun _ _ h => ⟨rfl, h.emit e⟩⟩

theorem diag_sysSend (k c d) : Twin env (Diag a b x x') (sysSend k c d) (sysSend k c d) := by
  unfold sysSend
  twins [diag_ask]

instance diag_alike : Alike env (fun _ d d' => d = d') (Diag a b x x') where
  refl := fun _ _ => rfl
  kind := fun h => h.get fun _ _ _ => rfl
  sock := fun h => h.get fun _ _ _ => rfl
  ptrRaw := fun h => h.get fun _ _ _ => rfl
  bio := fun h => h.get fun _ _ _ => rfl
  batch := fun h => h.get fun _ _ _ => rfl
  isConnected := fun h => h.get fun _ _ _ => rfl
  timeout := fun h => h.get fun _ _ _ => rfl
  setConnected := fun b _ _ h => h.modify (f := ({ · with isConnected := b })) (fun _ _ _ => rfl) (fun _ => ⟨rfl, rfl⟩)
  setCtx := fun b _ _ h => h.modify (f := ({ · with ctx := b })) (fun _ _ _ => rfl) (fun _ => ⟨rfl, rfl⟩)
  setBio := fun b _ _ h => h.modify (f := ({ · with bio := b })) (fun _ _ _ => rfl) (fun _ => ⟨rfl, rfl⟩)
  setSock := fun b _ _ h => h.modify (f := ({ · with sock := b })) (fun _ _ _ => rfl) (fun _ => ⟨rfl, rfl⟩)
  setErr := fun e s t h => ⟨by show ({ s.client with lastErrNo := e } : Client) = { t.client with log := s.client.log, lastErrNo := e }; rw [h.client], h.hist, h.logs, .inr rfl⟩
  setResp := fun b _ _ h => (h.modify (f := ({ · with lastResponse := some b })) (fun _ _ _ => rfl) (fun _ => ⟨rfl, rfl⟩)).remem _ _
  addLog := by
    intro i p
    constructor
    intro s t h
    obtain ⟨h1, h2, h3, h4⟩ := h
    unfold addLog
    rw [bind_run, bind_run]
    dsimp only [M.gets]
    revert h3
    cases hs : s.client.log with
    | none =>
      exact False.elim
    | some l =>
      cases ht : t.client.log with
      | none => exact False.elim
      | some l' =>
        rintro ⟨hl, hl', h3⟩
        obtain ⟨m, hm, om, cm, -⟩ := log_add_ok hl i p
        obtain ⟨m', hm', om', cm', -⟩ := log_add_ok hl' i p
        dsimp only
        rw [hm, hm']
        refine ⟨rfl, ?_, h2, ⟨om, om', ?_⟩, h4⟩
        · show ({ s.client with log := some m } : Client) = { t.client with log := some m, lastErrNo := s.client.lastErrNo }
          rw [h1]
        · rw [cm, cm']
          rcases h3 with ⟨y, e1, e2⟩ | e
          · exact .inl ⟨y ++ b!"\n" ++ p ++ b!": " ++ logItem i p, by rw [e1]; simp, by rw [e2]; simp⟩
          · exact .inr (by rw [e])
  send := by
    intro k c d d' hd β f f' hf hs
    subst hd
    constructor
    intro s t hst
    have key := (diag_sysSend (env := env) k c d).run s t hst
    show (M.bind _ f env s).1 = (M.bind _ f' env t).1 ∧ Diag a b x x' (M.bind _ f env s).2 (M.bind _ f' env t).2
    unfold M.bind
    revert key
    have nn : ∀ s', sysSend k c d env s ≠ (.ok .never, s') := by
      intro s' h
      unfold sysSend at h
      rw [bind_run] at h
      unfold M.ask at h
      dsimp only at h
      split at h
      · cases h
      · rename_i hne
        exact hne (congrArg (fun x => match x with | (Res.ok a, _) => a | _ => SendRes.fail 0) h)
    rcases e1 : sysSend k c d env s with ⟨r, s1⟩
    rcases sysSend k c d env t with ⟨r', t1⟩
    rintro ⟨h1, h2⟩
    simp only at h1 h2
    subst h1
    cases r with
    | stop x => exact ⟨rfl, h2⟩
    | ok r =>
      cases r with
      | fail x => exact (hf x).run _ _ h2
      | sent n => exact (hs n n).run _ _ h2
      | never => exact absurd e1 (nn s1)
  recv := by
    intro c
    unfold sysRecv
    twins [diag_ask]
  fcntlGet := fun fd => diag_ask
  fcntlSet := fun fd b => diag_ask
  sleep := diag_emit _
  close := fun _ => diag_emit _
  bioFree := fun _ => diag_emit _
  tlsErr := ⟨fun _ _ h => ⟨congrArg (fun x => Res.ok (env.tlsErr x)) h.hist, h⟩⟩
  readFile := fun n => diag_ask

/-! ### The parts that open a connection -/

theorem diag_connectPOSIX (ip : Bytes) : Twin env (Diag a b x x') (connectPOSIX ip) (connectPOSIX ip) := by
  have port : Twin env (Diag a b x x') (M.gets (·.port)) (M.gets (·.port)) := .gets fun h => h.get fun _ _ _ => rfl
  have c1 : ∀ fd p, Twin env (Diag a b x x') (sysConnect fd p) (sysConnect fd p) := fun fd p => diag_ask
  have c2 : ∀ fd p, Twin env (Diag a b x x') (sysSelect fd p) (sysSelect fd p) := fun fd p => diag_ask
  have c3 : ∀ fd, Twin env (Diag a b x x') (sysSockopt fd) (sysSockopt fd) := fun fd => diag_ask
  unfold connectPOSIX
  twins [tw_sock, port, c1, c2, c3, tw_setBlocking, tw_logErrno, tw_timeout]

theorem diag_initializeSession : Twin env (Diag a b x x') initializeSession initializeSession := by
  have hA := diag_alike (env := env) (a := a) (b := b) (x := x) (x' := x')
  have port : Twin env (Diag a b x x') (M.gets (·.port)) (M.gets (·.port)) := .gets fun h => h.get fun _ _ _ => rfl
  have name : Twin env (Diag a b x x') (M.gets (·.serverName)) (M.gets (·.serverName)) := .gets fun h => h.get fun _ _ _ => rfl
  have log : Twin env (Diag a b x x') (M.modifyMem .freshLog ({ · with log := some .fresh })) (M.modifyMem .freshLog ({ · with log := some .fresh })) :=
    .modifyMem fun {s t} h => ⟨by show ({ s.client with log := some .fresh } : Client) = { t.client with log := some .fresh, lastErrNo := s.client.lastErrNo }; rw [h.client], h.hist,
      ⟨logOk_fresh, logOk_fresh, .inr rfl⟩, h.errs⟩
  have c1 : Twin env (Diag a b x x') sysSocket sysSocket := diag_ask
  have c2 : ∀ n, Twin env (Diag a b x x') (sysResolve n) (sysResolve n) := fun n => diag_ask
  unfold initializeSession initializePOSIX
  twins [tw_setSock, port, name, log, c1, c2, tw_setNonBlocking, tw_logErrno, hA.addLog, diag_connectPOSIX]

theorem diag_greetings : Twin env (Diag a b x x') checkServerGreetings checkServerGreetings := by
  have hA := diag_alike (env := env) (a := a) (b := b) (x := x) (x' := x')
  unfold checkServerGreetings greetingResult
  twins [tw_kind, tw_sock, tw_timeout, tw_waitLoop, tw_bioRead, hA.recv, hA.addLog]

theorem diag_identify (e t) : Twin env (Diag a b x x') (identify e t) (identify e t) := by
  have hA := diag_alike (env := env) (a := a) (b := b) (x := x) (x' := x')
  have resp : Twin env (Diag a b x x') lastResponseText lastResponseText := by
    unfold lastResponseText
    have : Twin env (Diag a b x x') (M.gets (·.lastResponse)) (M.gets (·.lastResponse)) := .gets fun h => h.get fun _ _ _ => rfl
    twins [this]
  have loop : ∀ n o, Twin env (Diag a b x x') (ehloLoop t n o) (ehloLoop t n o) := by
    intro n
    induction n with
    | zero => intro o; unfold ehloLoop; exact .stop _
    | succ n ih => intro o; unfold ehloLoop; twins [tw_getServerReply, resp, ih]
  have opts : ∀ o, Twin env (Diag a b x x') (setAuthOptions o) (setAuthOptions o) :=
    fun o => diag_modifyMem (fun _ _ _ => rfl) (fun _ => ⟨rfl, rfl⟩)
  have cmd := tw_sendFb (env := env) (R := Diag a b x x') (d := ehloCmd) (d' := ehloCmd) rfl e t
  unfold identify
  twins [hA.addLog, resp, loop, opts]

theorem diag_auth : Twin env (Diag a b x x') authenticateIfNeeded authenticateIfNeeded := by
  have hA := diag_alike (env := env) (a := a) (b := b) (x := x) (x' := x')
  have cr : Twin env (Diag a b x x') (M.gets (·.credential)) (M.gets (·.credential)) := .gets fun h => h.get fun _ _ _ => rfl
  have op : Twin env (Diag a b x x') (M.gets (·.authOptions)) (M.gets (·.authOptions)) := .gets fun h => h.get fun _ _ _ => rfl
  unfold authenticateIfNeeded authenticateClient authPlainM authLoginM authXOAuth2M
  twins [cr, op, hA.addLog, tw_cmd]

/-! ### The whole life -/

theorem diag_startTLS : Twin env (Diag a b x x') startTLSNegotiation startTLSNegotiation := by
  have hA := diag_alike (env := env) (a := a) (b := b) (x := x) (x' := x')
  have name : Twin env (Diag a b x x') (M.gets (·.serverName)) (M.gets (·.serverName)) := .gets fun h => h.get fun _ _ _ => rfl
  have port : Twin env (Diag a b x x') (M.gets (·.port)) (M.gets (·.port)) := .gets fun h => h.get fun _ _ _ => rfl
  have acc : Twin env (Diag a b x x') (M.gets (·.acceptSelfSigned)) (M.gets (·.acceptSelfSigned)) := .gets fun h => h.get fun _ _ _ => rfl
  have len : Twin env (Diag a b x x') M.histLength M.histLength := ⟨fun s t h => ⟨congrArg (fun x : Hist => Res.ok x.length) h.hist, h⟩⟩
  have tls : ∀ op, Twin env (Diag a b x x') (sysTls op) (sysTls op) := fun op => diag_ask
  unfold startTLSNegotiation
  twins [hA.addLog, hA.tlsErr, tls, name, port, acc, len, tw_ctx, tw_setBio, tw_sock, tw_cleanup, tw_setErrNo]

theorem diag_establish : Twin env (Diag a b x x') establish establish := by
  have hA := diag_alike (env := env) (a := a) (b := b) (x := x) (x' := x')
  have resp : Twin env (Diag a b x x') (M.gets (·.lastResponse)) (M.gets (·.lastResponse)) := .gets fun h => h.get fun _ _ _ => rfl
  have keep : Twin env (Diag a b x x') (setKeepUsingBase true) (setKeepUsingBase true) := diag_modify (fun _ _ _ => rfl) (fun _ => ⟨rfl, rfl⟩)
  have cmd := tw_sendRawFb (env := env) (R := Diag a b x x') (d := startTlsCmd) (d' := startTlsCmd) rfl (-30) (-31)
  unfold establish establishGreeted establishOpportunistic establishForced upgradeToSecureConnection sendServerIdentification getServerSecureIdentification
  twins [diag_initializeSession, tw_kind, diag_greetings, diag_identify, diag_auth, diag_startTLS, hA.addLog, resp, keep]

theorem diag_sendMail (m) : Twin env (Diag a b x x') (sendMail m) (sendMail m) := by
  unfold sendMail
  twins [tw_isConnected, diag_establish, tw_sendMailConnected]

theorem diag_doCall (c : Call) : Twin env (Diag a b x x') (doCall c) (doCall c) := by
  unfold doCall
  refine .bind (diag_emit _) fun _ => ?_
  have set : ∀ f : Client → Client, (∀ c l e, f { c with log := l, lastErrNo := e } = { f c with log := l, lastErrNo := e }) → (∀ c, (f c).log = c.log ∧ (f c).lastErrNo = c.lastErrNo) →
      ∀ r : CallRes, Twin env (Diag a b x x') (do M.modify f; pure r) (do M.modify f; pure r) := fun f h1 h2 r => .bind (diag_modify h1 h2) fun _ => .pure _
  cases c with
  | setServerName p =>
    dsimp only
    unfold setServerName
    split
    · exact .pure _
    · exact .stop _
    · exact set _ (by intros; rfl) (by intros; exact ⟨rfl, rfl⟩) _
  | setServerPort n => exact set _ (by intros; rfl) (by intros; exact ⟨rfl, rfl⟩) _
  | setBatchMode b => exact set _ (by intros; rfl) (by intros; exact ⟨rfl, rfl⟩) _
  | setCommandTimeout n => exact set _ (by intros; rfl) (by intros; exact ⟨rfl, rfl⟩) _
  | setCredentials c => exact set _ (by intros; rfl) (by intros; exact ⟨rfl, rfl⟩) _
  | setKeepUsingBaseSendCommands b => exact set _ (by intros; rfl) (by intros; exact ⟨rfl, rfl⟩) _
  | setAcceptSelfSignedCert b => exact set _ (by intros; rfl) (by intros; exact ⟨rfl, rfl⟩) _
  | sendMail m => exact .bind (diag_sendMail m) fun _ => .pure _

theorem diag_runCalls (cs : List Call) : Twin env (Diag a b x x') (runCalls cs) (runCalls cs) := by
  induction cs with
  | nil => exact .pure _
  | cons c cs ih => exact .bind (diag_doCall c) fun _ => .bind ih fun _ => .pure _

theorem diag_life (cs : List Call) : Twin env (Diag a b x x') (life cs) (life cs) := by
  unfold life destroy
  exact .bind (diag_runCalls cs) fun _ => .bind (.bind (diag_emit _) fun _ => tw_cleanup) fun _ => .pure _

end Verif.Proofs
