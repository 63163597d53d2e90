import Verif.Proofs.Twin
import Verif.Proofs.Calls
import Verif.Proofs.Off
import Verif.Spec.Setup
/-!
# Two clients with the same settings, side by side, at the same point of the same history
-/
namespace Verif.Proofs
open Verif Verif.Model Verif.Spec

variable {α β : Type} {env : Env}

/-- From related states both programs end alike; `Q` when they return, `E` when they stop. -/
structure Pair (env : Env) (E : St → St → Prop) (R : St → St → Prop) (Q : α → St → St → Prop) (m m' : M α) : Prop where
  run : ∀ s t, R s t → (m env s).1 = (m' env t).1 ∧ (∀ a, (m env s).1 = .ok a → Q a (m env s).2 (m' env t).2) ∧ E (m env s).2 (m' env t).2

theorem Pair.bind {E R : St → St → Prop} {Q : α → St → St → Prop} {P : β → St → St → Prop} {m m' : M α} {f f' : α → M β}
    (h : Pair env E R Q m m') (hf : ∀ a, Pair env E (Q a) P (f a) (f' a)) : Pair env E R P (m >>= f) (m' >>= f') := by
  constructor
  intro s t hst
  have h1 := h.run s t hst
  change (M.bind m f env s).1 = (M.bind m' f' env t).1 ∧ (∀ a, (M.bind m f env s).1 = .ok a → P a (M.bind m f env s).2 (M.bind m' f' env t).2) ∧
    E (M.bind m f env s).2 (M.bind m' f' env t).2
  unfold M.bind
  revert h1
  rcases m env s with ⟨r, s1⟩
  rcases m' env t with ⟨r', t1⟩
  rintro ⟨h1, h2, h3⟩
  simp only at h1 h2 h3
  subst h1
  cases r with
  | ok a => exact (hf a).run s1 t1 (h2 a rfl)
  | stop e =>
    refine ⟨rfl, ?_, h3⟩
    intro a ha
    simp at ha

theorem Pair.of_twin {E R : St → St → Prop} {m m' : M α} (h : Twin env R m m') (hE : ∀ {s t}, R s t → E s t) : Pair env E R (fun _ => R) m m' :=
  ⟨fun s t hst => ⟨(h.run s t hst).1, fun _ _ => (h.run s t hst).2, hE (h.run s t hst).2⟩⟩

theorem Pair.mono {E R R' : St → St → Prop} {Q Q' : α → St → St → Prop} {m m' : M α} (h : Pair env E R Q m m') (hR : ∀ {s t}, R' s t → R s t)
    (hQ : ∀ {a s t}, Q a s t → Q' a s t) : Pair env E R' Q' m m' :=
  ⟨fun s t hst => ⟨(h.run s t (hR hst)).1, fun a ha => hQ ((h.run s t (hR hst)).2.1 a ha), (h.run s t (hR hst)).2.2⟩⟩

theorem Pair.pure {E R : St → St → Prop} {Q : α → St → St → Prop} (a : α) (hQ : ∀ {s t}, R s t → Q a s t) (hE : ∀ {s t}, R s t → E s t) :
    Pair env E R Q (Pure.pure a) (Pure.pure a) :=
  ⟨fun s t hst => ⟨rfl, fun b hb => by cases hb; exact hQ hst, hE hst⟩⟩

theorem Pair.stop {E R : St → St → Prop} {Q : α → St → St → Prop} (e : Stop) (hE : ∀ {s t}, R s t → E s t) : Pair env E R Q (M.stop e) (M.stop e) :=
  ⟨fun s t hst => ⟨rfl, fun b hb => (by cases hb), hE hst⟩⟩

/-- A fact about the common result. -/
theorem Pair.fact {E R : St → St → Prop} {F : Prop} {Q : α → St → St → Prop} {m m' : M α} (h : F → Pair env E R Q m m') :
    Pair env E (fun s t => F ∧ R s t) Q m m' :=
  ⟨fun s t hst => (h hst.1).run s t hst.2⟩

theorem Pair.ite {E R : St → St → Prop} {Q : α → St → St → Prop} {c : Prop} [Decidable c] {m m' n n' : M α} (h : c → Pair env E R Q m m')
    (h' : ¬ c → Pair env E R Q n n') : Pair env E R Q (if c then m else n) (if c then m' else n') := by
  split
  · next x => exact h x
  · next x => exact h' x

/-- The same history, the same settings, and where a flag says so the same socket, log, BIO, last response, options. -/
structure Agree (sock log bio resp opts : Bool) (s t : St) : Prop where
  hist : s.hist = t.hist
  kind : s.client.kind = t.client.kind
  serverName : s.client.serverName = t.client.serverName
  port : s.client.port = t.client.port
  batch : s.client.batch = t.client.batch
  timeout : s.client.timeout = t.client.timeout
  credential : s.client.credential = t.client.credential
  acceptSelfSigned : s.client.acceptSelfSigned = t.client.acceptSelfSigned
  keep : s.client.keep = t.client.keep
  ptrRaw : s.client.ptrRaw = t.client.ptrRaw
  isConnected : s.client.isConnected = t.client.isConnected
  sock : sock = true → s.client.sock = t.client.sock
  log : log = true → s.client.log = t.client.log
  bio : bio = true → s.client.bio = t.client.bio
  resp : resp = true → s.client.lastResponse = t.client.lastResponse
  opts : opts = true → s.client.authOptions = t.client.authOptions

section
variable {k l b r o : Bool}

theorem Agree.weaken {k' l' b' r' o' : Bool} {s t : St} (h : Agree k l b r o s t) (hk : k' = true → k = true) (hl : l' = true → l = true)
    (hb : b' = true → b = true) (hr : r' = true → r = true) (ho : o' = true → o = true) : Agree k' l' b' r' o' s t :=
  ⟨h.hist, h.kind, h.serverName, h.port, h.batch, h.timeout, h.credential, h.acceptSelfSigned, h.keep, h.ptrRaw, h.isConnected, fun e => h.sock (hk e),
    fun e => h.log (hl e), fun e => h.bio (hb e), fun e => h.resp (hr e), fun e => h.opts (ho e)⟩

/-- What is left at the end. -/
abbrev Agree.least {s t : St} (h : Agree k l b r o s t) : Agree false false false false false s t := by
  apply h.weaken <;> simp

theorem agree_ask {f : Env → Hist → α} {ev : α → Ev} : Twin env (Agree k l b r o) (M.ask f ev) (M.ask f ev) := by
  constructor
  intro s t h
  refine ⟨congrArg Res.ok (by rw [h.hist]), ?_⟩
  obtain ⟨hh, _⟩ := h
  constructor <;> first | assumption | simp only [M.ask, hh]

theorem agree_emit (e : Ev) : Twin env (Agree k l b r o) (M.emit e) (M.emit e) := by
  constructor
  intro s t h
  refine ⟨rfl, ?_⟩
  obtain ⟨hh, _⟩ := h
  constructor <;> first | assumption | simp only [M.emit, hh]

theorem agree_ask' {f : Env → Hist → α} : Twin env (Agree k l b r o) (M.ask' f) (M.ask' f) :=
  ⟨fun _ _ h => ⟨congrArg Res.ok (by rw [h.hist]), h⟩⟩

theorem agree_length : Twin env (Agree k l b r o) M.histLength M.histLength :=
  ⟨fun _ _ h => ⟨congrArg Res.ok (by rw [h.hist]), h⟩⟩

macro "agree_fields" h:ident : tactic => `(tactic|
  exact ⟨($h).hist, ($h).kind, ($h).serverName, ($h).port, ($h).batch, ($h).timeout, ($h).credential, ($h).acceptSelfSigned, ($h).keep, ($h).ptrRaw,
    by first | exact ($h).isConnected | rfl, by first | exact ($h).sock | exact fun _ => rfl, by first | exact ($h).log | exact fun _ => rfl,
    by first | exact ($h).bio | exact fun _ => rfl, by first | exact ($h).resp | exact fun _ => rfl, by first | exact ($h).opts | exact fun _ => rfl⟩)

theorem agree_addLog (i p : Bytes) : Twin env (Agree k true b r o) (addLog i p) (addLog i p) := by
  unfold addLog
  refine .bind (.gets fun h => h.log rfl) fun lg => ?_
  cases lg with
  | none => exact .stop _
  | some lg =>
    dsimp only
    cases lg.add i p with
    | error u => exact .stop _
    | ok l' =>
      refine .modifyMem fun h => ?_
      agree_fields h

/-! Setting a member to the same value in both. -/

theorem agree_setErrNo (e : Int) : Twin env (Agree k l b r o) (setErrNo e) (setErrNo e) := .modify fun h => by agree_fields h
theorem agree_setCtx (v : Bool) : Twin env (Agree k l b r o) (M.modify ({ · with ctx := v })) (M.modify ({ · with ctx := v })) :=
  .modify fun h => by agree_fields h

/-- Errors are logged alike, also with different sockets. -/
theorem agree_logErrno (e : Int) : Twin env (Agree k true b r o) (logErrno e) (logErrno e) := by
  unfold logErrno
  twins [agree_setErrNo, agree_addLog]

theorem agree_sock : Twin env (Agree true l b r o) (M.gets (·.sock)) (M.gets (·.sock)) := .gets fun h => h.sock rfl
theorem agree_name : Twin env (Agree k l b r o) (M.gets (·.serverName)) (M.gets (·.serverName)) := .gets fun h => h.serverName
theorem agree_port : Twin env (Agree k l b r o) (M.gets (·.port)) (M.gets (·.port)) := .gets fun h => h.port
theorem agree_timeout : Twin env (Agree k l b r o) (M.gets (·.timeout)) (M.gets (·.timeout)) := .gets fun h => h.timeout
theorem agree_self : Twin env (Agree k l b r o) (M.gets (·.acceptSelfSigned)) (M.gets (·.acceptSelfSigned)) := .gets fun h => h.acceptSelfSigned
theorem agree_kind : Twin env (Agree k l b r o) (M.gets (·.kind)) (M.gets (·.kind)) := .gets fun h => h.kind

theorem agree_setNonBlocking : Twin env (Agree true true b r o) setNonBlocking setNonBlocking := by
  unfold setNonBlocking sysFcntlGet sysFcntlSet
  have : ∀ x, Twin env (Agree true true b r o) (logIfErr x) (logIfErr x) := by
    intro x; cases x with
    | ok => exact .pure _
    | err e => exact agree_logErrno e
  twins [agree_sock, agree_ask, agree_logErrno, this]

theorem agree_setBlocking : Twin env (Agree true true b r o) setBlocking setBlocking := by
  unfold setBlocking sysFcntlGet sysFcntlSet
  twins [agree_sock, agree_ask, agree_logErrno]

theorem agree_connectPOSIX (ip : Bytes) : Twin env (Agree true true b r o) (connectPOSIX ip) (connectPOSIX ip) := by
  unfold connectPOSIX sysConnect sysSelect sysSockopt
  twins [agree_sock, agree_port, agree_timeout, agree_ask, agree_setBlocking, agree_logErrno]

/-- Everything but the last response and the options agrees: the code on an open connection runs alike. -/
instance agree_alike : Alike env (fun _ d d' => d = d') (Agree true true true r o) where
  refl := fun _ _ => rfl
  kind := fun h => h.kind
  sock := fun h => h.sock rfl
  ptrRaw := fun h => h.ptrRaw
  bio := fun h => h.bio rfl
  batch := fun h => h.batch
  isConnected := fun h => h.isConnected
  timeout := fun h => h.timeout
  setConnected := fun b _ _ h => by agree_fields h
  setCtx := fun b _ _ h => by agree_fields h
  setBio := fun b _ _ h => by agree_fields h
  setSock := fun b _ _ h => by agree_fields h
  setErr := fun b _ _ h => by agree_fields h
  setResp := fun b _ _ h => by agree_fields h
  addLog := agree_addLog
  send := by
    intro k c d d' hd β f f' hf hs
    subst hd
    constructor
    intro s t hst
    have he := (agree_ask (env := env) (k := true) (l := true) (b := true) (r := r) (o := o)
      (f := fun e h => normSend (nonblocking c.fd h) d.length (e.send h c d)) (ev := .send k c d)).run s t hst
    unfold sysSend
    rw [bind_run, bind_run, bind_run, bind_run]
    revert he
    unfold M.ask
    dsimp only
    rintro ⟨h1, h2⟩
    have h1 := Res.ok.inj h1
    rw [← h1] at h2 ⊢
    generalize normSend (nonblocking c.fd s.hist) d.length (env.send s.hist c d) = x at h2 ⊢
    cases x with
    | fail e => exact (hf e).run _ _ h2
    | sent n => exact (hs n n).run _ _ h2
    | never => exact ⟨rfl, h2⟩
  recv := fun c => by
    unfold sysRecv
    twins [agree_ask]
  fcntlGet := fun fd => agree_ask
  fcntlSet := fun fd b => agree_ask
  sleep := agree_emit _
  close := fun _ => agree_emit _
  bioFree := fun _ => agree_emit _
  tlsErr := agree_ask'
  readFile := fun n => agree_ask

/-! ### Opening the connection -/

/-- What holds in the end in any case. -/
abbrev AtEnd : St → St → Prop := Agree false true false false false

theorem Agree.atEnd {s t : St} (h : Agree k true b r o s t) : AtEnd s t := h.weaken (by simp) id (by simp) (by simp) (by simp)

/-- Same flags before and after. -/
theorem Pair.twin {m m' : M α} (h : Twin env (Agree k true b r o) m m') : Pair env AtEnd (Agree k true b r o) (fun _ => Agree k true b r o) m m' :=
  .of_twin h Agree.atEnd

theorem agree_initializeSession :
    Pair env AtEnd (Agree false false b false false) (fun _ => Agree true true b false false) initializeSession initializeSession := by
  unfold initializeSession
  refine .bind (Q := fun _ => Agree false true b false false) ⟨fun s t h => ?_⟩ fun _ => ?_
  · have : Agree false true b false false { s with client := { s.client with log := some .fresh }, mem := s.mem ++ [.freshLog] }
        { t with client := { t.client with log := some .fresh }, mem := t.mem ++ [.freshLog] } := by agree_fields h
    exact ⟨rfl, fun _ _ => this, this.atEnd⟩
  · unfold initializePOSIX sysSocket sysResolve
    refine .bind (.twin agree_ask) fun x => ?_
    have set : ∀ v : Int, Pair env AtEnd (Agree false true b false false) (fun _ => Agree true true b false false)
        (M.modify ({ · with sock := v })) (M.modify ({ · with sock := v })) := by
      intro v
      refine ⟨fun s t h => ?_⟩
      have : Agree true true b false false { s with client := { s.client with sock := v } } { t with client := { t.client with sock := v } } := by
        agree_fields h
      exact ⟨rfl, fun _ _ => this, this.atEnd⟩
    cases x with
    | err e => exact .bind (set _) fun _ => .twin (by twins [agree_logErrno])
    | val fd =>
      refine .bind (set _) fun _ => .twin ?_
      twins [agree_name, agree_port, agree_ask, agree_setNonBlocking, agree_addLog, agree_connectPOSIX]

/-! ### Replies -/

theorem agree_setResp (d : Bytes) : Pair env AtEnd (Agree k true b r o) (fun _ => Agree k true b true o) (setLastServerResponse d) (setLastServerResponse d) := by
  refine ⟨fun s t h => ?_⟩
  have : Agree k true b true o (setLastServerResponse d env s).2 (setLastServerResponse d env t).2 := by
    unfold setLastServerResponse M.modifyMem
    agree_fields h
  exact ⟨rfl, fun _ _ => this, this.atEnd⟩

/-- A reply was read, so both have the same last response. -/
theorem agree_getRawReply : Pair env AtEnd (Agree true true true r o) (fun a => Agree true true true (r || decide (a ≠ -1)) o) getRawReply getRawReply := by
  unfold getRawReply
  refine .bind (.twin (by twins [tw_setNonBlocking])) fun _ => ?_
  refine .bind (.twin (by twins [])) fun n => ?_
  refine .bind (.twin (by twins [tw_rawReplyLoop])) fun x => ?_
  obtain ⟨w, acc, got⟩ := x
  dsimp only
  refine .bind (.twin (by twins [tw_setBlocking])) fun _ => ?_
  refine .bind (.twin (by twins [tw_timeout])) fun n => ?_
  refine .ite (fun _ => ?_) (fun _ => ?_)
  · refine .bind (agree_setResp _) fun _ => .bind (.twin (agree_addLog _ _)) fun _ => .pure _ ?_ Agree.atEnd
    exact fun h => h.weaken id id id (fun _ => rfl) id
  · exact .pure _ (fun h => h.weaken id id id (by simp) id) Agree.atEnd

theorem agree_getTlsReply : Pair env AtEnd (Agree true true true r o) (fun a => Agree true true true (r || decide (a ≠ -1)) o) getTlsReply getTlsReply := by
  unfold getTlsReply
  refine .bind (.twin (by twins [tw_timeout])) fun n => ?_
  refine .bind (.twin (by twins [tw_waitLoop, tw_bioRead])) fun x => ?_
  cases x with
  | some d =>
    refine .bind (agree_setResp _) fun _ => .bind (.twin (agree_addLog _ _)) fun _ => .pure _ ?_ Agree.atEnd
    exact fun h => h.weaken id id id (fun _ => rfl) id
  | none => exact .pure _ (fun h => h.weaken id id id (by simp) id) Agree.atEnd

/-- After a reply with a code. -/
theorem agree_afterReply {e t : Int} (ht : t ≠ 250) {send : M Int} (hs : Twin env (Agree true true true r o) send send) (he : e ≠ 250) {reply : M Int}
    (hr : Pair env AtEnd (Agree true true true r o) (fun a => Agree true true true (r || decide (a ≠ -1)) o) reply reply) :
    Pair env AtEnd (Agree true true true r o) (fun a => Agree true true true (r || decide (a = 250)) o)
      (do if (← send) ≠ 0 then pure e else do
            let code ← reply
            if code ≠ -1 then pure code else do cleanup; pure t)
      (do if (← send) ≠ 0 then pure e else do
            let code ← reply
            if code ≠ -1 then pure code else do cleanup; pure t) := by
  refine .bind (.twin hs) fun x => .ite (fun _ => .pure _ (fun h => h.weaken id id id (by simp [he]) id) Agree.atEnd) fun _ => ?_
  refine .bind hr fun code => .ite (fun hc => ?_) fun hc => ?_
  · exact .pure _ (fun h => h.weaken id id id (by simp [hc]) id) Agree.atEnd
  · refine .bind (.twin (m := cleanup) (m' := cleanup) tw_cleanup) fun _ => .pure _ (fun h => h.weaken id id id ?_ id) Agree.atEnd
    simp only [Bool.or_eq_true, decide_eq_true_eq]
    rintro (h | h)
    · exact .inl h
    · exact absurd h ht

theorem agree_sendFb {d : Bytes} {e t : Int} (he : e ≠ 250) (ht : t ≠ 250) :
    Pair env AtEnd (Agree true true true r o) (fun a => Agree true true true (r || decide (a = 250)) o) (sendFb d e t) (sendFb d e t) := by
  unfold sendFb
  refine .bind (.twin tw_kind) fun x => .bind (.twin tw_bio) fun y => .ite (fun _ => ?_) fun _ => ?_
  · unfold sendRawFb
    exact agree_afterReply ht (by unfold sendRaw; exact tw_sendRawWith tw_cleanup _ rfl _) he agree_getRawReply
  · unfold sendTlsFb
    exact agree_afterReply ht (tw_sendBioWith tw_cleanup _ rfl _) he agree_getTlsReply

/-- After an EHLO that was answered both have the same last response and the same options. -/
theorem agree_identify {e t : Int} (he : e ≠ 250) (ht : t ≠ 250) :
    Pair env AtEnd (Agree true true true r o) (fun a => Agree true true true (r || decide (a = 250)) (o || decide (a = 250))) (identify e t) (identify e t) := by
  unfold identify
  refine .bind (.twin (agree_addLog _ _)) fun _ => .bind (agree_sendFb he ht) fun code => .ite (fun hc => ?_) fun hc => ?_
  · exact .pure _ (fun h => h.weaken id id id (by simp [hc]) (by simp [hc])) Agree.atEnd
  · have hc := Decidable.not_not.mp hc
    subst hc
    have text : Twin env (Agree true true true true o) lastResponseText lastResponseText := by
      unfold lastResponseText
      have : Twin env (Agree true true true true o) (M.gets (·.lastResponse)) (M.gets (·.lastResponse)) := .gets fun h => h.resp rfl
      twins [this]
    have loop : ∀ n x, Pair env AtEnd (Agree true true true true o) (fun y s t' => (∀ c, y = .inl c → c ≠ 250) ∧ Agree true true true true o s t')
        (ehloLoop t n x) (ehloLoop t n x) := by
      intro n
      induction n with
      | zero => intro x; unfold ehloLoop; exact .stop _ Agree.atEnd
      | succ n ih =>
        intro x
        unfold ehloLoop
        refine .ite (fun _ => .pure _ (fun h => ⟨fun c hc => (by cases hc), h⟩) Agree.atEnd) fun _ => ?_
        refine .bind (.twin tw_getServerReply) fun code => .ite (fun _ => ?_) fun _ => .ite (fun hn => ?_) fun _ => ?_
        · exact .pure _ (fun h => ⟨fun c hc => (by cases hc; exact ht), h⟩) Agree.atEnd
        · exact .pure _ (fun h => ⟨fun c hc => (by cases hc; exact hn), h⟩) Agree.atEnd
        · exact .bind (.twin text) fun _ => ih _
    refine Pair.mono (R := Agree true true true true o) (Q := fun a => Agree true true true true (o || decide (a = 250))) ?_
      (fun h => h.weaken id id id (by simp) id) (fun h => h.weaken id id id (fun _ => rfl) id)
    refine .bind (.twin text) fun first => .bind (.twin (by twins [])) fun n => .bind (loop _ _) fun x => .fact fun hx => ?_
    cases x with
    | inl c =>
      have := hx c rfl
      exact .pure _ (fun h => h.weaken id id id id (by simp [this])) Agree.atEnd
    | inr options =>
      refine .bind (Q := fun _ => Agree true true true true true) ⟨fun s t h => ?_⟩ fun _ => .pure _ (fun h => h.weaken id id id id (by simp)) Agree.atEnd
      have : Agree true true true true true (setAuthOptions options env s).2 (setAuthOptions options env t).2 := by
        unfold setAuthOptions M.modifyMem
        agree_fields h
      exact ⟨rfl, fun _ _ => this, this.atEnd⟩

/-! ### The rest of the way -/

theorem agree_setBio (v : Option Bio) :
    Pair env AtEnd (Agree k true b r o) (fun _ => Agree k true true r o) (M.modify ({ · with bio := v })) (M.modify ({ · with bio := v })) := by
  refine ⟨fun s t h => ?_⟩
  have : Agree k true true r o { s with client := { s.client with bio := v } } { t with client := { t.client with bio := v } } := by agree_fields h
  exact ⟨rfl, fun _ _ => this, this.atEnd⟩

/-- The negotiation replaces the BIO: when it succeeds both have the same. -/
theorem agree_startTLS :
    Pair env AtEnd (Agree true true b r o) (fun a => Agree true true (b || decide (a = 0)) r o) startTLSNegotiation startTLSNegotiation := by
  have err : ∀ {b}, Twin env (Agree true true b r o) (M.ask' (·.tlsErr)) (M.ask' (·.tlsErr)) := agree_ask'
  unfold startTLSNegotiation sysTls
  refine .bind (.twin (agree_addLog _ _)) fun _ => .bind (.twin agree_ask) fun x => .ite (fun _ => ?_) fun _ => ?_
  · refine .bind (.twin (agree_setCtx _)) fun _ => .bind (.twin err) fun e => .bind (.twin (agree_setErrNo _)) fun _ => ?_
    exact .pure _ (fun h => h.weaken id id (by simp) id id) Agree.atEnd
  · refine .bind (.twin (agree_setCtx _)) fun _ => .bind (.twin agree_length) fun i => .bind (.twin agree_ask) fun y => .ite (fun _ => ?_) fun _ => ?_
    · exact .bind (agree_setBio _) fun _ => .pure _ (fun h => h.weaken id id (by simp) id id) Agree.atEnd
    · refine .bind (.twin agree_sock) fun sk => .bind (agree_setBio _) fun _ => .mono (.twin ?_) id fun h => h.weaken id id (fun _ => rfl) id id
      twins [agree_addLog, agree_name, agree_port, agree_self, agree_ask, agree_setErrNo, err, tw_cleanup]

theorem agree_greetings : Twin env (Agree true true true r o) checkServerGreetings checkServerGreetings := by
  have res : ∀ x, Twin env (Agree true true true r o) (greetingResult x) (greetingResult x) := by
    intro x
    unfold greetingResult
    twins [agree_addLog]
  have recv : ∀ c, Twin env (Agree true true true r o) (sysRecv c) (sysRecv c) := fun c => by
    unfold sysRecv
    twins [agree_ask]
  unfold checkServerGreetings
  twins [tw_kind, tw_sock, tw_timeout, res, tw_waitLoop, tw_bioRead, recv]

theorem agree_authenticate : Twin env (Agree true true true r true) authenticateIfNeeded authenticateIfNeeded := by
  have cred : Twin env (Agree true true true r true) (M.gets (·.credential)) (M.gets (·.credential)) := .gets fun h => h.credential
  have opts : Twin env (Agree true true true r true) (M.gets (·.authOptions)) (M.gets (·.authOptions)) := .gets fun h => h.opts rfl
  unfold authenticateIfNeeded authenticateClient authPlainM authLoginM authXOAuth2M
  twins [cred, opts, tw_cmd, agree_addLog]

/-- What the mail needs when the connection is there. -/
abbrev Usable (b : Bool) (a : Int) : St → St → Prop := Agree true true (b || decide (a = 0)) false false

theorem Pair.done {m : M Int} (h : Twin env (Agree true true true r o) m m) : Pair env AtEnd (Agree true true true r o) (Usable b) m m :=
  .mono (.twin h) id fun h => h.weaken id id (fun _ => rfl) (by simp) (by simp)

theorem Pair.code {a : Int} {b b' : Bool} (ha : (b = true ∨ a = 0) → b' = true) : Pair env AtEnd (Agree true true b' r o) (Usable b) (Pure.pure a) (Pure.pure a) :=
  .pure _ (fun h => h.weaken id id (by simpa using ha) (by simp) (by simp)) Agree.atEnd

theorem agree_secureIdentify : Pair env AtEnd (Agree true true true r o) (Usable b)
    (do let code ← getServerSecureIdentification
        if code ≠ 250 then pure code else authenticateIfNeeded)
    (do let code ← getServerSecureIdentification
        if code ≠ 250 then pure code else authenticateIfNeeded) := by
  unfold getServerSecureIdentification
  refine .bind (.bind (.twin (agree_addLog _ _)) fun _ => agree_identify (by decide) (by decide)) fun code => .ite (fun _ => .code fun _ => rfl) fun hc => ?_
  have hc := Decidable.not_not.mp hc
  subst hc
  exact .mono (R := Agree true true true true true) (.done agree_authenticate) (fun h => h.weaken id id id (by simp) (by simp)) id

theorem agree_forced : Pair env AtEnd (Agree true true b false false) (Usable b) establishForced establishForced := by
  unfold establishForced
  refine .bind agree_startTLS fun code => .ite (fun hc => ?_) fun hc => ?_
  · exact .code fun h => by rcases h with h | h <;> simp_all
  have hc := Decidable.not_not.mp hc
  subst hc
  refine .mono (R := Agree true true true false false) ?_ (fun h => h.weaken id id (by simp) id id) id
  refine .bind (.twin agree_greetings) fun code => .ite (fun _ => .code fun _ => rfl) fun _ => ?_
  exact agree_secureIdentify

theorem agree_opportunistic {b : Bool} : Pair env AtEnd (Agree true true true true true) (Usable b) establishOpportunistic establishOpportunistic := by
  have resp : Twin env (Agree true true true true true) (M.gets (·.lastResponse)) (M.gets (·.lastResponse)) := .gets fun h => h.resp rfl
  have keep : Twin env (Agree true true true true true) (setKeepUsingBase true) (setKeepUsingBase true) :=
    .modify fun h => ⟨h.hist, h.kind, h.serverName, h.port, h.batch, h.timeout, h.credential, h.acceptSelfSigned, rfl, rfl, h.isConnected, h.sock, h.log,
      h.bio, h.resp, h.opts⟩
  unfold establishOpportunistic
  refine .bind (.twin resp) fun x => ?_
  cases isStartTLSSupported x with
  | error u => exact .stop _ Agree.atEnd
  | ok v =>
    cases v with
    | false => exact .done (by twins [agree_addLog, keep])
    | true =>
      dsimp only
      refine .bind (.twin (agree_addLog _ _)) fun _ => .bind (.twin ?_) fun code => .ite (fun _ => .code fun _ => rfl) fun _ => ?_
      · unfold upgradeToSecureConnection
        exact .bind (agree_addLog _ _) fun _ => tw_sendRawFb rfl _ _
      · refine .bind agree_startTLS fun code => .ite (fun hc => .code fun h => by rcases h with h | h <;> simp_all) fun hc => ?_
        have hc := Decidable.not_not.mp hc
        subst hc
        exact agree_secureIdentify

theorem agree_greeted {rest : M Int} (h : Pair env AtEnd (Agree true true true true true) (Usable b) rest rest) :
    Pair env AtEnd (Agree true true true false false) (Usable b) (establishGreeted rest) (establishGreeted rest) := by
  unfold establishGreeted sendServerIdentification
  refine .bind (.twin agree_greetings) fun code => .ite (fun _ => .code fun _ => rfl) fun _ => ?_
  refine .bind (agree_identify (by decide) (by decide)) fun code => .ite (fun _ => .code fun _ => rfl) fun hc => ?_
  have hc := Decidable.not_not.mp hc
  subst hc
  exact .mono h (fun h => h.weaken id id id (by simp) (by simp)) id

/-- Same BIO, or a class that makes a new one before it uses it. -/
theorem agree_establish : Pair env AtEnd (fun s t => Agree false false b false false s t ∧ (b = true ∨ s.client.kind = .forced)) (Usable b) establish establish := by
  unfold establish
  refine .bind (Q := fun _ s t => Agree true true b false false s t ∧ (b = true ∨ s.client.kind = .forced)) ⟨fun s t h => ?_⟩ fun code => ?_
  · obtain ⟨h1, h2, h3⟩ := agree_initializeSession.run s t h.1
    refine ⟨h1, fun a ha => ⟨h2 a ha, ?_⟩, h3⟩
    rcases h.2 with h | h
    · exact .inl h
    · exact .inr (((haveI := kind_anything; initializeSession_steps (env := env) (R := fun s s' : St => s'.client.kind = s.client.kind)).state s).trans h)
  · refine .ite (fun hc => ?_) fun _ => ?_
    · exact .mono (.code (b := b) (b' := b) fun h => by rcases h with h | h <;> simp_all) And.left id
    · refine ⟨fun s t h => ?_⟩
      rw [bind_run, bind_run, gets_run, gets_run]
      dsimp only
      rw [← h.1.kind]
      cases hk : s.client.kind with
      | forced => exact agree_forced.run s t h.1
      | smtp =>
        have hb : b = true := by rcases h.2 with h | h; exact h; simp [hk] at h
        subst hb
        exact (agree_greeted (.done agree_authenticate)).run s t h.1
      | opportunistic =>
        have hb : b = true := by rcases h.2 with h | h; exact h; simp [hk] at h
        subst hb
        exact (agree_greeted agree_opportunistic).run s t h.1

end

/-- Between two calls: socket and BIO agree while connected. -/
structure AsOne (b : Bool) (s t : St) : Prop where
  agree : Agree s.client.isConnected s.client.isConnected (b || s.client.isConnected) false false s t
  kind : b = true ∨ s.client.kind = .forced

theorem establish_kind (s : St) : (establish env s).2.client.kind = s.client.kind :=
  (haveI := kind_anything; establish_steps (R := fun s s' : St => s'.client.kind = s.client.kind)).state s

theorem sendMailConnected_kind (m : Message) (s : St) : (sendMailConnected m env s).2.client.kind = s.client.kind :=
  (haveI := kind_anything; sendMailConnected_steps (R := fun s s' : St => s'.client.kind = s.client.kind) m).state s

theorem asOne_rest (m : Message) {b : Bool} : Pair env AtEnd (fun s t => Agree true true true false false s t ∧ (b = true ∨ s.client.kind = .forced)) (fun _ s t => AsOne b s t ∧ AtEnd s t)
    (sendMailConnected m) (sendMailConnected m) := by
  refine ⟨fun s t h => ?_⟩
  obtain ⟨h1, h2⟩ := (tw_sendMailConnected (env := env) (R := Agree true true true false false) m).run s t h.1
  refine ⟨h1, fun a _ => ⟨⟨h2.weaken (fun _ => rfl) (fun _ => rfl) (fun _ => rfl) id id, ?_⟩, h2.atEnd⟩, h2.atEnd⟩
  rw [sendMailConnected_kind]
  exact h.2

/-- A mail on a client that is not connected: the same result, and the same log. -/
theorem asOne_mail_off {b : Bool} (m : Message) : Pair env AtEnd (fun s t => AsOne b s t ∧ s.client.isConnected = false) (fun _ s t => AsOne b s t ∧ AtEnd s t)
    (do let code ← establish
        if code ≠ 0 then pure code else sendMailConnected m)
    (do let code ← establish
        if code ≠ 0 then pure code else sendMailConnected m) := by
  refine .bind (Q := fun code s t => (Usable b code s t ∧ (b = true ∨ s.client.kind = .forced)) ∧ s.client.isConnected = false) ⟨fun s t h => ?_⟩ fun code => ?_
  · obtain ⟨⟨hl, hk⟩, hc⟩ := h
    rw [hc, Bool.or_false] at hl
    obtain ⟨h1, h2, h3⟩ := agree_establish.run s t ⟨hl, hk⟩
    refine ⟨h1, fun a ha => ⟨⟨h2 a ha, ?_⟩, ?_⟩, h3⟩
    · rw [establish_kind]; exact hk
    · exact (establish_steps (env := env) (R := StaysOff)).state s hc
  · refine .ite (fun hc => ?_) fun hc => ?_
    · refine .pure _ (fun h => ⟨⟨?_, h.1.2⟩, h.1.1.atEnd⟩) fun h => h.1.1.atEnd
      rw [h.2]
      exact h.1.1.weaken (by simp) (by simp) (by simp +contextual) id id
    · have hc := Decidable.not_not.mp hc
      subst hc
      exact .mono (asOne_rest m) (fun h => ⟨h.1.1.weaken id id (by simp) id id, h.1.2⟩) id

theorem asOne_sendMail {b : Bool} (m : Message) : Pair env (fun s t => s.hist = t.hist) (AsOne b) (fun _ s t => AsOne b s t ∧ AtEnd s t) (sendMail m) (sendMail m) := by
  refine ⟨fun s t h => ?_⟩
  unfold sendMail
  rw [bind_run, bind_run, gets_run, gets_run]
  dsimp only
  rw [← h.agree.isConnected]
  cases hc : s.client.isConnected with
  | true =>
    have ha := h.agree
    rw [hc, Bool.or_true] at ha
    obtain ⟨h1, h2, h3⟩ := (asOne_rest (env := env) m).run s t ⟨ha, h.kind⟩
    exact ⟨h1, h2, h3.hist⟩
  | false =>
    obtain ⟨h1, h2, h3⟩ := (asOne_mail_off (env := env) m).run s t ⟨h, hc⟩
    exact ⟨h1, h2, h3.hist⟩

theorem asOne_doCall {b : Bool} (c : Call) : Pair env (fun s t => s.hist = t.hist) (AsOne b) (fun _ => AsOne b) (doCall c) (doCall c) := by
  unfold doCall
  have emit : Pair env (fun s t => s.hist = t.hist) (AsOne b) (fun _ => AsOne b) (M.emit (.call c)) (M.emit (.call c)) := by
    refine ⟨fun s t h => ?_⟩
    have := ((agree_emit (env := env) (.call c)).run s t h.agree).2
    exact ⟨rfl, fun _ _ => ⟨this, h.kind⟩, this.hist⟩
  refine .bind emit fun _ => ?_
  have set : ∀ {f : Client → Client} {x : CallRes}, (∀ {s t : St}, AsOne b s t → AsOne b { s with client := f s.client } { t with client := f t.client }) →
      Pair env (fun s t => s.hist = t.hist) (AsOne b) (fun _ => AsOne b) (do M.modify f; pure x) (do M.modify f; pure x) := by
    intro f x hf
    exact ⟨fun s t h => ⟨rfl, fun _ _ => hf h, (hf h).agree.hist⟩⟩
  cases c with
  | setServerName p =>
    dsimp only
    unfold setServerName
    cases checkName p with
    | error e =>
      cases e with
      | invalidArgument => exact .pure _ id fun h => h.agree.hist
      | ub u => exact .stop _ fun h => h.agree.hist
    | ok name =>
      refine set fun h => ⟨?_, h.kind⟩
      obtain ⟨h, _⟩ := h
      exact ⟨h.hist, h.kind, rfl, h.port, h.batch, h.timeout, h.credential, h.acceptSelfSigned, h.keep, h.ptrRaw, h.isConnected, h.sock, h.log, h.bio, h.resp, h.opts⟩
  | setServerPort n =>
    refine set fun h => ⟨?_, h.kind⟩
    obtain ⟨h, _⟩ := h
    exact ⟨h.hist, h.kind, h.serverName, rfl, h.batch, h.timeout, h.credential, h.acceptSelfSigned, h.keep, h.ptrRaw, h.isConnected, h.sock, h.log, h.bio, h.resp, h.opts⟩
  | setBatchMode n =>
    refine set fun h => ⟨?_, h.kind⟩
    obtain ⟨h, _⟩ := h
    exact ⟨h.hist, h.kind, h.serverName, h.port, rfl, h.timeout, h.credential, h.acceptSelfSigned, h.keep, h.ptrRaw, h.isConnected, h.sock, h.log, h.bio, h.resp, h.opts⟩
  | setCommandTimeout n =>
    refine set fun h => ⟨?_, h.kind⟩
    obtain ⟨h, _⟩ := h
    exact ⟨h.hist, h.kind, h.serverName, h.port, h.batch, rfl, h.credential, h.acceptSelfSigned, h.keep, h.ptrRaw, h.isConnected, h.sock, h.log, h.bio, h.resp, h.opts⟩
  | setCredentials n =>
    refine set fun h => ⟨?_, h.kind⟩
    obtain ⟨h, _⟩ := h
    exact ⟨h.hist, h.kind, h.serverName, h.port, h.batch, h.timeout, rfl, h.acceptSelfSigned, h.keep, h.ptrRaw, h.isConnected, h.sock, h.log, h.bio, h.resp, h.opts⟩
  | setKeepUsingBaseSendCommands n =>
    refine set fun h => ⟨?_, h.kind⟩
    obtain ⟨h, _⟩ := h
    exact ⟨h.hist, h.kind, h.serverName, h.port, h.batch, h.timeout, h.credential, h.acceptSelfSigned, rfl, rfl, h.isConnected, h.sock, h.log, h.bio, h.resp, h.opts⟩
  | setAcceptSelfSignedCert n =>
    refine set fun h => ⟨?_, h.kind⟩
    obtain ⟨h, _⟩ := h
    exact ⟨h.hist, h.kind, h.serverName, h.port, h.batch, h.timeout, h.credential, rfl, h.keep, h.ptrRaw, h.isConnected, h.sock, h.log, h.bio, h.resp, h.opts⟩
  | sendMail m =>
    refine .bind (Q := fun _ => AsOne b) (.mono (asOne_sendMail m) id And.left) fun code => .pure _ id fun h => h.agree.hist

theorem asOne_runCalls {b : Bool} (cs : List Call) :
    Pair env (fun s t => s.hist = t.hist) (AsOne b) (fun _ => AsOne b) (runCalls cs) (runCalls cs) := by
  induction cs with
  | nil => unfold runCalls; exact .pure _ id fun h => h.agree.hist
  | cons c cs ih =>
    unfold runCalls
    exact .bind (asOne_doCall c) fun r => .bind ih fun rs => .pure _ id fun h => h.agree.hist

end Verif.Proofs
