import Verif.Proofs.Twin
import Verif.Proofs.Envelope
import Verif.Spec.Incognito
import Verif.Props.Auth
/-!
# C89: two runs with different credentials in any world
-/
namespace Verif.Proofs
open Verif Verif.Model Verif.Spec

variable {α β : Type} {env : Env}

/-- The same state but for user name and password. -/
structure Apart (s t : St) : Prop where
  client : s.client = { t.client with credential := s.client.credential }
  method : s.client.credential.map (·.method) = t.client.credential.map (·.method)
  hist : s.hist = t.hist

theorem Apart.modify {s t : St} (h : Apart s t) {f : Client → Client} (hf : ∀ c cr, f { c with credential := cr } = { f c with credential := cr })
    (hc : ∀ c, (f c).credential = c.credential) : Apart { s with client := f s.client } { t with client := f t.client } := by
  refine ⟨?_, ?_, h.hist⟩
  · show f s.client = { f t.client with credential := (f s.client).credential }
    rw [hc s.client, ← hf, ← h.client]
  · show (f s.client).credential.map _ = (f t.client).credential.map _
    rw [hc, hc]
    exact h.method

theorem Apart.remem {s t : St} (h : Apart s t) (l l' : List SessionOp) : Apart { s with mem := l } { t with mem := l' } := ⟨h.client, h.method, h.hist⟩

theorem apart_modify {f : Client → Client} (hf : ∀ c cr, f { c with credential := cr } = { f c with credential := cr })
    (hc : ∀ c, (f c).credential = c.credential) : Twin env Apart (M.modify f) (M.modify f) := .modify fun h => h.modify hf hc

theorem apart_modifyMem {op : SessionOp} {f : Client → Client} (hf : ∀ c cr, f { c with credential := cr } = { f c with credential := cr })
    (hc : ∀ c, (f c).credential = c.credential) : Twin env Apart (M.modifyMem op f) (M.modifyMem op f) := .modifyMem fun h => (h.modify hf hc).remem _ _

theorem Apart.get {s t : St} (h : Apart s t) {f : Client → α} (hf : ∀ c cr, f { c with credential := cr } = f c) : f s.client = f t.client := by
  rw [h.client, hf]

theorem Apart.emit {s t : St} (h : Apart s t) (e : Ev) : Apart { s with hist := s.hist ++ [e] } { t with hist := t.hist ++ [e] } :=
  ⟨h.client, h.method, by show s.hist ++ [e] = t.hist ++ [e]; rw [h.hist]⟩

theorem apart_ask {f : Env → Hist → α} {ev : α → Ev} : Twin env Apart (M.ask f ev) (M.ask f ev) := by
  constructor
  intro s t hst
  refine ⟨congrArg (fun h => Res.ok (f env h)) hst.hist, ?_⟩
  show Apart { s with hist := s.hist ++ [ev (f env s.hist)] } { t with hist := t.hist ++ [ev (f env t.hist)] }
  rw [hst.hist]
  have := hst.emit (ev (f env t.hist))
  rw [hst.hist] at this
  exact this

theorem apart_emit (e : Ev) : Twin env Apart (M.emit e) (M.emit e) := ⟨fun _ _ h => ⟨rfl, h.emit e⟩⟩

theorem apart_sysSend (k c d) : Twin env Apart (sysSend k c d) (sysSend k c d) := by
  unfold sysSend
  twins [apart_ask]

instance apart_alike : Alike env (fun _ d d' => d = d') Apart where
  refl := fun _ _ => rfl
  kind := fun h => h.get fun _ _ => rfl
  sock := fun h => h.get fun _ _ => rfl
  ptrRaw := fun h => h.get fun _ _ => rfl
  bio := fun h => h.get fun _ _ => rfl
  batch := fun h => h.get fun _ _ => rfl
  isConnected := fun h => h.get fun _ _ => rfl
  timeout := fun h => h.get fun _ _ => rfl
  setConnected := fun b _ _ h => h.modify (f := ({ · with isConnected := b })) (fun _ _ => rfl) (fun _ => rfl)
  setCtx := fun b _ _ h => h.modify (f := ({ · with ctx := b })) (fun _ _ => rfl) (fun _ => rfl)
  setBio := fun b _ _ h => h.modify (f := ({ · with bio := b })) (fun _ _ => rfl) (fun _ => rfl)
  setSock := fun b _ _ h => h.modify (f := ({ · with sock := b })) (fun _ _ => rfl) (fun _ => rfl)
  setErr := fun b _ _ h => h.modify (f := ({ · with lastErrNo := b })) (fun _ _ => rfl) (fun _ => rfl)
  setResp := fun b _ _ h => (h.modify (f := ({ · with lastResponse := some b })) (fun _ _ => rfl) (fun _ => rfl)).remem _ _
  addLog := by
    intro i p
    unfold addLog
    refine .bind (.gets fun h => h.get fun _ _ => rfl) fun l => ?_
    cases l with
    | none => exact .stop _
    | some l =>
      dsimp only
      cases l.add i p with
      | error u => exact .stop _
      | ok l' => exact apart_modifyMem (fun _ _ => rfl) (fun _ => rfl)
  send := by
    intro k c d d' hd β f f' hf hs
    subst hd
    constructor
    intro s t hst
    have key := (apart_sysSend (env := env) k c d).run s t hst
    show (M.bind _ f env s).1 = (M.bind _ f' env t).1 ∧ Apart (M.bind _ f env s).2 (M.bind _ f' env t).2
    unfold M.bind
    revert key
    have nn : ∀ s', sysSend k c d env s ≠ (.ok .never, s') := by
      intro s' h
      unfold sysSend at h
      rw [bind_run] at h
      unfold M.ask at h
      dsimp only at h
      split at h
      · cases h
      · rename_i hne
        exact hne (congrArg (fun x => match x with | (Res.ok a, _) => a | _ => SendRes.fail 0) h)
    rcases e1 : sysSend k c d env s with ⟨r, s1⟩
    rcases sysSend k c d env t with ⟨r', t1⟩
    rintro ⟨h1, h2⟩
    simp only at h1 h2
    subst h1
    cases r with
    | stop x => exact ⟨rfl, h2⟩
    | ok r =>
      cases r with
      | fail x => exact (hf x).run _ _ h2
      | sent n => exact (hs n n).run _ _ h2
      | never => exact absurd e1 (nn s1)
  recv := by
    intro c
    unfold sysRecv
    twins [apart_ask]
  fcntlGet := fun fd => apart_ask
  fcntlSet := fun fd b => apart_ask
  sleep := apart_emit _
  close := fun _ => apart_emit _
  bioFree := fun _ => apart_emit _
  tlsErr := ⟨fun _ _ h => ⟨congrArg (fun x => Res.ok (env.tlsErr x)) h.hist, h⟩⟩
  readFile := fun n => apart_ask

/-! ### The parts that open a connection -/

theorem apart_connectPOSIX (ip : Bytes) : Twin env Apart (connectPOSIX ip) (connectPOSIX ip) := by
  have port : Twin env Apart (M.gets (·.port)) (M.gets (·.port)) := .gets fun h => h.get fun _ _ => rfl
  have c1 : ∀ fd p, Twin env Apart (sysConnect fd p) (sysConnect fd p) := fun fd p => apart_ask
  have c2 : ∀ fd p, Twin env Apart (sysSelect fd p) (sysSelect fd p) := fun fd p => apart_ask
  have c3 : ∀ fd, Twin env Apart (sysSockopt fd) (sysSockopt fd) := fun fd => apart_ask
  unfold connectPOSIX
  twins [tw_sock, port, c1, c2, c3, tw_setBlocking, tw_logErrno, tw_timeout]

theorem apart_initializeSession : Twin env Apart initializeSession initializeSession := by
  have hA := apart_alike (env := env)
  have port : Twin env Apart (M.gets (·.port)) (M.gets (·.port)) := .gets fun h => h.get fun _ _ => rfl
  have name : Twin env Apart (M.gets (·.serverName)) (M.gets (·.serverName)) := .gets fun h => h.get fun _ _ => rfl
  have log : Twin env Apart (M.modifyMem .freshLog ({ · with log := some .fresh })) (M.modifyMem .freshLog ({ · with log := some .fresh })) :=
    apart_modifyMem (fun _ _ => rfl) (fun _ => rfl)
  have c1 : Twin env Apart sysSocket sysSocket := apart_ask
  have c2 : ∀ n, Twin env Apart (sysResolve n) (sysResolve n) := fun n => apart_ask
  unfold initializeSession initializePOSIX
  twins [tw_setSock, port, name, log, c1, c2, tw_setNonBlocking, tw_logErrno, hA.addLog, apart_connectPOSIX]

theorem apart_greetings : Twin env Apart checkServerGreetings checkServerGreetings := by
  have hA := apart_alike (env := env)
  unfold checkServerGreetings greetingResult
  twins [tw_kind, tw_sock, tw_timeout, tw_waitLoop, tw_bioRead, hA.recv, hA.addLog]

theorem apart_identify (e t) : Twin env Apart (identify e t) (identify e t) := by
  have hA := apart_alike (env := env)
  have resp : Twin env Apart lastResponseText lastResponseText := by
    unfold lastResponseText
    have : Twin env Apart (M.gets (·.lastResponse)) (M.gets (·.lastResponse)) := .gets fun h => h.get fun _ _ => rfl
    twins [this]
  have loop : ∀ n o, Twin env Apart (ehloLoop t n o) (ehloLoop t n o) := by
    intro n
    induction n with
    | zero => intro o; unfold ehloLoop; exact .stop _
    | succ n ih => intro o; unfold ehloLoop; twins [tw_getServerReply, resp, ih]
  have opts : ∀ o, Twin env Apart (setAuthOptions o) (setAuthOptions o) :=
    fun o => apart_modifyMem (fun _ _ => rfl) (fun _ => rfl)
  have cmd := tw_sendFb (env := env) (R := Apart) (d := ehloCmd) (d' := ehloCmd) rfl e t
  unfold identify
  twins [hA.addLog, resp, loop, opts]

theorem apart_startTLS : Twin env Apart startTLSNegotiation startTLSNegotiation := by
  have hA := apart_alike (env := env)
  have name : Twin env Apart (M.gets (·.serverName)) (M.gets (·.serverName)) := .gets fun h => h.get fun _ _ => rfl
  have port : Twin env Apart (M.gets (·.port)) (M.gets (·.port)) := .gets fun h => h.get fun _ _ => rfl
  have self : Twin env Apart (M.gets (·.acceptSelfSigned)) (M.gets (·.acceptSelfSigned)) := .gets fun h => h.get fun _ _ => rfl
  have len : Twin env Apart M.histLength M.histLength := ⟨fun s t h => ⟨congrArg (fun x : Hist => Res.ok x.length) h.hist, h⟩⟩
  have tls : ∀ op, Twin env Apart (sysTls op) (sysTls op) := fun op => apart_ask
  unfold startTLSNegotiation
  twins [hA.addLog, name, port, self, len, tls, tw_ctx, tw_setBio, tw_setErrNo, hA.tlsErr, tw_sock, tw_cleanup]

/-! ### Runs that part -/

variable {h0 : Hist} {D : Hist → Bytes → Prop} {s t : St}

/-- The two histories are the same up to a command in which they differ; the two commands are given on the same channel. -/
def Split (h0 : Hist) (D : Hist → Bytes → Prop) (h h' : Hist) : Prop :=
  ∃ shared c d d' r r' rest rest', h = h0 ++ shared ++ .send .cmd c d r :: rest ∧ h' = h0 ++ shared ++ .send .cmd c d' r' :: rest' ∧ D shared d ∧ D shared d'

theorem Split.grow {x y : Hist} {h h' : Hist} (hs : Split h0 D h h') : Split h0 D (h ++ x) (h' ++ y) := by
  obtain ⟨shared, c, d, d', r, r', rest, rest', rfl, rfl, h3⟩ := hs
  exact ⟨shared, c, d, d', r, r', rest ++ x, rest' ++ y, by simp, by simp, h3⟩

/-- Both programs do part. -/
def SplitAt (env : Env) (h0 : Hist) (D : Hist → Bytes → Prop) (m m' : M α) (s t : St) : Prop := Split h0 D (m env s).2.hist (m' env t).2.hist

theorem grow_bind {b : M β} {k : β → M α} (s : St) (hk : ∀ x, Steps env Ext (k x)) : Ext (b env s).2 ((b >>= k) env s).2 := by
  show Ext _ (M.bind b k env s).2
  unfold M.bind
  cases b env s with
  | mk r t =>
    cases r with
    | ok x => exact ext_run (hk x) t
    | stop e => exact .same rfl

theorem SplitAt.bind {a a' : M β} {f g : β → M α} (h : SplitAt env h0 D a a' s t) (hf : ∀ x, Steps env Ext (f x)) (hg : ∀ x, Steps env Ext (g x)) :
    SplitAt env h0 D (a >>= f) (a' >>= g) s t := by
  obtain ⟨x, hx⟩ := grow_bind (b := a) s hf
  obtain ⟨y, hy⟩ := grow_bind (b := a') t hg
  unfold SplitAt
  rw [hx, hy]
  exact Split.grow h

/-- Both programs do the same, or they part. -/
def PartsAt (env : Env) (h0 : Hist) (D : Hist → Bytes → Prop) (m m' : M α) (s t : St) : Prop :=
  ((m env s).1 = (m' env t).1 ∧ Apart (m env s).2 (m' env t).2) ∨ Split h0 D (m env s).2.hist (m' env t).2.hist

theorem PartsAt.bind {a a' : M β} {f g : β → M α} (h : PartsAt env h0 D a a' s t)
    (hp : wp env a (fun x s1 => ∀ t1, Apart s1 t1 → PartsAt env h0 D (f x) (g x) s1 t1) (fun _ _ => True) s)
    (hf : ∀ x, Steps env Ext (f x)) (hg : ∀ x, Steps env Ext (g x)) : PartsAt env h0 D (a >>= f) (a' >>= g) s t := by
  show PartsAt env h0 D (M.bind a f) (M.bind a' g) s t
  rcases h with ⟨h1, h2⟩ | h
  · unfold PartsAt M.bind
    unfold wp at hp
    revert h1 h2 hp
    rcases a env s with ⟨r, s1⟩
    rcases a' env t with ⟨r', t1⟩
    intro hp h1 h2
    obtain rfl : r = r' := h1
    cases r with
    | ok x => exact hp t1 h2
    | stop e => exact .inl ⟨rfl, h2⟩
  · exact .inr (SplitAt.bind h hf hg)

/-- The same from all states that have come out of `h0`. -/
structure Parts (env : Env) (h0 : Hist) (D : Hist → Bytes → Prop) (m m' : M α) : Prop where
  run : ∀ s t, Apart s t → (∃ x, s.hist = h0 ++ x) → PartsAt env h0 D m m' s t
  ext : Steps env Ext m
  ext' : Steps env Ext m'

theorem Parts.of_twin {m m' : M α} (h : Twin env Apart m m') (e : Steps env Ext m) (e' : Steps env Ext m') : Parts env h0 D m m' :=
  ⟨fun s t hst _ => .inl (h.run s t hst), e, e'⟩

theorem Parts.pure (a : α) : Parts env h0 D (Pure.pure a) (Pure.pure a) := .of_twin (.pure a) (.pure a) (.pure a)
theorem Parts.stop (x : Stop) : Parts (α := α) env h0 D (M.stop x) (M.stop x) := .of_twin (.stop x) (.stop x) (.stop x)

theorem Parts.bind {a a' : M β} {f g : β → M α} (h : Parts env h0 D a a') (hf : ∀ x, Parts env h0 D (f x) (g x)) : Parts env h0 D (a >>= f) (a' >>= g) := by
  refine ⟨fun s t hst hx => ?_, .bind h.ext fun x => (hf x).ext, .bind h.ext' fun x => (hf x).ext'⟩
  refine PartsAt.bind (h.run s t hst hx) ?_ (fun x => (hf x).ext) (fun x => (hf x).ext')
  refine wp_mono (h.ext.run s) (fun x s1 h1 t1 hst1 => (hf x).run s1 t1 hst1 ?_) fun _ _ _ => trivial
  obtain ⟨x, hx⟩ := hx
  obtain ⟨y, hy⟩ := h1
  exact ⟨x ++ y, by rw [hy, hx, List.append_assoc]⟩

theorem Parts.ite {c : Prop} [Decidable c] {m m' n n' : M α} (h : Parts env h0 D m m') (h' : Parts env h0 D n n') :
    Parts env h0 D (if c then m else n) (if c then m' else n') := by
  split
  · exact h
  · exact h'

/-! ### The login -/

theorem splitAt_gets {f : Client → β} {k k' : β → M α} (h : SplitAt env h0 D (k (f s.client)) (k' (f t.client)) s t) :
    SplitAt env h0 D (M.gets f >>= k) (M.gets f >>= k') s t := h

theorem sysSend_event (k c d) (s : St) : ∃ r, (sysSend k c d env s).2.hist = s.hist ++ [.send k c d r] := by
  unfold sysSend
  rw [bind_run]
  unfold M.ask
  dsimp only
  split
  · exact ⟨_, rfl⟩
  · exact ⟨_, rfl⟩

theorem splitAt_send {c : Chan} {d d' : Bytes} {f f' : SendRes → M α} {shared : Hist} (hst : Apart s t) (hs : s.hist = h0 ++ shared) (hd : D shared d) (hd' : D shared d')
    (hf : ∀ x, Steps env Ext (f x)) (hg : ∀ x, Steps env Ext (f' x)) : SplitAt env h0 D (sysSend .cmd c d >>= f) (sysSend .cmd c d' >>= f') s t := by
  have one : ∀ (d : Bytes) (f : SendRes → M α) (s : St), s.hist = h0 ++ shared → (∀ x, Steps env Ext (f x)) →
      ∃ r rest, ((sysSend .cmd c d >>= f) env s).2.hist = h0 ++ shared ++ .send .cmd c d r :: rest := by
    intro d f s hs hf
    obtain ⟨r, hr⟩ := sysSend_event (env := env) .cmd c d s
    obtain ⟨x, hx⟩ := grow_bind (b := sysSend .cmd c d) (k := f) s hf
    exact ⟨r, x, by rw [hx, hr, hs]; simp⟩
  obtain ⟨r, rest, h1⟩ := one d f s hs hf
  obtain ⟨r', rest', h2⟩ := one d' f' t (by rw [← hst.hist, hs]) hg
  exact ⟨shared, c, d, d', r, r', rest, rest', h1, h2, hd, hd'⟩

theorem splitAt_sendRawFb {d d' : Bytes} {shared : Hist} (hst : Apart s t) (hs : s.hist = h0 ++ shared) (hd : D shared (cstr d)) (hd' : D shared (cstr d')) (e x) :
    SplitAt env h0 D (sendRawFb d e x) (sendRawFb d' e x) s t := by
  unfold sendRawFb sendRaw sendRawWith
  rw [M_bind_assoc, M_bind_assoc]
  refine splitAt_gets ?_
  rw [hst.get (f := (·.sock)) fun _ _ => rfl, M_bind_assoc, M_bind_assoc]
  refine splitAt_send hst hs hd hd' (fun y => ?_) (fun y => ?_)
  all_goals steps [setErrNo_steps, cleanup_steps, getRawReply_steps]

theorem splitAt_sendTlsFb {d d' : Bytes} {shared : Hist} (hst : Apart s t) (hs : s.hist = h0 ++ shared) (hd : D shared (cstr d)) (hd' : D shared (cstr d')) (e x)
    (hb : s.client.bio.isNone = false) : SplitAt env h0 D (sendTlsFb d e x) (sendTlsFb d' e x) s t := by
  unfold sendTlsFb sendBioWith
  rw [M_bind_assoc, M_bind_assoc]
  refine splitAt_gets ?_
  rw [← hst.get (f := (·.bio)) fun _ _ => rfl]
  cases hc : s.client.bio with
  | none => rw [hc] at hb; cases hb
  | some b =>
    dsimp only
    rw [M_bind_assoc, M_bind_assoc]
    refine splitAt_send hst hs hd hd' (fun y => ?_) (fun y => ?_)
    all_goals steps [setErrNo_steps, cleanup_steps, getTlsReply_steps]

theorem splitAt_sendPtrFb {d d' : Bytes} {shared : Hist} (hst : Apart s t) (hs : s.hist = h0 ++ shared) (hd : D shared (cstr d)) (hd' : D shared (cstr d')) (e x) :
    SplitAt env h0 D (sendPtrFb d e x) (sendPtrFb d' e x) s t := by
  unfold sendPtrFb sendFb
  refine splitAt_gets ?_
  rw [← hst.get (f := (·.ptrRaw)) fun _ _ => rfl]
  split
  · exact splitAt_sendRawFb hst hs hd hd' e x
  · refine splitAt_gets (splitAt_gets ?_)
    rw [← hst.get (f := (·.kind)) fun _ _ => rfl, ← hst.get (f := (·.bio)) fun _ _ => rfl]
    split
    · exact splitAt_sendRawFb hst hs hd hd' e x
    · rename_i h
      refine splitAt_sendTlsFb hst hs hd hd' e x ?_
      cases hb : s.client.bio.isNone
      · rfl
      · simp [hb] at h

theorem parts_sendPtrFb {d d' : Bytes} (hd : ∀ x, D x (cstr d)) (hd' : ∀ x, D x (cstr d')) (e x) : Parts env h0 D (sendPtrFb d e x) (sendPtrFb d' e x) :=
  ⟨fun _ _ hst ⟨y, hy⟩ => .inr (splitAt_sendPtrFb hst hy (hd y) (hd' y) e x), sendPtrFb_steps' _ _ _, sendPtrFb_steps' _ _ _⟩

theorem parts_addLog (i p) : Parts env h0 D (addLog i p) (addLog i p) := .of_twin ((apart_alike (env := env)).addLog i p) (addLog_steps _ _) (addLog_steps _ _)

theorem login_no_nul (c : Credential) :
    cstr (authPlain c) = authPlain c ∧ (∀ s, cstr (authLoginLine s) = authLoginLine s) ∧ cstr (authXOAuth2 c) = authXOAuth2 c :=
  ⟨(Props.C42_commands_without_nul c []).1, fun s => (Props.C42_commands_without_nul c s).2.1, (Props.C42_commands_without_nul c []).2.2⟩

theorem parts_authLogin (c c' : Credential) : Parts env h0 LoginLine (authLoginM c) (authLoginM c') := by
  unfold authLoginM
  refine (parts_addLog _ _).bind fun _ => ?_
  have ext : ∀ c : Credential, ∀ code : Int, Steps env Ext (if code ≠ 334 then pure (-81) else do
      if (← sendPtrFb (authLoginLine c.username) (-81) (-82)) ≠ 334 then pure (-81)
      else sendPtrFb (authLoginLine c.password) (-81) (-82) : M Int) := by
    intro c code
    steps [sendPtrFb_steps']
  refine ⟨fun s t hst hx => ?_, .bind (sendPtrFb_steps' _ _ _) fun x => ext c x, .bind (sendPtrFb_steps' _ _ _) fun x => ext c' x⟩
  refine PartsAt.bind (.inl ((tw_cmd _ _ _).run s t hst)) ?_ (ext c) (ext c')
  refine wp_mono (sendPtrFb_out _ (-81) (-82) s (by decide)) (fun code s2 h2 t2 hst2 => ?_) fun _ _ _ => trivial
  by_cases hc : code = 334
  · subst hc
    rw [if_neg (by decide), if_neg (by decide)]
    rcases h2 with h2 | ⟨h2 | h2, -⟩
    · obtain ⟨x, hx⟩ := hx
      obtain ⟨shared, h3, h4⟩ := endsAnswered_of (s0 := { s with hist := h0 }) ⟨x, hx⟩ h2
      refine .inr (SplitAt.bind (splitAt_sendPtrFb hst2 h3 (.inr (.inr h4)) (.inr (.inr h4)) _ _) ?_ ?_)
      · intro x; steps [sendPtrFb_steps']
      · intro x; steps [sendPtrFb_steps']
    · cases h2
    · cases h2
  · rw [if_pos hc, if_pos hc]
    exact .inl ⟨rfl, hst2⟩

theorem login_prefix (c : Credential) : b!"AUTH PLAIN " <+: cstr (authPlain c) ∧ b!"AUTH XOAUTH2 " <+: cstr (authXOAuth2 c) := by
  rw [(login_no_nul c).1, (login_no_nul c).2.2]
  unfold authPlain authXOAuth2
  exact ⟨⟨_, by rw [List.append_assoc]⟩, ⟨_, by rw [List.append_assoc]⟩⟩

theorem parts_authPlain (c c' : Credential) : Parts env h0 LoginLine (authPlainM c) (authPlainM c') :=
  (parts_addLog _ _).bind fun _ => parts_sendPtrFb (fun _ => .inl (login_prefix c).1) (fun _ => .inl (login_prefix c').1) _ _

theorem parts_authXOAuth2 (c c' : Credential) : Parts env h0 LoginLine (authXOAuth2M c) (authXOAuth2M c') :=
  (parts_addLog _ _).bind fun _ => parts_sendPtrFb (fun _ => .inr (.inl (login_prefix c).2)) (fun _ => .inr (.inl (login_prefix c').2)) _ _

theorem parts_authenticateClient : Parts env h0 LoginLine authenticateClient authenticateClient := by
  have ext : Steps env Ext authenticateClient := by
    unfold authenticateClient authPlainM authLoginM authXOAuth2M
    steps [addLog_steps, sendPtrFb_steps']
  refine ⟨fun s t hst hx => ?_, ext, ext⟩
  unfold authenticateClient
  show PartsAt _ _ _ (match s.client.credential with | none => _ | some c => _) (match t.client.credential with | none => _ | some c => _) s t
  have hm := hst.method
  cases hc : s.client.credential with
  | none =>
    cases hc' : t.client.credential with
    | none => exact .inl ⟨rfl, hst⟩
    | some c' => rw [hc, hc'] at hm; cases hm
  | some c =>
    cases hc' : t.client.credential with
    | none => rw [hc, hc'] at hm; cases hm
    | some c' =>
      rw [hc, hc'] at hm
      replace hm : c.method = c'.method := by injection hm
      dsimp only
      show PartsAt _ _ _ (match s.client.authOptions with | none => _ | some c => _) (match t.client.authOptions with | none => _ | some c => _) s t
      rw [← hst.get (f := (·.authOptions)) fun _ _ => rfl]
      cases s.client.authOptions with
      | none => exact .inl ⟨rfl, hst⟩
      | some o =>
        dsimp only
        rw [← hm]
        refine (Parts.ite (parts_authPlain c c') (Parts.ite (parts_authLogin c c') (Parts.ite (parts_authXOAuth2 c c') (.pure _)))).run s t hst hx

theorem parts_authenticateIfNeeded : Parts env h0 LoginLine authenticateIfNeeded authenticateIfNeeded := by
  refine ⟨fun s t hst hx => ?_, authenticateIfNeeded_steps, authenticateIfNeeded_steps⟩
  have hi : s.client.credential.isSome = t.client.credential.isSome := by
    have := congrArg Option.isSome hst.method
    simpa using this
  unfold authenticateIfNeeded
  show PartsAt _ _ _ (if s.client.credential.isSome then _ else _) (if t.client.credential.isSome then _ else _) s t
  rw [← hi]
  exact (Parts.ite (.bind parts_authenticateClient fun c => .ite (.pure _) (.pure _)) (.pure _)).run s t hst hx

theorem Parts.self {m : M α} (h : Twin env Apart m m) (e : Steps env Ext m) : Parts env h0 D m m := .of_twin h e e

theorem parts_secureIdentification : Parts env h0 D getServerSecureIdentification getServerSecureIdentification := by
  unfold getServerSecureIdentification
  exact (parts_addLog _ _).bind fun _ => .self (apart_identify _ _) (identify_steps' _ _)

theorem parts_opportunistic : Parts env h0 LoginLine establishOpportunistic establishOpportunistic := by
  have upgrade : Parts env h0 LoginLine upgradeToSecureConnection upgradeToSecureConnection := by
    unfold upgradeToSecureConnection
    refine (parts_addLog _ _).bind fun _ => .self (tw_sendRawFb (R := Apart) rfl _ _) (sendRawFb_steps (fun _ _ _ => ⟨_, rfl⟩) _ _)
  unfold establishOpportunistic
  refine .bind (.self (.gets fun h => h.get fun _ _ => rfl) (.gets _)) fun resp => ?_
  split
  · exact .stop _
  · refine (parts_addLog _ _).bind fun _ => upgrade.bind fun code => .ite (.pure _) ?_
    refine .bind (.self apart_startTLS startTLSNegotiation_steps) fun code => .ite (.pure _) ?_
    exact .bind parts_secureIdentification fun code => .ite (.pure _) parts_authenticateIfNeeded
  · refine (parts_addLog _ _).bind fun _ => .bind (.self ?_ ?_) fun _ => .pure _
    · exact apart_modify (fun _ _ => rfl) (fun _ => rfl)
    · exact .modify fun _ => .same rfl

theorem parts_forced : Parts env h0 LoginLine establishForced establishForced := by
  unfold establishForced
  refine .bind (.self apart_startTLS startTLSNegotiation_steps) fun code => .ite (.pure _) ?_
  refine .bind (.self apart_greetings checkServerGreetings_steps) fun code => .ite (.pure _) ?_
  exact .bind parts_secureIdentification fun code => .ite (.pure _) parts_authenticateIfNeeded

theorem parts_greeted {rest : M Int} (h : Parts env h0 D rest rest) : Parts env h0 D (establishGreeted rest) (establishGreeted rest) := by
  unfold establishGreeted
  refine .bind (.self apart_greetings checkServerGreetings_steps) fun code => .ite (.pure _) ?_
  refine .bind ?_ fun code => .ite (.pure _) h
  unfold sendServerIdentification
  exact .self (apart_identify _ _) (identify_steps' _ _)

theorem parts_establish : Parts env h0 LoginLine establish establish := by
  unfold establish
  refine .bind (.self apart_initializeSession initializeSession_steps) fun code => .ite (.pure _) ?_
  refine .bind (.self tw_kind (.gets _)) fun k => ?_
  cases k
  · exact parts_greeted parts_authenticateIfNeeded
  · exact parts_greeted parts_opportunistic
  · exact parts_forced

theorem parts_sendMail (m) : Parts env h0 LoginLine (sendMail m) (sendMail m) := by
  have rest : Parts env h0 LoginLine (sendMailConnected m) (sendMailConnected m) := .self (tw_sendMailConnected m) (sendMailConnected_steps m)
  unfold sendMail
  exact .bind (.self (.gets fun h => h.get fun _ _ => rfl) (.gets _)) fun b => .ite rest (.bind parts_establish fun code => .ite (.pure _) rest)

/-! ### The whole life of a client -/

theorem parts_doCall (c : Call) : Parts env h0 LoginLine (doCall c) (doCall c) := by
  unfold doCall
  refine .bind (.self (apart_emit _) (.emit fun _ => ⟨_, rfl⟩)) fun _ => ?_
  have set : ∀ f : Client → Client, (∀ c cr, f { c with credential := cr } = { f c with credential := cr }) → (∀ c, (f c).credential = c.credential) →
      ∀ r : CallRes, Parts env h0 LoginLine (do M.modify f; pure r) (do M.modify f; pure r) := fun f h1 h2 r =>
    .bind (.self (apart_modify h1 h2) (.modify fun _ => .same rfl)) fun _ => .pure _
  cases c with
  | setServerName p =>
    dsimp only
    unfold setServerName
    split
    · exact .pure _
    · exact .stop _
    · refine set _ ?_ ?_ _ <;> intros <;> rfl
  | setServerPort n => refine set _ ?_ ?_ _ <;> intros <;> rfl
  | setBatchMode b => refine set _ ?_ ?_ _ <;> intros <;> rfl
  | setCommandTimeout n => refine set _ ?_ ?_ _ <;> intros <;> rfl
  | setCredentials c =>
    refine .bind (.self (.modify fun {s t} h => ⟨?_, rfl, h.hist⟩) (.modify fun _ => .same rfl)) fun _ => .pure _
    show { s.client with credential := some c } = { t.client with credential := some c }
    rw [h.client]
  | setKeepUsingBaseSendCommands b => refine set _ ?_ ?_ _ <;> intros <;> rfl
  | setAcceptSelfSignedCert b => refine set _ ?_ ?_ _ <;> intros <;> rfl
  | sendMail m => exact (parts_sendMail m).bind fun _ => .pure _

theorem parts_runCalls (cs : List Call) : Parts env h0 LoginLine (runCalls cs) (runCalls cs) := by
  induction cs with
  | nil => exact .pure _
  | cons c cs ih => exact (parts_doCall c).bind fun _ => ih.bind fun _ => .pure _

theorem parts_life (cs : List Call) : Parts env h0 LoginLine (life cs) (life cs) := by
  unfold life destroy
  refine (parts_runCalls cs).bind fun _ => .bind ?_ fun _ => .pure _
  exact .bind (.self (apart_emit _) (.emit fun _ => ⟨_, rfl⟩)) fun _ => .self tw_cleanup cleanup_steps

end Verif.Proofs
