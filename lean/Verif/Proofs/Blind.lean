import Verif.Proofs.Twin
import Verif.Spec.Blind
import Verif.Props.Auth
/-!
# Two runs with different credentials
-/
namespace Verif.Proofs
open Verif Verif.Model Verif.Spec

variable {α : Type} {env : Env}

/-- The two clients are the same but for user name and password, and the two histories are the same but for those. -/
structure Hush (s t : St) : Prop where
  client : s.client = { t.client with credential := s.client.credential }
  method : s.client.credential.map (·.method) = t.client.credential.map (·.method)
  hist : s.hist.map blind = t.hist.map blind

theorem Hush.modify {s t : St} (h : Hush s t) {f : Client → Client} (hf : ∀ c cr, f { c with credential := cr } = { f c with credential := cr })
    (hc : ∀ c, (f c).credential = c.credential) : Hush { s with client := f s.client } { t with client := f t.client } := by
  refine ⟨?_, ?_, h.hist⟩
  · show f s.client = { f t.client with credential := (f s.client).credential }
    rw [hc s.client, ← hf, ← h.client]
  · show (f s.client).credential.map _ = (f t.client).credential.map _
    rw [hc, hc]
    exact h.method

theorem hush_modify {f : Client → Client} (hf : ∀ c cr, f { c with credential := cr } = { f c with credential := cr })
    (hc : ∀ c, (f c).credential = c.credential) : Twin env Hush (M.modify f) (M.modify f) := .modify fun h => h.modify hf hc

theorem Hush.remem {s t : St} (h : Hush s t) (l l' : List SessionOp) : Hush { s with mem := l } { t with mem := l' } := ⟨h.client, h.method, h.hist⟩

theorem hush_modifyMem {op : SessionOp} {f : Client → Client} (hf : ∀ c cr, f { c with credential := cr } = { f c with credential := cr })
    (hc : ∀ c, (f c).credential = c.credential) : Twin env Hush (M.modifyMem op f) (M.modifyMem op f) := .modifyMem fun h => (h.modify hf hc).remem _ _

theorem Hush.get {s t : St} (h : Hush s t) {f : Client → α} (hf : ∀ c cr, f { c with credential := cr } = f c) : f s.client = f t.client := by
  rw [h.client, hf]

theorem Hush.emit {s t : St} (h : Hush s t) {e e' : Ev} (he : blind e = blind e') :
    Hush { s with hist := s.hist ++ [e] } { t with hist := t.hist ++ [e'] } := by
  refine ⟨h.client, h.method, ?_⟩
  show (s.hist ++ [e]).map blind = (t.hist ++ [e']).map blind
  rw [List.map_append, List.map_append, h.hist]
  simp only [List.map_cons, List.map_nil, he]

theorem hush_ask {f : Env → Hist → α} {ev : α → Ev} (h : ∀ h h', h.map blind = h'.map blind → f env h = f env h') :
    Twin env Hush (M.ask f ev) (M.ask f ev) := by
  constructor
  intro s t hst
  have := h _ _ hst.hist
  refine ⟨congrArg Res.ok this, ?_⟩
  exact hst.emit (by rw [this])

theorem hush_emit (e : Ev) : Twin env Hush (M.emit e) (M.emit e) := ⟨fun _ _ h => ⟨rfl, h.emit rfl⟩⟩

theorem nonblocking_blind (fd : Int) {h h' : Hist} (e : h.map blind = h'.map blind) : nonblocking fd h = nonblocking fd h' := by
  have key : ∀ l : Hist, nonblocking fd (l.map blind) = nonblocking fd l := by
    intro l
    unfold nonblocking
    rw [List.foldl_map]
    congr 1
    funext b x
    cases x with
    | send k c d r => cases k <;> rfl
    | _ => rfl
  rw [← key h, ← key h', e]

theorem auth_no_nul (c : Credential) :
    cstr (authPlain c) = authPlain c ∧ (∀ s, cstr (authLoginLine s) = authLoginLine s) ∧ cstr (authXOAuth2 c) = authXOAuth2 c :=
  ⟨(Props.C42_commands_without_nul c []).1, fun s => (Props.C42_commands_without_nul c s).2.1, (Props.C42_commands_without_nul c []).2.2⟩

theorem hush_alike (hu : Unseeing env) : Alike env (fun k d d' => d = d' ∨ (k = .cmd ∧ visible d = visible d')) Hush where
  refl := fun _ _ => .inl rfl
  kind := fun h => h.get fun _ _ => rfl
  sock := fun h => h.get fun _ _ => rfl
  ptrRaw := fun h => h.get fun _ _ => rfl
  bio := fun h => h.get fun _ _ => rfl
  batch := fun h => h.get fun _ _ => rfl
  isConnected := fun h => h.get fun _ _ => rfl
  timeout := fun h => h.get fun _ _ => rfl
  setConnected := fun b _ _ h => h.modify (f := ({ · with isConnected := b })) (fun _ _ => rfl) (fun _ => rfl)
  setCtx := fun b _ _ h => h.modify (f := ({ · with ctx := b })) (fun _ _ => rfl) (fun _ => rfl)
  setBio := fun b _ _ h => h.modify (f := ({ · with bio := b })) (fun _ _ => rfl) (fun _ => rfl)
  setSock := fun b _ _ h => h.modify (f := ({ · with sock := b })) (fun _ _ => rfl) (fun _ => rfl)
  setErr := fun b _ _ h => h.modify (f := ({ · with lastErrNo := b })) (fun _ _ => rfl) (fun _ => rfl)
  setResp := fun b _ _ h => (h.modify (f := ({ · with lastResponse := some b })) (fun _ _ => rfl) (fun _ => rfl)).remem _ _
  addLog := by
    intro i p
    unfold addLog
    refine .bind (.gets fun h => h.get fun _ _ => rfl) fun l => ?_
    cases l with
    | none => exact .stop _
    | some l =>
      dsimp only
      cases l.add i p with
      | error u => exact .stop _
      | ok l' => exact hush_modifyMem (fun _ _ => rfl) (fun _ => rfl)
  send := by
    intro k c d d' hd β f f' hf hs
    constructor
    intro s t hst
    have hv : visible d = visible d' := by rcases hd with rfl | h; rfl; exact h.2
    have h1 := hu.send s.hist t.hist c d d' hst.hist hv
    have hn := nonblocking_blind c.fd hst.hist
    unfold sysSend
    rw [bind_run, bind_run, bind_run, bind_run]
    unfold M.ask
    dsimp only
    rw [hn]
    revert h1
    generalize env.send s.hist c d = r
    generalize env.send t.hist c d' = r'
    generalize nonblocking c.fd t.hist = nb
    have ev : ∀ r r' : SendRes, blindRes r = blindRes r' → blind (.send k c d r) = blind (.send k c d' r') := by
      intro r r' h
      rcases hd with rfl | ⟨rfl, h2⟩
      · cases k <;> simp only [blind, h]
      · simp only [blind, h, h2]
    intro h1
    cases r with
    | fail e =>
      cases r' with
      | fail e' =>
        simp only [blindRes, SendRes.fail.injEq] at h1
        subst h1
        exact (hf e).run _ _ (hst.emit (ev _ _ rfl))
      | sent n => simp [blindRes] at h1
      | never => simp [blindRes] at h1
    | sent n =>
      cases r' with
      | fail e' => simp [blindRes] at h1
      | sent n' => exact (hs _ _).run _ _ (hst.emit (ev _ _ rfl))
      | never => simp [blindRes] at h1
    | never =>
      cases r' with
      | fail e' => simp [blindRes] at h1
      | sent n => simp [blindRes] at h1
      | never =>
        cases nb
        · exact ⟨rfl, hst.emit (ev _ _ rfl)⟩
        · exact (hf 11).run _ _ (hst.emit (ev _ _ rfl))
  recv := by
    intro c
    unfold sysRecv
    refine .bind (hush_ask fun h h' e => ?_) fun r => ?_
    · rw [hu.recv h h' c e, nonblocking_blind _ e]
    · exact .ite (.stop _) (.pure _)
  fcntlGet := fun fd => hush_ask fun h h' e => hu.fcntlGet h h' fd e
  fcntlSet := fun fd b => hush_ask fun h h' e => hu.fcntlSet h h' fd b e
  sleep := hush_emit _
  close := fun _ => hush_emit _
  bioFree := fun _ => hush_emit _
  tlsErr := ⟨fun _ _ h => ⟨congrArg Res.ok (hu.tlsErr _ _ h.hist), h⟩⟩
  readFile := fun n => hush_ask fun h h' e => hu.readFile h h' n e

/-! ### The parts that open a connection -/

section
variable (hu : Unseeing env)
include hu

theorem hush_connectPOSIX (ip : Bytes) : Twin env Hush (connectPOSIX ip) (connectPOSIX ip) := by
  have := hush_alike hu
  have port : Twin env Hush (M.gets (·.port)) (M.gets (·.port)) := .gets fun h => h.get fun _ _ => rfl
  have c1 : ∀ fd p, Twin env Hush (sysConnect fd p) (sysConnect fd p) := fun fd p => hush_ask fun h h' e => hu.connect h h' fd p e
  have c2 : ∀ fd p, Twin env Hush (sysSelect fd p) (sysSelect fd p) := fun fd p => hush_ask fun h h' e => hu.select h h' fd p e
  have c3 : ∀ fd, Twin env Hush (sysSockopt fd) (sysSockopt fd) := fun fd => hush_ask fun h h' e => hu.sockopt h h' fd e
  unfold connectPOSIX
  twins [tw_sock, port, c1, c2, c3, tw_setBlocking, tw_logErrno, tw_timeout]

theorem hush_initializeSession : Twin env Hush initializeSession initializeSession := by
  have hA := hush_alike hu
  have port : Twin env Hush (M.gets (·.port)) (M.gets (·.port)) := .gets fun h => h.get fun _ _ => rfl
  have name : Twin env Hush (M.gets (·.serverName)) (M.gets (·.serverName)) := .gets fun h => h.get fun _ _ => rfl
  have log : Twin env Hush (M.modifyMem .freshLog ({ · with log := some .fresh })) (M.modifyMem .freshLog ({ · with log := some .fresh })) :=
    hush_modifyMem (fun _ _ => rfl) (fun _ => rfl)
  have c1 : Twin env Hush sysSocket sysSocket := hush_ask fun h h' e => hu.socket h h' e
  have c2 : ∀ n, Twin env Hush (sysResolve n) (sysResolve n) := fun n => hush_ask fun h h' e => hu.resolve h h' n e
  unfold initializeSession initializePOSIX
  twins [tw_setSock, port, name, log, c1, c2, tw_setNonBlocking, tw_logErrno, hA.addLog, hush_connectPOSIX]

theorem hush_greetings : Twin env Hush checkServerGreetings checkServerGreetings := by
  have hA := hush_alike hu
  unfold checkServerGreetings greetingResult
  twins [tw_kind, tw_sock, tw_timeout, tw_waitLoop, tw_bioRead, hA.recv, hA.addLog]

theorem hush_identify (e t) : Twin env Hush (identify e t) (identify e t) := by
  have hA := hush_alike hu
  have resp : Twin env Hush lastResponseText lastResponseText := by
    unfold lastResponseText
    have : Twin env Hush (M.gets (·.lastResponse)) (M.gets (·.lastResponse)) := .gets fun h => h.get fun _ _ => rfl
    twins [this]
  have loop : ∀ n o, Twin env Hush (ehloLoop t n o) (ehloLoop t n o) := by
    intro n
    induction n with
    | zero => intro o; unfold ehloLoop; exact .stop _
    | succ n ih => intro o; unfold ehloLoop; twins [tw_getServerReply, resp, ih]
  have opts : ∀ o, Twin env Hush (setAuthOptions o) (setAuthOptions o) :=
    fun o => hush_modifyMem (fun _ _ => rfl) (fun _ => rfl)
  have cmd := tw_sendFb (env := env) (R := Hush) (d := ehloCmd) (d' := ehloCmd) (hA.refl _ _) e t
  unfold identify
  twins [hA.addLog, resp, loop, opts]

theorem hush_startTLS : Twin env Hush startTLSNegotiation startTLSNegotiation := by
  have hA := hush_alike hu
  have name : Twin env Hush (M.gets (·.serverName)) (M.gets (·.serverName)) := .gets fun h => h.get fun _ _ => rfl
  have port : Twin env Hush (M.gets (·.port)) (M.gets (·.port)) := .gets fun h => h.get fun _ _ => rfl
  have self : Twin env Hush (M.gets (·.acceptSelfSigned)) (M.gets (·.acceptSelfSigned)) := .gets fun h => h.get fun _ _ => rfl
  have len : Twin env Hush M.histLength M.histLength :=
    ⟨fun s t h => ⟨congrArg Res.ok (by have := congrArg List.length h.hist; simpa using this), h⟩⟩
  have tls : ∀ op, Twin env Hush (sysTls op) (sysTls op) := fun op => hush_ask fun h h' e => hu.tls h h' op e
  unfold startTLSNegotiation
  twins [hA.addLog, name, port, self, len, tls, tw_ctx, tw_setBio, tw_setErrNo, hA.tlsErr, tw_sock, tw_cleanup]

omit hu in
/-- The payloads of an authentication look alike. -/
theorem visible_plain (a b : Bytes) : visible (b!"AUTH PLAIN " ++ a ++ b) = b!"AUTH PLAIN " := by
  unfold visible
  rw [if_pos]
  simp [List.isPrefixOf]

omit hu in
theorem visible_xoauth2 (a b : Bytes) : visible (b!"AUTH XOAUTH2 " ++ a ++ b) = b!"AUTH XOAUTH2 " := by
  unfold visible
  rw [if_neg, if_pos]
  · simp [List.isPrefixOf]
  · simp [List.isPrefixOf]

omit hu in
theorem visible_login (a : Bytes) : visible (authLoginLine a) = [] := by
  have all : ∀ c ∈ authLoginLine a, base64Byte c = true := by
    intro c hc
    unfold authLoginLine at hc
    unfold base64Byte
    rcases List.mem_append.mp hc with hc | hc
    · rcases Props.C03_encode_alphabet a c hc with (h | h) | h | h
      · simp [h]
      · simp [h]
      · simp [h]
      · simp [h]
    · rcases List.mem_cons.mp hc with rfl | hc
      · rfl
      · rcases List.mem_cons.mp hc with rfl | hc
        · rfl
        · cases hc
  have space : ∀ w : Bytes, 32 ∈ w → w.isPrefixOf (authLoginLine a) = false := by
    intro w hw
    cases e : w.isPrefixOf (authLoginLine a) with
    | false => rfl
    | true =>
      have := all 32 ((List.isPrefixOf_iff_prefix.mp e).subset hw)
      exact absurd this (by decide)
  unfold visible
  rw [if_neg (by rw [space _ (by decide)]; decide), if_neg (by rw [space _ (by decide)]; decide), if_pos (List.all_eq_true.mpr all)]

theorem hush_authenticateClient : Twin env Hush authenticateClient authenticateClient := by
  have hA := hush_alike hu
  constructor
  intro s t hst
  unfold authenticateClient
  rw [bind_run, bind_run, gets_run, gets_run]
  have hm := hst.method
  revert hm
  cases s.client.credential with
  | none =>
    intro hm
    cases hc' : t.client.credential with
    | none => exact ⟨rfl, hst⟩
    | some c' => rw [hc'] at hm; simp at hm
  | some c =>
    intro hm
    cases hc' : t.client.credential with
    | none => rw [hc'] at hm; simp at hm
    | some c' =>
      rw [hc'] at hm
      simp only [Option.map_some, Option.some.injEq] at hm
      dsimp only
      rw [hm]
      refine Twin.run ?_ s t hst
      have opts : Twin env Hush (M.gets (·.authOptions)) (M.gets (·.authOptions)) := .gets fun h => h.get fun _ _ => rfl
      obtain ⟨n1, n2, n3⟩ := auth_no_nul c
      obtain ⟨m1, m2, m3⟩ := auth_no_nul c'
      have p1 := fun e t => tw_sendPtrFb (env := env) (R := Hush) (d := authPlain c) (d' := authPlain c')
        (.inr ⟨rfl, by rw [n1, m1, authPlain, authPlain, visible_plain, visible_plain]⟩) e t
      have p2 := fun e t => tw_sendPtrFb (env := env) (R := Hush) (d := authXOAuth2 c) (d' := authXOAuth2 c')
        (.inr ⟨rfl, by rw [n3, m3, authXOAuth2, authXOAuth2, visible_xoauth2, visible_xoauth2]⟩) e t
      have p3 := fun a b e t => tw_sendPtrFb (env := env) (R := Hush) (d := authLoginLine a) (d' := authLoginLine b)
        (.inr ⟨rfl, by rw [n2, n2, visible_login, visible_login]⟩) e t
      unfold authPlainM authLoginM authXOAuth2M
      twins [opts, hA.addLog, p1, p2, p3, tw_cmd]

theorem hush_authenticateIfNeeded : Twin env Hush authenticateIfNeeded authenticateIfNeeded := by
  unfold authenticateIfNeeded
  constructor
  intro s t hst
  rw [bind_run, bind_run, gets_run, gets_run]
  dsimp only
  have : s.client.credential.isSome = t.client.credential.isSome := by
    have := congrArg Option.isSome hst.method
    simpa using this
  rw [this]
  refine Twin.run ?_ s t hst
  twins [hush_authenticateClient]

theorem hush_establish : Twin env Hush establish establish := by
  have hA := hush_alike hu
  have resp : Twin env Hush (M.gets (·.lastResponse)) (M.gets (·.lastResponse)) := .gets fun h => h.get fun _ _ => rfl
  have keep : ∀ b, Twin env Hush (setKeepUsingBase b) (setKeepUsingBase b) := fun b => hush_modify (fun _ _ => rfl) (fun _ => rfl)
  have cmd := fun e t => tw_sendRawFb (env := env) (R := Hush) (d := startTlsCmd) (d' := startTlsCmd) (hA.refl _ _) e t
  unfold establish establishGreeted establishOpportunistic establishForced sendServerIdentification getServerSecureIdentification
    upgradeToSecureConnection
  twins [hush_initializeSession, hush_greetings, hush_identify, hush_startTLS, hush_authenticateIfNeeded, resp, keep, cmd, hA.addLog, tw_kind]

theorem hush_sendMail (m) : Twin env Hush (sendMail m) (sendMail m) := by
  have hA := hush_alike hu
  unfold sendMail
  twins [tw_isConnected, tw_sendMailConnected, hush_establish]

/-- One API call; the two calls may pass different credentials. -/
theorem hush_doCall {c c' : Call} (h : blindCall c = blindCall c') : Twin env Hush (doCall c) (doCall c') := by
  unfold doCall
  have first : ∀ {m m' : M CallRes}, Twin env Hush m m' → Twin env Hush (do M.emit (.call c); m) (do M.emit (.call c'); m') := by
    intro m m' hm
    refine .bind ⟨fun s t hst => ⟨rfl, hst.emit (by simp only [blind, h])⟩⟩ fun _ => hm
  refine first ?_
  by_cases hc : ∃ cr, c = .setCredentials cr
  · obtain ⟨cr, rfl⟩ := hc
    cases c' with
    | setCredentials cr' =>
      simp only [blindCall, Call.setCredentials.injEq, Credential.mk.injEq] at h
      refine .bind ⟨fun s t hst => ⟨rfl, ?_⟩⟩ fun _ => .pure _
      refine ⟨?_, congrArg some h.2.2, hst.hist⟩
      show { s.client with credential := some cr } = { t.client with credential := some cr }
      rw [hst.client]
    | _ => simp [blindCall] at h
  · have : c = c' := by
      cases c with
      | setCredentials cr => exact absurd ⟨cr, rfl⟩ hc
      | _ => cases c' <;> simp_all [blindCall]
    subst this
    cases c with
    | setCredentials cr => exact absurd ⟨cr, rfl⟩ hc
    | setServerName p =>
      dsimp only
      unfold setServerName
      cases checkName p with
      | error e =>
        cases e with
        | invalidArgument => exact .pure _
        | ub u => exact .stop _
      | ok n => exact .bind (hush_modify (fun _ _ => rfl) (fun _ => rfl)) fun _ => .pure _
    | setServerPort n => exact .bind (hush_modify (fun _ _ => rfl) (fun _ => rfl)) fun _ => .pure _
    | setBatchMode b => exact .bind (hush_modify (fun _ _ => rfl) (fun _ => rfl)) fun _ => .pure _
    | setCommandTimeout n => exact .bind (hush_modify (fun _ _ => rfl) (fun _ => rfl)) fun _ => .pure _
    | setKeepUsingBaseSendCommands b => exact .bind (hush_modify (fun _ _ => rfl) (fun _ => rfl)) fun _ => .pure _
    | setAcceptSelfSignedCert b => exact .bind (hush_modify (fun _ _ => rfl) (fun _ => rfl)) fun _ => .pure _
    | sendMail m => exact .bind (hush_sendMail hu m) fun _ => .pure _

theorem hush_runCalls {cs cs' : List Call} (h : cs.map blindCall = cs'.map blindCall) : Twin env Hush (runCalls cs) (runCalls cs') := by
  induction cs generalizing cs' with
  | nil =>
    cases cs' with
    | nil => exact .pure _
    | cons c cs' => simp at h
  | cons c cs ih =>
    cases cs' with
    | nil => simp at h
    | cons c' cs' =>
      simp only [List.map_cons, List.cons.injEq] at h
      unfold runCalls
      exact .bind (hush_doCall hu h.1) fun _ => .bind (ih h.2) fun _ => .pure _

end
end Verif.Proofs
