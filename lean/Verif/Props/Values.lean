import Verif.Proofs.Values
import Verif.Proofs.Frame
import Verif.Spec.History
/-!
# C16, C17: constructors and setters
-/
namespace Verif.Props
open Verif Verif.Model Verif.Spec

/-- **C16.** Constructing a client throws exactly for blank server names; otherwise the getter shows the text given. Texts that
`isspace` cannot handle are undefined behaviour. -/
theorem C16_client_server_name (k : Kind) (p : Option Bytes) (port : Nat) :
    (ScanArg p → (Client.new k p port = .error .invalidArgument ↔ BlankArg p)) ∧
    (∀ c, Client.new k p port = .ok c → ∃ t, Shows p t ∧ ¬ AllWs t ∧ c.serverName = some t ∧ c.port = port) ∧
    (ScanArg p → Client.new k p port = .error .invalidArgument ∨ ∃ c, Client.new k p port = .ok c) := by
  unfold Client.new
  rcases Proofs.checkName_cases p with ⟨hb, e⟩ | ⟨t, ⟨m, hm, ht⟩, ha, hs, e⟩ | ⟨hn, e⟩
  · simp [e, hb]
  · simp only [e]
    refine ⟨fun _ => ⟨by simp, fun h => absurd (h m t hm ht) ha⟩, ?_, by simp⟩
    intro c hc
    injection hc with hc
    subst hc
    exact ⟨t, ⟨m, hm, ht⟩, ha, rfl, rfl⟩
  · exact ⟨fun h => absurd h hn, by simp [e], fun h => absurd h hn⟩

/-- **C16.** The same for `setServerName`; a throwing call changes nothing. -/
theorem C16_set_server_name (env : Env) (s : St) (p : Option Bytes) (hs : ScanArg p) :
    (BlankArg p ∧ setServerName p env s = (.ok .threw, s)) ∨
    (∃ t, Shows p t ∧ ¬ AllWs t ∧
      setServerName p env s = (.ok .done, { s with client := { s.client with serverName := some t } })) := by
  unfold setServerName
  rcases Proofs.checkName_cases p with ⟨hb, e⟩ | ⟨t, ht, ha, _, e⟩ | ⟨hn, e⟩
  · left; simp [e, hb]; try rfl
  · right; simp only [e]; exact ⟨t, ht, ha, rfl⟩
  · exact absurd hs hn

/-- **C16.** A credential is rejected exactly for a blank user name or an empty password. -/
theorem C16_credential (u p : Option Bytes) (m : AuthMethod) (hs : ScanArg u) :
    (Credential.new u p m = .error .invalidArgument ∧ (BlankArg u ∨ EmptyArg p)) ∨
    (∃ tu tp, Credential.new u p m = .ok { username := tu, password := tp, method := m } ∧
      Shows u tu ∧ ¬ AllWs tu ∧ Shows p tp ∧ tp ≠ []) := by
  unfold Credential.new
  rcases Proofs.checkName_cases u with ⟨hb, e⟩ | ⟨t, ht, ha, _, e⟩ | ⟨hn, e⟩
  · left; rw [e]; exact ⟨rfl, .inl hb⟩
  · rcases Proofs.checkPassword_cases p with ⟨hb', e'⟩ | ⟨t', ht', hne, e'⟩
    · left; rw [e, e']; exact ⟨rfl, .inr hb'⟩
    · right; rw [e, e']; exact ⟨t, t', rfl, ht, ha, ht', hne⟩
  · exact absurd hs hn

/-- **C16.** `setUsername`. -/
theorem C16_set_username (c : Credential) (p : Option Bytes) (hs : ScanArg p) :
    (BlankArg p ∧ c.setUsername p = (.error .invalidArgument, c)) ∨
    (∃ t, Shows p t ∧ ¬ AllWs t ∧ c.setUsername p = (.ok (), { c with username := t })) := by
  unfold Credential.setUsername
  rcases Proofs.checkName_cases p with ⟨hb, e⟩ | ⟨t, ht, ha, _, e⟩ | ⟨hn, e⟩
  · left; simp [e, hb]; try rfl
  · right; simp only [e]; exact ⟨t, ht, ha, rfl⟩
  · exact absurd hs hn

/-- **C16.** `setPassword`. -/
theorem C16_set_password (c : Credential) (p : Option Bytes) :
    (EmptyArg p ∧ c.setPassword p = (.error .invalidArgument, c)) ∨
    (∃ t, Shows p t ∧ t ≠ [] ∧ c.setPassword p = (.ok (), { c with password := t })) := by
  unfold Credential.setPassword
  rcases Proofs.checkPassword_cases p with ⟨hb, e⟩ | ⟨t, ht, ha, e⟩
  · left; simp [e, hb]; try rfl
  · right; simp only [e]; exact ⟨t, ht, ha, rfl⟩

/-- **C16.** An attachment is rejected exactly for a blank file name; otherwise the getters show what was given. The other two
arguments must not be null (their `strlen` is undefined). -/
theorem C16_attachment (f n i : Option Bytes) (tn ti : Bytes) (hf : f ≠ none) (hs : ScanArg f) (hn : Shows n tn)
    (hi : Shows i ti) :
    (Attachment.new f n i = .error .invalidArgument ∧ BlankArg f) ∨
    (∃ tf, Attachment.new f n i = .ok { filename := tf, name := tn, contentId := ti } ∧ Shows f tf ∧ ¬ AllWs tf) := by
  obtain ⟨mn, rfl, hn⟩ := hn
  obtain ⟨mi, rfl, hi⟩ := hi
  cases f with
  | none => exact absurd rfl hf
  | some m =>
    have hc := Proofs.cstr_ctext m
    have hsc : ScanOk (cstr m) := hs m _ rfl hc
    unfold Attachment.new
    simp only [readCStr, Proofs.CText.eq hn, Proofs.CText.eq hi]
    by_cases h0 : cstr m = []
    · left
      simp only [h0]
      refine ⟨rfl, ?_⟩
      intro m' t e ht
      cases e
      rw [Proofs.CText.eq ht, h0]; simp [AllWs]
    · have h0' : ¬ (cstr m).length = 0 := by simpa using h0
      rcases Proofs.trimEmpty_cases _ hsc with ⟨ha, e⟩ | ⟨ha, e⟩
      · left
        refine ⟨?_, ?_⟩
        · simp only [bind, Except.bind, h0', if_false, e]; rfl
        · intro m' t e' ht
          cases e'
          rw [Proofs.CText.eq ht]; exact ha
      · right
        refine ⟨cstr m, ?_, ⟨m, rfl, hc⟩, ha⟩
        simp only [bind, Except.bind, h0', if_false, e]; rfl

/-- **C16.** None of the three arguments of an attachment may be null: a null file name, and behind an acceptable file name a null name or content id, is undefined behaviour. -/
theorem C16_attachment_null (n i : Option Bytes) (f tf : Bytes) (hs : ScanArg (some f)) (hf : Shows (some f) tf) (hb : ¬ AllWs tf) :
    Attachment.new none n i = .error (.ub .nullDeref) ∧ Attachment.new (some f) none i = .error (.ub .nullDeref) ∧
    (∀ m, Attachment.new (some f) (some m) none = .error (.ub .nullDeref)) := by
  obtain ⟨m, e, hm⟩ := hf
  cases e
  have ht := Proofs.CText.eq hm
  have hsc : ScanOk (cstr f) := hs f _ rfl (Proofs.cstr_ctext f)
  have h0 : ¬ (cstr f).length = 0 := by
    intro h
    have : tf = [] := by rw [ht]; simpa using h
    subst this
    exact hb (by simp [AllWs])
  have he : trimEmpty (cstr f) = .ok false := by
    rcases Proofs.trimEmpty_cases _ hsc with ⟨ha, e⟩ | ⟨ha, e⟩
    · rw [← ht] at ha; exact absurd ha hb
    · exact e
  refine ⟨rfl, ?_, fun m => ?_⟩ <;>
  · unfold Attachment.new
    simp only [readCStr, bind, Except.bind, h0, if_false, he]
    rfl

/-- **C17.** Setting the content id of an attachment changes the content id only; a null pointer is undefined behaviour. -/
theorem C17_attachment (a : Attachment) (p : Option Bytes) :
    (p = none ∧ a.setContentId p = (.error (.ub .nullDeref), a)) ∨ (∃ t, Shows p t ∧ a.setContentId p = (.ok (), { a with contentId := t })) := by
  cases p with
  | none => exact .inl ⟨rfl, rfl⟩
  | some m => exact .inr ⟨cstr m, ⟨m, rfl, Proofs.cstr_ctext m⟩, rfl⟩

/-- Non-vacuity for both. -/
example : ScanArg (some b!"a.txt") ∧ Shows (some b!"a.txt") b!"a.txt" ∧ ¬ AllWs b!"a.txt" := by
  refine ⟨?_, ⟨_, rfl, Proofs.cstr_ctext b!"a.txt"⟩, by simp [AllWs, IsWs]⟩
  intro m t e ht
  cases e
  rw [Proofs.CText.eq ht]
  exact Classical.byContradiction fun h => by
    have e := Proofs.trimEmpty_ub _ h
    have e' : (match trimEmpty (cstr b!"a.txt") with | .ok b => !b | .error _ => false) = true := by decide +kernel
    rw [e] at e'
    exact Bool.noConfusion e'

/-- Non-vacuity: a name with surrounding blanks is kept as it is up to its NUL, a blank one is rejected, and the domain of
`isspace` matters. -/
example : Client.new .smtp (some b!" smtp.x.org\x00zz") 25 = .ok (Client.init .smtp b!" smtp.x.org" 25) ∧
    Client.new .smtp (some b!" \t") 25 = .error .invalidArgument ∧ Client.new .smtp none 25 = .error .invalidArgument ∧
    Client.new .smtp (some b!"é") 25 = .error (.ub .isspaceDomain) ∧
    Credential.new (some b!"u") (some b!" ") = .ok { username := b!"u", password := b!" " } ∧
    Attachment.new (some b!"a.png") (some b!"") (some b!"id") = .ok { filename := b!"a.png", name := [], contentId := b!"id" } := by
  refine ⟨rfl, rfl, rfl, rfl, rfl, rfl⟩

/-! ### C17 -/

/-- The user name a setter call gives. -/
def GivesUsername (o : CredCall) (t : Bytes) : Prop := ∃ p, o = .username p ∧ Shows p t ∧ ¬ AllWs t
/-- The password a setter call gives. -/
def GivesPassword (o : CredCall) (t : Bytes) : Prop := ∃ p, o = .password p ∧ Shows p t ∧ t ≠ []
/-- The method a setter call gives. -/
def GivesMethod (o : CredCall) (m : AuthMethod) : Prop := o = .method m

/-- **C17.** A setter call on a credential that throws changes nothing. -/
theorem C17_credential_throw (c c' : Credential) (o : CredCall) (e : Fail) (h : c.doCall o = (.error e, c')) : c' = c := by
  unfold Credential.doCall at h
  split at h
  · unfold Credential.setUsername at h; split at h <;> simp_all
  · unfold Credential.setPassword at h; split at h <;> simp_all
  · simp [Credential.setMethod] at h

/-- **C17.** After any sequence of setter calls on a credential the getters show the last accepted values. -/
theorem C17_credential (ops : List CredCall) (c c' : Credential) (h : Credential.runCalls ops c = .ok c') :
    LastOf GivesUsername ops c.username c'.username ∧ LastOf GivesPassword ops c.password c'.password ∧
    LastOf GivesMethod ops c.method c'.method := by
  induction ops generalizing c with
  | nil => simp [Credential.runCalls] at h; subst h; exact ⟨.nil, .nil, .nil⟩
  | cons o ops ih =>
    unfold Credential.runCalls at h
    cases o with
    | username p =>
      have hs : (∀ t, ¬ GivesPassword (.username p) t) ∧ (∀ t, ¬ GivesMethod (.username p) t) :=
        ⟨fun t ⟨p, e, _⟩ => (by simp at e), fun t e => (by simp [GivesMethod] at e)⟩
      simp only [Credential.doCall, Credential.setUsername] at h
      rcases Proofs.checkName_cases p with ⟨hb, e⟩ | ⟨t, ht, ha, _, e⟩ | ⟨hn, e⟩
      · simp only [e] at h
        obtain ⟨h1, h2, h3⟩ := ih c h
        refine ⟨.skip ?_ h1, .skip hs.1 h2, .skip hs.2 h3⟩
        rintro t ⟨p', e', ⟨m, hm, ht⟩, ha⟩
        injection e' with e'; subst e'
        exact ha (hb m t hm ht)
      · simp only [e] at h
        obtain ⟨h1, h2, h3⟩ := ih _ h
        exact ⟨.give ⟨p, rfl, ht, ha⟩ h1, .skip hs.1 h2, .skip hs.2 h3⟩
      · simp only [e] at h; cases h
    | password p =>
      have hs : (∀ t, ¬ GivesUsername (.password p) t) ∧ (∀ t, ¬ GivesMethod (.password p) t) :=
        ⟨fun t ⟨p, e, _⟩ => (by simp at e), fun t e => (by simp [GivesMethod] at e)⟩
      simp only [Credential.doCall, Credential.setPassword] at h
      rcases Proofs.checkPassword_cases p with ⟨hb, e⟩ | ⟨t, ht, ha, e⟩
      · simp only [e] at h
        obtain ⟨h1, h2, h3⟩ := ih c h
        refine ⟨.skip hs.1 h1, .skip ?_ h2, .skip hs.2 h3⟩
        rintro t ⟨p', e', ⟨m, hm, ht⟩, ha⟩
        injection e' with e'; subst e'
        exact ha (hb m t hm ht)
      · simp only [e] at h
        obtain ⟨h1, h2, h3⟩ := ih _ h
        exact ⟨.skip hs.1 h1, .give ⟨p, rfl, ht, ha⟩ h2, .skip hs.2 h3⟩
    | method m =>
      simp only [Credential.doCall, Credential.setMethod] at h
      obtain ⟨h1, h2, h3⟩ := ih _ h
      exact ⟨.skip (fun t ⟨p, e, _⟩ => (by simp at e)) h1, .skip (fun t ⟨p, e, _⟩ => (by simp at e)) h2, .give rfl h3⟩

/-- The configuration of a client that the user sets. -/
def SameConfig (c c' : Client) : Prop :=
  c'.kind = c.kind ∧ c'.serverName = c.serverName ∧ c'.port = c.port ∧ c'.batch = c.batch ∧ c'.timeout = c.timeout ∧
  c'.credential = c.credential ∧ c'.acceptSelfSigned = c.acceptSelfSigned

instance : Proofs.Anything (fun s s' => SameConfig s.client s'.client) where
  refl := by simp [SameConfig]
  trans := by unfold SameConfig; intros; simp_all
  log := by simp [SameConfig]
  freshLog := by simp [SameConfig]
  errno := by simp [SameConfig]
  resp := by simp [SameConfig]
  auth := by simp [SameConfig]
  fcntlGet := by simp [SameConfig, Proofs.St.snoc]
  fcntlSet := by simp [SameConfig, Proofs.St.snoc]
  select := by simp [SameConfig, Proofs.St.snoc]
  sockopt := by simp [SameConfig, Proofs.St.snoc]
  resolve := by simp [SameConfig, Proofs.St.snoc]
  connect := by simp [SameConfig, Proofs.St.snoc]
  readFile := by simp [SameConfig, Proofs.St.snoc]
  sleep := by simp [SameConfig, Proofs.St.snoc]
  recv := by simp [SameConfig, Proofs.St.snoc]
  disconnected := by simp [SameConfig]
  ctx := by simp [SameConfig]
  noBio := by simp [SameConfig]
  noSock := by simp [SameConfig]
  close := by simp [SameConfig, Proofs.St.snoc]
  bioFree := by simp [SameConfig, Proofs.St.snoc]
  quit := by simp [SameConfig, Proofs.St.snoc]
  connected := by simp [SameConfig]
  keep := by simp [SameConfig]
  bio := by simp [SameConfig]
  sock := by simp [SameConfig]
  socket := by simp [SameConfig, Proofs.St.snoc]
  tls := by simp [SameConfig, Proofs.St.snoc]
  send := by simp [SameConfig, Proofs.St.snoc]

/-- **C17.** Sending a mail never changes the configuration, whatever the server does and however it ends. -/
theorem C17_sendMail_keeps_config (env : Env) (m : Message) (s : St) : SameConfig s.client (sendMail m env s).2.client :=
  (Proofs.sendMail_steps (env := env) (R := fun s s' => SameConfig s.client s'.client) m).state s

/-- **C17.** A setter call on a client that throws changes nothing. -/
theorem C17_client_throw (env : Env) (c : Call) (s s' : St) (h : doCall c env s = (.ok .threw, s')) : s'.client = s.client := by
  cases c with
  | setServerName p =>
    change (setServerName p env { s with hist := s.hist ++ [.call (.setServerName p)] }) = _ at h
    unfold setServerName at h
    rcases Proofs.checkName_cases p with ⟨hb, e⟩ | ⟨t, ht, ha, _, e⟩ | ⟨hn, e⟩ <;> simp only [e] at h <;> cases h
    rfl
  | sendMail m =>
    change (M.bind (sendMail m) (fun c => M.pure (CallRes.returned c))) env { s with hist := s.hist ++ [.call (.sendMail m)] } = _ at h
    unfold M.bind at h
    split at h <;> cases h
  | _ => cases h

/-- The server name a call gives, and so on. -/
def GivesServerName (o : Call) (t : Option Bytes) : Prop := ∃ p u, o = .setServerName p ∧ Shows p u ∧ ¬ AllWs u ∧ t = some u
def GivesPort (o : Call) (n : Nat) : Prop := o = .setServerPort n
def GivesBatch (o : Call) (b : Bool) : Prop := o = .setBatchMode b
def GivesTimeout (o : Call) (n : Nat) : Prop := o = .setCommandTimeout n
def GivesCredential (o : Call) (c : Option Credential) : Prop := ∃ c', o = .setCredentials c' ∧ c = some c'
def GivesAccept (o : Call) (b : Bool) : Prop := o = .setAcceptSelfSignedCert b

/-- What the getters show, compared with the calls made since. -/
structure ShowsLast (cs : List Call) (c c' : Client) : Prop where
  serverName : LastOf GivesServerName cs c.serverName c'.serverName
  port : LastOf GivesPort cs c.port c'.port
  batch : LastOf GivesBatch cs c.batch c'.batch
  timeout : LastOf GivesTimeout cs c.timeout c'.timeout
  credential : LastOf GivesCredential cs c.credential c'.credential
  accept : LastOf GivesAccept cs c.acceptSelfSigned c'.acceptSelfSigned

theorem showsLast_cons {o : Call} {cs : List Call} {c c1 c' : Client} (h1 : ShowsLast [o] c c1) (h : ShowsLast cs c1 c') :
    ShowsLast (o :: cs) c c' := by
  have key : ∀ {β : Type} {acc : Call → β → Prop} {a b d : β}, LastOf acc [o] a b → LastOf acc cs b d → LastOf acc (o :: cs) a d := by
    intro β acc a b d hab hbd
    rcases hab with ⟨rfl, hn⟩ | ⟨pre, o', post, e, ha, hp⟩
    · exact .skip (hn o (by simp)) hbd
    · have : pre = [] ∧ post = [] ∧ o' = o := by
        cases pre with
        | nil => simp at e; exact ⟨rfl, e.2, e.1.symm⟩
        | cons x pre => simp at e
      obtain ⟨_, _, rfl⟩ := this
      exact .give ha hbd
  exact ⟨key h1.serverName h.serverName, key h1.port h.port, key h1.batch h.batch, key h1.timeout h.timeout,
    key h1.credential h.credential, key h1.accept h.accept⟩

theorem showsLast_doCall (env : Env) (o : Call) (s s' : St) (r : CallRes) (h : doCall o env s = (.ok r, s')) :
    ShowsLast [o] s.client s'.client := by
  have skip : ∀ {β : Type} {acc : Call → β → Prop} {a : β}, (∀ t, ¬ acc o t) → LastOf acc [o] a a := fun h => .skip h .nil
  have give : ∀ {β : Type} {acc : Call → β → Prop} {a b : β}, acc o b → LastOf acc [o] a b := fun h => .give h .nil
  cases o with
  | setServerName p =>
    change (setServerName p env { s with hist := s.hist ++ [.call (.setServerName p)] }) = _ at h
    unfold setServerName at h
    rcases Proofs.checkName_cases p with ⟨hb, e⟩ | ⟨t, ht, ha, _, e⟩ | ⟨hn, e⟩
    · simp only [e] at h
      cases h
      refine ⟨skip ?_, skip ?_, skip ?_, skip ?_, skip ?_, skip ?_⟩
      · rintro t ⟨p', u, e', ⟨m, hm, hu⟩, ha, _⟩
        injection e' with e'; subst e'
        exact ha (hb m u hm hu)
      all_goals simp [GivesPort, GivesBatch, GivesTimeout, GivesCredential, GivesAccept]
    · simp only [e] at h
      cases h
      refine ⟨give ⟨p, t, rfl, ht, ha, rfl⟩, skip ?_, skip ?_, skip ?_, skip ?_, skip ?_⟩
      all_goals simp [GivesPort, GivesBatch, GivesTimeout, GivesCredential, GivesAccept]
    · simp only [e] at h; cases h
  | setServerPort n =>
    cases h
    refine ⟨skip ?_, give rfl, skip ?_, skip ?_, skip ?_, skip ?_⟩
    all_goals simp [GivesServerName, GivesBatch, GivesTimeout, GivesCredential, GivesAccept]
  | setBatchMode n =>
    cases h
    refine ⟨skip ?_, skip ?_, give rfl, skip ?_, skip ?_, skip ?_⟩
    all_goals simp [GivesServerName, GivesPort, GivesTimeout, GivesCredential, GivesAccept]
  | setCommandTimeout n =>
    cases h
    refine ⟨skip ?_, skip ?_, skip ?_, give rfl, skip ?_, skip ?_⟩
    all_goals simp [GivesServerName, GivesPort, GivesBatch, GivesCredential, GivesAccept]
  | setCredentials n =>
    cases h
    refine ⟨skip ?_, skip ?_, skip ?_, skip ?_, give ⟨n, rfl, rfl⟩, skip ?_⟩
    all_goals simp [GivesServerName, GivesPort, GivesBatch, GivesTimeout, GivesAccept]
  | setKeepUsingBaseSendCommands n =>
    cases h
    refine ⟨skip ?_, skip ?_, skip ?_, skip ?_, skip ?_, skip ?_⟩
    all_goals simp [GivesServerName, GivesPort, GivesBatch, GivesTimeout, GivesAccept, GivesCredential]
  | setAcceptSelfSignedCert n =>
    cases h
    refine ⟨skip ?_, skip ?_, skip ?_, skip ?_, skip ?_, give rfl⟩
    all_goals simp [GivesServerName, GivesPort, GivesBatch, GivesTimeout, GivesCredential]
  | sendMail m =>
    change (M.bind (sendMail m) (fun c => M.pure (CallRes.returned c))) env { s with hist := s.hist ++ [.call (.sendMail m)] } = _ at h
    have hc := C17_sendMail_keeps_config env m { s with hist := s.hist ++ [.call (.sendMail m)] }
    unfold M.bind at h
    split at h
    · rename_i a s1 he
      rw [he] at hc
      simp only [M.pure] at h
      cases h
      obtain ⟨-, h2, h3, h4, h5, h6, h7⟩ := hc
      simp only at h2 h3 h4 h5 h6 h7
      constructor
      · rw [h2]; exact skip (by simp [GivesServerName])
      · rw [h3]; exact skip (by simp [GivesPort])
      · rw [h4]; exact skip (by simp [GivesBatch])
      · rw [h5]; exact skip (by simp [GivesTimeout])
      · rw [h6]; exact skip (by simp [GivesCredential])
      · rw [h7]; exact skip (by simp [GivesAccept])
    · cases h

/-- **C17.** After any sequence of API calls on a client, mails included, the getters show the last accepted values. -/
theorem C17_client (env : Env) (cs : List Call) (s s' : St) (rs : List CallRes) (h : runCalls cs env s = (.ok rs, s')) :
    ShowsLast cs s.client s'.client := by
  induction cs generalizing s rs with
  | nil => cases h; exact ⟨.nil, .nil, .nil, .nil, .nil, .nil⟩
  | cons o cs ih =>
    change (M.bind (doCall o) (fun r => M.bind (runCalls cs) (fun rs => M.pure (r :: rs)))) env s = _ at h
    unfold M.bind at h
    split at h
    · rename_i r s1 h1
      dsimp only at h
      split at h
      · rename_i rs' s2 h2
        simp only [M.pure] at h
        cases h
        exact showsLast_cons (showsLast_doCall env o s s1 r h1) (ih s1 rs' h2)
      · cases h
    · cases h

/-- Non-vacuity: accepted and rejected calls mixed. -/
example : Credential.runCalls [.username (some b!"x"), .username none, .password (some b!""), .method .login]
    { username := b!"u", password := b!"p" } = .ok { username := b!"x", password := b!"p", method := .login } := rfl

end Verif.Props
