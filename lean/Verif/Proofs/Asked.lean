import Verif.Proofs.Calls
import Verif.Proofs.Events
import Verif.Props.Auth
import Verif.Spec.Asked
/-!
# Which authentication commands are sent
-/
namespace Verif.Proofs
open Verif Verif.Model Verif.Spec

variable {α : Type} {env : Env}

theorem asks_space {x : Mechanism} {d : Bytes} (h : Asks x d) : d[0]? = some 65 ∧ d[4]? = some 32 := by
  cases h <;> simp

/-- What may be sent under a credential. -/
def AskEv (cr : Option Credential) : Ev → Prop
  | .send .cmd _ d _ => ∀ x, Asks x d → ∃ c, cr = some c ∧ Recommends c.method x
  | .call _ => False
  | _ => True

/-- The credential stays and only permitted authentications are started. -/
def Asking (s s' : St) : Prop := s'.client.credential = s.client.credential ∧ NewEvents (AskEv s.client.credential) s s'

instance : Preord Asking where
  refl := fun _ => ⟨rfl, .same rfl⟩
  trans := by
    rintro a b c ⟨h1, h2⟩ ⟨h3, h4⟩
    rw [h1] at h4
    exact ⟨h3.trans h1, h2.trans h4⟩

theorem Asking.same {s s' : St} (h : s'.hist = s.hist) (hc : s'.client.credential = s.client.credential) : Asking s s' := ⟨hc, .same h⟩
theorem Asking.one {s : St} {e : Ev} (h : AskEv s.client.credential e) : Asking s (St.snoc s e) := ⟨rfl, .one h⟩

instance : Cleaning Asking where
  log := fun _ _ _ _ _ _ _ => .same rfl rfl
  errno := fun _ _ => .same rfl rfl
  resp := fun _ _ => .same rfl rfl
  auth := fun _ _ => .same rfl rfl
  fcntlGet := fun _ _ _ => .one trivial
  fcntlSet := fun _ _ _ _ => .one trivial
  select := fun _ _ _ => .one trivial
  sockopt := fun _ _ _ => .one trivial
  resolve := fun _ _ _ => .one trivial
  connect := fun _ _ _ _ => .one trivial
  sleep := fun _ => .one trivial
  recv := fun _ _ _ => .one trivial
  disconnected := fun _ => .same rfl rfl
  ctx := fun _ _ => .same rfl rfl
  noBio := fun _ => .same rfl rfl
  noSock := fun _ => .same rfl rfl
  close := fun _ _ => .one trivial
  bioFree := fun _ _ => .one trivial
  quit := fun _ _ _ => .one trivial

instance : Filing Asking where
  readFile := fun _ _ _ => .one trivial

instance : Opening Asking where
  freshLog := fun _ => .same rfl rfl
  keep := fun _ => .same rfl rfl
  bio := fun _ _ => .same rfl rfl
  sock := fun _ _ => .same rfl rfl
  socket := fun _ _ => .one trivial
  tls := fun _ _ _ => .one trivial

/-- A text that starts no authentication. -/
def NotAuth (d : Bytes) : Prop := ∀ x, ¬ Asks x (cstr d)

theorem notAuth_send {d : Bytes} (h : NotAuth d) (s : St) (c : Chan) (r : SendRes) : Asking s (St.snoc s (.send .cmd c (cstr d) r)) :=
  .one fun x hx => absurd hx (h x)

theorem notAuth_first {d : Bytes} (h : ∀ b, (cstr d)[0]? = some b → b ≠ 65) : NotAuth d :=
  fun _ hx => h _ (asks_space hx).1 rfl

theorem notAuth_login (s : Bytes) : NotAuth (authLoginLine s) := by
  intro x hx
  rw [(Props.C42_commands_without_nul { username := [], password := [] } s).2.1] at hx
  have h := (asks_space hx).2
  have hm : (32 : UInt8) ∈ authLoginLine s := List.mem_of_getElem? h
  unfold authLoginLine at hm
  rcases List.mem_append.mp hm with hm | hm
  · rcases Props.C03_encode_alphabet s 32 hm with (h | h) | h | h
    · exact absurd h (by decide)
    · exact absurd h (by decide)
    · exact absurd h (by decide)
    · exact absurd h (by decide)
  · simp at hm

theorem cmd_asking {d : Bytes} (h : NotAuth d) (e t) : Steps env Asking (sendPtrFb d e t) := sendPtrFb_steps (notAuth_send h) e t

/-- A permitted authentication. -/
theorem auth_asking {d : Bytes} {c : Credential} {x : Mechanism} (hx : Recommends c.method x) (h : ∀ y, Asks y (cstr d) → y = x) (e t) (s : St)
    (hc : s.client.credential = some c) : wp env (sendPtrFb d e t) (fun _ => Asking s) (fun _ => Asking s) s := by
  obtain ⟨ch, r, hw⟩ := sendPtrFb_first (env := env) (R := Asking) d e t s
  have h1 : Asking s (St.snoc s (.send .cmd ch (cstr d) r)) := .one fun y hy => ⟨c, hc, by rw [h y hy]; exact hx⟩
  exact wp_mono hw (fun _ _ h => Preord.trans h1 h) (fun _ _ h => Preord.trans h1 h)

theorem asks_plain {y : Mechanism} {d : Bytes} (h : Asks y (b!"AUTH PLAIN " ++ d)) : y = .plain := by
  generalize hx : b!"AUTH PLAIN " ++ d = t at h
  cases h <;> first | rfl | (exfalso; have := congrArg (·[5]?) hx; revert this; simp)

theorem asks_login {y : Mechanism} {d : Bytes} (h : Asks y (b!"AUTH LOGIN" ++ d)) : y = .login := by
  generalize hx : b!"AUTH LOGIN" ++ d = t at h
  cases h <;> first | rfl | (exfalso; have := congrArg (·[5]?) hx; revert this; simp)

theorem asks_xoauth2 {y : Mechanism} {d : Bytes} (h : Asks y (b!"AUTH XOAUTH2 " ++ d)) : y = .xoauth2 := by
  generalize hx : b!"AUTH XOAUTH2 " ++ d = t at h
  cases h <;> first | rfl | (exfalso; have := congrArg (·[5]?) hx; revert this; simp)

theorem authenticateIfNeeded_asking : Steps env Asking authenticateIfNeeded := by
  have client : Steps env Asking authenticateClient := by
    constructor
    intro s
    unfold authenticateClient
    rw [wp_bind, wp_gets]
    cases hc : s.client.credential with
    | none => exact Asking.same rfl rfl
    | some c =>
      dsimp only
      rw [wp_bind, wp_gets]
      cases s.client.authOptions with
      | none => exact Asking.same rfl rfl
      | some o =>
        dsimp only
        have logged : ∀ i (m : M Int), (∀ s1 : St, s1.client.credential = some c → wp env m (fun _ => Asking s1) (fun _ => Asking s1) s1) →
            wp env (do addLog i; m) (fun _ => Asking s) (fun _ => Asking s) s := by
          intro i m hm
          rw [wp_bind]
          refine wp_mono ((addLog_steps (R := Asking) i _).run s) ?_ (fun _ _ h => h)
          intro _ s1 h1
          exact wp_mono (hm s1 (h1.1.trans hc)) (fun _ _ h => Preord.trans h1 h) (fun _ _ h => Preord.trans h1 h)
        obtain ⟨n1, _, n3⟩ := Props.C42_commands_without_nul c []
        rw [wp_ite]
        refine ⟨fun h => ?_, fun _ => ?_⟩
        · unfold authPlainM
          refine logged _ _ fun s1 hc1 => auth_asking (x := .plain) (c := c) ?_ ?_ _ _ s1 hc1
          · have := (Bool.and_eq_true_iff.mp h).2
            simpa [Recommends] using this
          · intro y hy
            rw [n1, authPlain, List.append_assoc] at hy
            exact asks_plain hy
        rw [wp_ite]
        refine ⟨fun h => ?_, fun _ => ?_⟩
        · unfold authLoginM
          refine logged _ _ fun s1 hc1 => ?_
          have hx : Recommends c.method .login := by
            have := (Bool.and_eq_true_iff.mp h).2
            simpa [Recommends] using this
          have first := auth_asking (env := env) (d := b!"AUTH LOGIN\r\n") (x := .login) (c := c) hx
            (fun y hy => asks_login (d := b!"\r\n") hy) (-81) (-82) s1 hc1
          have l1 := cmd_asking (env := env) (notAuth_login c.username) (-81) (-82)
          have l2 := cmd_asking (env := env) (notAuth_login c.password) (-81) (-82)
          refine wp_bind_steps first fun a => ?_
          steps []
        rw [wp_ite]
        refine ⟨fun h => ?_, fun _ => Asking.same rfl rfl⟩
        unfold authXOAuth2M
        refine logged _ _ fun s1 hc1 => auth_asking (x := .xoauth2) (c := c) ?_ ?_ _ _ s1 hc1
        · have := (Bool.and_eq_true_iff.mp h).2
          simpa [Recommends] using this
        · intro y hy
          rw [n3, authXOAuth2, List.append_assoc] at hy
          exact asks_xoauth2 hy
  unfold authenticateIfNeeded
  steps []

theorem establish_asking : Steps env Asking establish := by
  unfold establish establishGreeted establishForced establishOpportunistic upgradeToSecureConnection
    getServerSecureIdentification sendServerIdentification setKeepUsingBase
  have h1 : ∀ e t, Steps env Asking (sendRawFb startTlsCmd e t) := fun e t => sendRawFb_steps (notAuth_send (notAuth_first (by decide))) e t
  have h2 : ∀ e t, Steps env Asking (identify e t) := fun e t => identify_steps (notAuth_send (notAuth_first (by decide))) e t
  steps [addLog_steps, initializeSession_steps, checkServerGreetings_steps, h2,
    startTLSNegotiation_steps, authenticateIfNeeded_asking, h1, Steps.modify]
  exact Opening.keep _

theorem cstr_head (c : UInt8) (hc : c ≠ 0) (l : Bytes) : (cstr (c :: l))[0]? = some c := by
  simp [cstr, hc]

theorem content_asking (d : Bytes) (e) : Steps env Asking (sendPtr .content d e) :=
  sendPtr_steps (fun _ _ _ => .one trivial) e

theorem sendMail_asking (m : Message) : Steps env Asking (sendMail m) := by
  have c1 := fun d e => content_asking (env := env) d e
  have c2 := cmd_asking (env := env) (d := dataCmd) (notAuth_first (by decide)) (-89) (-90)
  have c3 := cmd_asking (env := env) (d := endOfData) (notAuth_first (by decide)) (-97) (-98)
  have c4 : ∀ l : List Bytes, (∀ f ∈ l, NotAuth f) → ∀ c, Steps env Asking (mailFromLoop c l) := by
    intro l hl
    induction l with
    | nil => intro c; unfold mailFromLoop; steps []
    | cons f l ih =>
      intro c
      unfold mailFromLoop
      have h1 := cmd_asking (env := env) (hl f (by simp)) (-85) (-86)
      have h2 := ih fun f hf => hl f (by simp [hf])
      steps [addLog_steps, h2]
  have c4' := fun c => c4 (mailFormats m.from) (by
    intro f hf
    simp only [mailFormats, List.mem_cons, List.not_mem_nil, or_false] at hf
    refine notAuth_first fun b hb => ?_
    have : (cstr f)[0]? = some 77 := by rcases hf with rfl | rfl | rfl <;> rfl
    rw [this] at hb; cases hb; decide) c
  have c5 : ∀ (l : List MessageAddress) c, Steps env Asking (addMailRecipients c l) := by
    intro l
    induction l with
    | nil => intro c; unfold addMailRecipients; steps []
    | cons a l ih =>
      intro c
      unfold addMailRecipients
      have h1 := cmd_asking (env := env) (d := rcptTo a) (notAuth_first fun b hb => by
        have : (cstr (rcptTo a))[0]? = some 82 := rfl
        rw [this] at hb; cases hb; decide) (-87) (-88)
      steps [addLog_steps, ih]
  have c6 : ∀ l, Steps env Asking (recipientsLoop l) := by
    intro l
    induction l with
    | nil => unfold recipientsLoop; steps []
    | cons a l ih => unfold recipientsLoop; steps [arrElems_steps, c5]
  have c8 : ∀ l, Steps env Asking (sendPieces l) := by
    intro l
    induction l with
    | nil => unfold sendPieces; steps []
    | cons a l ih => unfold sendPieces; steps [c1]
  have rest : Steps env Asking (sendMailConnected m) := by
    unfold sendMailConnected sendMailRest setMailRecipients setMailHeaders setMailBody addressHeader addMailHeader sendBodyText
    steps [c1, c4', c6, c8, addLog_steps, arrElems_steps, fullBody_steps, Steps.modify, sendQuit_steps, cleanup_steps]
    exact .same rfl rfl
  unfold sendMail
  steps [establish_asking]

/-! ### Lives -/

theorem inForce_append (c : Option Credential) (h k : Hist) : inForce c (h ++ k) = inForce (inForce c h) k := List.foldl_append

theorem inForce_asked {cr : Option Credential} {h : Hist} {P : Option Credential} (hh : ∀ e ∈ h, AskEv P e) : inForce cr h = cr := by
  induction h generalizing cr with
  | nil => rfl
  | cons e h ih =>
    have he := hh e (by simp)
    have h1 : inForce cr (e :: h) = inForce (inForce cr [e]) h := inForce_append cr [e] h
    rw [h1, ih fun e he => hh e (by simp [he])]
    unfold inForce
    simp only [List.foldl_cons, List.foldl_nil]
    split
    · exact absurd he (by simp [AskEv])
    · rfl

/-- What holds between the calls. -/
structure AskInv (c0 : Option Credential) (s : St) : Prop where
  obeys : Obeys c0 s.hist
  cred : inForce c0 s.hist = s.client.credential

theorem Obeys.append {c0 : Option Credential} {h k : Hist} (hh : Obeys c0 h) (hk : ∀ e ∈ k, AskEv (inForce c0 h) e) : Obeys c0 (h ++ k) := by
  intro pre ch d r post x he hx
  rcases List.append_eq_append_iff.mp he with ⟨a, ha, hb⟩ | ⟨a, ha, hb⟩
  · -- the command is in the new part
    rw [ha, inForce_append]
    have hka : ∀ e ∈ a, AskEv (inForce c0 h) e := fun e he => hk e (by rw [hb]; simp [he])
    rw [inForce_asked hka]
    have hs : AskEv (inForce c0 h) (.send .cmd ch d r) := hk _ (by rw [hb]; simp)
    exact hs x hx
  · cases a with
    | nil =>
      simp only [List.append_nil] at ha
      rw [← ha]
      rw [List.nil_append] at hb
      have hs : AskEv (inForce c0 h) (.send .cmd ch d r) := hk _ (by rw [← hb]; simp)
      exact hs x hx
    | cons e a =>
      rw [List.cons_append] at hb
      injection hb with h1 h2
      subst h1
      exact hh pre ch d r a x ha hx

theorem Asking.inv {c0 : Option Credential} {s s' : St} (h : Asking s s') (hi : AskInv c0 s) : AskInv c0 s' := by
  obtain ⟨h1, evs, h2, h3⟩ := h
  rw [← hi.cred] at h3
  refine ⟨by rw [h2]; exact Obeys.append hi.obeys h3, ?_⟩
  rw [h2, inForce_append, inForce_asked h3, hi.cred, h1]

theorem Obeys.call {c0 : Option Credential} {h : Hist} (hh : Obeys c0 h) (e : Ev) (he : ∀ k ch d r, e ≠ .send k ch d r) : Obeys c0 (h ++ [e]) := by
  intro pre ch d r post x heq hx
  rcases List.append_eq_append_iff.mp heq with ⟨a, ha, hb⟩ | ⟨a, ha, hb⟩
  · exfalso
    have : Ev.send .cmd ch d r ∈ [e] := by rw [hb]; simp
    exact he _ _ _ _ (List.mem_singleton.mp this).symm
  · cases a with
    | nil =>
      exfalso
      rw [List.nil_append] at hb
      injection hb with h1 _
      exact he _ _ _ _ h1.symm
    | cons e' a =>
      rw [List.cons_append] at hb
      injection hb with h1 h2
      subst h1
      exact hh pre ch d r a x ha hx

theorem doCall_asking {c0 : Option Credential} (c : Call) (s : St) (hi : AskInv c0 s) :
    wp env (doCall c) (fun _ => AskInv c0) (fun _ => AskInv c0) s := by
  have ev : (∀ c', c ≠ .setCredentials c') → AskInv c0 (St.snoc s (.call c)) := by
    intro hn
    refine ⟨Obeys.call hi.obeys _ nofun, ?_⟩
    show inForce c0 (s.hist ++ [.call c]) = _
    rw [inForce_append]
    rw [hi.cred]
    unfold inForce
    simp only [List.foldl_cons, List.foldl_nil]
    split
    · next heq => cases heq; exact absurd rfl (hn _)
    · rfl
  unfold Model.doCall
  rw [wp_bind, wp_emit]
  cases c with
  | setServerName p =>
    have ev := ev nofun
    dsimp only
    unfold setServerName
    cases checkName p with
    | error e => cases e <;> exact ev
    | ok name => exact ⟨ev.1, ev.2⟩
  | setServerPort n => exact ⟨(ev nofun).1, (ev nofun).2⟩
  | setBatchMode b => exact ⟨(ev nofun).1, (ev nofun).2⟩
  | setCommandTimeout n => exact ⟨(ev nofun).1, (ev nofun).2⟩
  | setCredentials c =>
    refine ⟨Obeys.call hi.obeys (.call (.setCredentials c)) nofun, ?_⟩
    show inForce c0 (s.hist ++ [.call (.setCredentials c)]) = some c
    rw [inForce_append]
    rfl
  | setKeepUsingBaseSendCommands b => exact ⟨(ev nofun).1, (ev nofun).2⟩
  | setAcceptSelfSignedCert b => exact ⟨(ev nofun).1, (ev nofun).2⟩
  | sendMail m =>
    dsimp only
    rw [wp_bind]
    refine wp_mono ((sendMail_asking m).run _) ?_ (fun _ _ h => h.inv (ev nofun))
    exact fun _ _ h => h.inv (ev nofun)

theorem runCalls_asking {c0 : Option Credential} (cs : List Call) (s : St) (hi : AskInv c0 s) :
    wp env (runCalls cs) (fun _ => AskInv c0) (fun _ => AskInv c0) s := by
  induction cs generalizing s with
  | nil => exact hi
  | cons c cs ih =>
    unfold Model.runCalls
    rw [wp_bind]
    refine wp_mono (doCall_asking c s hi) ?_ (fun _ _ h => h)
    intro _ s1 h1
    rw [wp_bind]
    exact wp_mono (ih s1 h1) (fun _ _ h => h) (fun _ _ h => h)

theorem life_asking {c0 : Option Credential} (cs : List Call) (s : St) (hi : AskInv c0 s) : AskInv c0 (life cs env s).2 := by
  refine state_of ?_
  unfold Model.life Model.destroy
  rw [wp_bind]
  refine wp_mono (runCalls_asking cs s hi) ?_ (fun _ _ h => h)
  intro _ s1 h1
  rw [wp_bind, wp_bind, wp_emit]
  have : Asking s1 (St.snoc s1 .destroy) := .one trivial
  exact wp_mono ((cleanup_steps (R := Asking)).run _) (fun _ _ h => h.inv (this.inv h1)) (fun _ _ h => h.inv (this.inv h1))

end Verif.Proofs
