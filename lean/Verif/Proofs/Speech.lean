import Verif.Proofs.Body
import Verif.Spec.Bcc
import Verif.Props.Auth
/-!
# Everything `sendMail` says
-/
namespace Verif.Proofs
open Verif Verif.Model Verif.Spec

variable {α : Type} {env : Env}

/-- What may be said under a credential. -/
abbrev Texts := Option Credential → SendKind → Bytes → Prop

/-- The credential stays and only this is said. -/
def Saying (D : Texts) (s s' : St) : Prop := s'.client.credential = s.client.credential ∧ NewEvents (Allowed (D s.client.credential)) s s'

theorem Saying.same {D : Texts} {s s' : St} (h : s'.hist = s.hist) (hc : s'.client.credential = s.client.credential) : Saying D s s' := ⟨hc, .same h⟩
theorem Saying.one {D : Texts} {s : St} {e : Ev} (h : Allowed (D s.client.credential) e) : Saying D s (St.snoc s e) := ⟨rfl, .one h⟩

instance (D : Texts) : Cleaning (Saying D) where
  refl := fun _ => ⟨rfl, .same rfl⟩
  trans := by
    rintro a b c ⟨h1, h2⟩ ⟨h3, h4⟩
    rw [h1] at h4
    exact ⟨h3.trans h1, h2.trans h4⟩
  log := fun _ _ _ _ _ _ _ => .same rfl rfl
  errno := fun _ _ => .same rfl rfl
  resp := fun _ _ => .same rfl rfl
  auth := fun _ _ => .same rfl rfl
  fcntlGet := fun _ _ _ => .one trivial
  fcntlSet := fun _ _ _ _ => .one trivial
  select := fun _ _ _ => .one trivial
  sockopt := fun _ _ _ => .one trivial
  resolve := fun _ _ _ => .one trivial
  connect := fun _ _ _ _ => .one trivial
  sleep := fun _ => .one trivial
  recv := fun _ _ _ => .one trivial
  disconnected := fun _ => .same rfl rfl
  ctx := fun _ _ => .same rfl rfl
  noBio := fun _ => .same rfl rfl
  noSock := fun _ => .same rfl rfl
  close := fun _ _ => .one trivial
  bioFree := fun _ _ => .one trivial
  quit := fun _ _ _ => .one rfl

instance (D : Texts) : Filing (Saying D) where
  readFile := fun _ _ _ => .one trivial

instance (D : Texts) : Opening (Saying D) where
  freshLog := fun _ => .same rfl rfl
  keep := fun _ => .same rfl rfl
  bio := fun _ _ => .same rfl rfl
  sock := fun _ _ => .same rfl rfl
  socket := fun _ _ => .one trivial
  tls := fun _ _ _ => .one trivial

section
variable {D : Texts}

theorem cmd_saying {d : Bytes} (h : ∀ c, D c .cmd (cstr d)) (e t) : Steps env (Saying D) (sendPtrFb d e t) :=
  sendPtrFb_steps (fun s _ _ => .one (h s.client.credential)) e t

theorem content_saying {d : Bytes} (h : ∀ c, D c .content (cstr d)) (e) : Steps env (Saying D) (sendPtr .content d e) :=
  sendPtr_steps (fun s _ _ => .one (h s.client.credential)) e

/-- The texts of an authentication. -/
def AuthTexts (D : Texts) : Prop := ∀ cr d, d ∈ [authPlain cr, b!"AUTH LOGIN\r\n", authLoginLine cr.username, authLoginLine cr.password, authXOAuth2 cr] →
  D (some cr) .cmd d

theorem auth_saying (hD : AuthTexts D) : Steps env (Saying D) authenticateIfNeeded := by
  have client : Steps env (Saying D) authenticateClient := by
    constructor
    intro s
    unfold authenticateClient
    rw [wp_bind, wp_gets]
    cases hc : s.client.credential with
    | none => exact Saying.same rfl rfl
    | some c =>
      dsimp only
      obtain ⟨n1, n2, n3⟩ := Props.C42_commands_without_nul c c.username
      have n4 := (Props.C42_commands_without_nul c c.password).2.1
      -- with this credential fixed
      have fix : ∀ m : M Int, Steps env (Saying fun _ => D (some c)) m → wp env m (fun _ => Saying D s) (fun _ => Saying D s) s := by
        intro m hm
        have key : ∀ s', Saying (fun _ => D (some c)) s s' → Saying D s s' := fun s' h => by
          unfold Saying at h ⊢
          rw [hc] at h ⊢
          exact h
        exact wp_mono (hm.run s) (fun _ s' h => key s' h) (fun _ s' h => key s' h)
      refine fix _ ?_
      have c1 := cmd_saying (env := env) (D := fun _ => D (some c)) (d := authPlain c) (fun _ => by rw [n1]; exact hD c _ (by simp)) (-81) (-82)
      have c2 := cmd_saying (env := env) (D := fun _ => D (some c)) (d := authLoginLine c.username) (fun _ => by rw [n2]; exact hD c _ (by simp)) (-81) (-82)
      have c3 := cmd_saying (env := env) (D := fun _ => D (some c)) (d := authLoginLine c.password) (fun _ => by rw [n4]; exact hD c _ (by simp)) (-81) (-82)
      have c4 := cmd_saying (env := env) (D := fun _ => D (some c)) (d := authXOAuth2 c) (fun _ => by rw [n3]; exact hD c _ (by simp)) (-81) (-82)
      have c5 := cmd_saying (env := env) (D := fun _ => D (some c)) (d := b!"AUTH LOGIN\r\n") (fun _ => hD c b!"AUTH LOGIN\r\n" (by simp)) (-81) (-82)
      unfold authPlainM authLoginM authXOAuth2M
      steps [addLog_steps]
  unfold authenticateIfNeeded
  steps []

theorem establish_saying (hD : AuthTexts D) (h1 : ∀ c, D c .cmd ehloCmd) (h2 : ∀ c, D c .cmd startTlsCmd) : Steps env (Saying D) establish := by
  unfold establish establishGreeted establishForced establishOpportunistic upgradeToSecureConnection
    getServerSecureIdentification sendServerIdentification setKeepUsingBase
  have c1 : ∀ e t, Steps env (Saying D) (sendRawFb startTlsCmd e t) := fun e t => sendRawFb_steps (fun s _ _ => .one (h2 s.client.credential)) e t
  have c2 : ∀ e t, Steps env (Saying D) (identify e t) := fun e t => identify_steps (fun s _ _ => .one (h1 s.client.credential)) e t
  have c3 := auth_saying (env := env) hD
  steps [addLog_steps, initializeSession_steps, checkServerGreetings_steps, c2, startTLSNegotiation_steps, c1, Steps.modify]
  exact Opening.keep _

theorem mailFromLoop_saying (l : List Bytes) (hl : ∀ f ∈ l, ∀ c, D c .cmd (cstr f)) (c) : Steps env (Saying D) (mailFromLoop c l) := by
  induction l generalizing c with
  | nil => unfold mailFromLoop; steps []
  | cons f l ih =>
    unfold mailFromLoop
    have h1 := cmd_saying (env := env) (hl f (by simp)) (-85) (-86)
    have h2 := ih fun f hf => hl f (by simp [hf])
    steps [addLog_steps, h2]

theorem addMailRecipients_saying (l : List MessageAddress) (hl : ∀ a ∈ l, ∀ c, D c .cmd (cstr (rcptTo a))) (c) :
    Steps env (Saying D) (addMailRecipients c l) := by
  induction l generalizing c with
  | nil => unfold addMailRecipients; steps []
  | cons a l ih =>
    unfold addMailRecipients
    have h1 := cmd_saying (env := env) (hl a (by simp)) (-87) (-88)
    have h2 := ih fun f hf => hl f (by simp [hf])
    steps [addLog_steps, h2]

/-- Reading an array and going on with its elements. -/
theorem elems_steps {β : Type} {R : St → St → Prop} [hp : Preord R] (a : Arr β) (f : List β → M α) (hf : Steps env R (f (elems a))) :
    Steps env R (arrElems a >>= f) := by
  constructor
  intro s
  have h := arrElems_post (env := env) a s
  unfold post wp at h
  unfold wp
  rw [bind_run]
  have hstop : ∀ e s', arrElems a env s = (.stop e, s') → s' = s := by
    intro e s'
    unfold arrElems
    cases a.ptr with
    | none =>
      dsimp only
      by_cases hc : a.count = 0
      · rw [if_pos hc]; intro h; cases h
      · rw [if_neg hc]; intro h; cases h; rfl
    | some l =>
      dsimp only
      by_cases hc : a.count ≤ l.length
      · rw [if_pos hc]; intro h; cases h
      · rw [if_neg hc]; intro h; cases h; rfl
  cases hr : arrElems a env s with
  | mk r s' =>
    rw [hr] at h
    cases r with
    | ok l =>
      obtain ⟨rfl, rfl, _⟩ := h
      exact hf.run s'
    | stop e =>
      obtain rfl := hstop e s' hr
      exact hp.refl _

theorem recipientsLoop_saying (l : List (Arr MessageAddress)) (hl : ∀ r ∈ l, ∀ a ∈ elems r, ∀ c, D c .cmd (cstr (rcptTo a))) :
    Steps env (Saying D) (recipientsLoop l) := by
  induction l with
  | nil => unfold recipientsLoop; steps []
  | cons a l ih =>
    unfold recipientsLoop
    have h1 := ih fun r hr => hl r (by simp [hr])
    refine .ite h1 ?_
    refine elems_steps a _ ?_
    have h2 := addMailRecipients_saying (env := env) (elems a) (hl a (by simp))
    steps [h2]

theorem sendPieces_saying (l : List Bytes) (hl : ∀ p ∈ l, ∀ c, D c .content (cstr p)) : Steps env (Saying D) (sendPieces l) := by
  induction l with
  | nil => unfold sendPieces; steps []
  | cons p l ih =>
    unfold sendPieces
    have h1 := content_saying (env := env) (hl p (by simp)) (-95)
    have h2 := ih fun f hf => hl f (by simp [hf])
    steps []

end

/-! ### The message -/

variable {m : Message}

/-- The texts of a message. -/
abbrev Speeches (m : Message) : Texts := fun c => Speech c m

theorem fieldLine_nul (hm : NulFree m) : ∀ f ∈ fields m, cstr (fieldLine f) = fieldLine f := by
  intro f hf
  have := headerText_nul hm
  refine cstr_eq_self fun h => this ?_
  unfold headerText
  simp only [List.mem_append, List.mem_flatten, List.mem_map]
  exact .inl ⟨_, ⟨f, hf, rfl⟩, h⟩

theorem addressHeader_saying {D : Texts} (f : Bytes) (a : Arr MessageAddress) (h : ∀ t ∈ addressLines f a, ∀ c, D c .content (cstr t)) :
    Steps env (Saying D) (addressHeader f a) := by
  unfold addressHeader
  by_cases hc : 0 < a.count
  · rw [if_pos hc]
    constructor
    intro s
    have h1 := arrElems_post (env := env) a s
    by_cases he : elems a = []
    · have : Steps env (Saying D) (arrElems a >>= fun l => do let _ ← addMailHeader f (generateHeaderAddressValues l) (-92); pure ()) := by
        constructor
        intro s
        rw [wp_bind]
        refine wp_mono (wp_and (arrElems_post a s) ((arrElems_steps (R := Saying D) a).run s)) ?_ (fun _ _ h => h.2)
        rintro _ _ ⟨⟨rfl, rfl, hne⟩, _⟩
        exact absurd he (hne hc)
      exact this.run s
    · have : Steps env (Saying D) (arrElems a >>= fun l => do let _ ← addMailHeader f (generateHeaderAddressValues l) (-92); pure ()) := by
        refine elems_steps a _ ?_
        have := content_saying (env := env) (D := D) (d := headerLine f (generateHeaderAddressValues (elems a)))
          (h _ (by unfold addressLines; rw [if_neg he]; simp)) (-92)
        unfold addMailHeader
        steps [addLog_steps]
      exact this.run s
  · rw [if_neg hc]
    steps []

theorem setMailHeaders_saying {D : Texts} (m : Message) (h : ∀ t ∈ headerLines m, ∀ c, D c .content (cstr t)) (hd : ∀ c, D c .cmd dataCmd) :
    Steps env (Saying D) (setMailHeaders m) := by
  have h1 := addressHeader_saying (env := env) (D := D) b!"To" m.to fun t ht => h t (by simp [headerLines, ht])
  have h2 := addressHeader_saying (env := env) (D := D) b!"Cc" m.cc fun t ht => h t (by simp [headerLines, ht])
  have h3 : ∀ e, Steps env (Saying D) (addMailHeader b!"From" (fromHeaderValue m.from) e) := by
    intro e
    have := content_saying (env := env) (D := D) (d := headerLine b!"From" (fromHeaderValue m.from)) (h _ (by simp [headerLines])) e
    unfold addMailHeader
    steps [addLog_steps]
  have h4 : ∀ e, Steps env (Saying D) (sendPtr .content (subjectLine m.subject) e) := fun e => content_saying (h _ (by simp [headerLines])) e
  have h5 : ∀ e, Steps env (Saying D) (sendPtr .content contentTypeLine e) := fun e => content_saying (h _ (by simp [headerLines])) e
  have h6 := cmd_saying (env := env) (D := D) (d := dataCmd) hd (-89) (-90)
  unfold setMailHeaders
  steps [addLog_steps, h1, h2, h3, h4, h5]

theorem headerLines_speech (hm : NulFree m) : ∀ t ∈ headerLines m, ∀ c, Speech c m .content (cstr t) := by
  intro t ht c
  have hc : cstr t = t := mem_flatten_nul (headerLines_flatten m) (headerText_nul hm) t ht
  rw [hc]
  unfold headerLines at ht
  rw [addressLines_eq, addressLines_eq, fromHeaderValue_eq] at ht
  simp only [List.mem_append, List.mem_map, List.mem_cons, List.not_mem_nil, or_false] at ht
  rcases ht with ((rfl | ⟨f, hf, rfl⟩) | ⟨f, hf, rfl⟩) | rfl | rfl
  · exact .header (f := (b!"From", shown m.from)) (by simp [fields])
  · refine .header ?_
    simp only [fields, List.mem_append]
    exact .inl (.inl (.inr hf))
  · refine .header ?_
    simp only [fields, List.mem_append]
    exact .inl (.inr hf)
  · have : subjectLine m.subject = fieldLine (b!"Subject", m.subject) := by simp [subjectLine, fieldLine]
    rw [this]
    exact .header (by simp [fields])
  · exact .lastHeader (f := (b!"Content-Type", b!"multipart/related; boundary=sep")) (by simp [fields])

theorem bind_post_steps {β : Type} {R : St → St → Prop} [Preord R] {p : M β} {f : β → M α} {P : β → Prop} (h : Steps env R p)
    (hp : ∀ s, post env p (fun a _ => P a) s) (hf : ∀ a, P a → Steps env R (f a)) : Steps env R (p >>= f) := by
  constructor
  intro s
  rw [wp_bind]
  refine wp_mono (wp_and (hp s) (h.run s)) ?_ (fun _ _ h => h.2)
  rintro a s1 ⟨h1, h2⟩
  exact wp_mono ((hf a h1).run s1) (fun _ _ h3 => Preord.trans h2 h3) (fun _ _ h3 => Preord.trans h2 h3)

theorem sendBodyText_saying {D : Texts} (t : Bytes) (h : ∀ d, d <:+: t → ∀ c, D c .content (cstr d)) : Steps env (Saying D) (sendBodyText t) := by
  unfold sendBodyText
  refine .ite ?_ ?_
  · refine sendPieces_saying _ fun p hp => h p ?_
    have := bodyPieces_flatten t t.length 0 (by simp)
    rw [List.drop_zero] at this
    rw [← this]
    exact List.infix_of_mem_flatten hp
  · have := content_saying (env := env) (D := D) (d := t) (h t (List.infix_rfl)) (-96)
    steps []

theorem setMailBody_saying (hm : NulFree m) : Steps env (Saying (Speeches m)) (setMailBody m) := by
  unfold setMailBody
  refine .bind (addLog_steps _ _) fun _ => ?_
  refine bind_post_steps (P := fun t => ∃ files, MimeBody m files t ∧ 0 ∉ t) (fullBody_steps m) ?_ ?_
  · intro s
    refine post_mono (fullBody_post m s) ?_
    rintro t s' ⟨⟨files, hr, rfl⟩, _⟩
    exact ⟨files, bodyText_mime hr.1, bodyText_nul hm files⟩
  · rintro t ⟨files, ht, hn⟩
    have h1 : Steps env (Saying (Speeches m)) (sendBodyText t) := by
      refine sendBodyText_saying t fun d hd c => ?_
      rw [cstr_eq_self fun h => hn (hd.subset h)]
      exact .body ht hd
    have h2 := cmd_saying (env := env) (D := Speeches m) (d := endOfData) (fun _ => .endMark) (-97) (-98)
    steps [addLog_steps, sendQuit_steps, h1]

theorem sendMailConnected_saying (hm : NulFree m) : Steps env (Saying (Speeches m)) (sendMailConnected m) := by
  have h1 : Steps env (Saying (Speeches m)) (setMailRecipients m) := by
    unfold setMailRecipients
    have h1 := fun c => mailFromLoop_saying (env := env) (D := Speeches m) (mailFormats m.from) (fun f hf c => by
      rw [mailFormats_eq] at hf
      rw [senderForms_nul (hm.addresses _ (by simp)) f hf]
      exact .sender hf) c
    have h2 := recipientsLoop_saying (env := env) (D := Speeches m) [m.to, m.cc, m.bcc] (fun r hr a ha c => by
      have hmem : a ∈ recipients m := by
        simp only [List.mem_cons, List.not_mem_nil, or_false] at hr
        simp only [recipients, List.mem_append]
        rcases hr with rfl | rfl | rfl
        · exact .inl (.inl ha)
        · exact .inl (.inr ha)
        · exact .inr ha
      have : cstr (rcptTo a) = b!"RCPT TO: <" ++ a.email ++ b!">\r\n" :=
        cstr_eq_self (by have := (hm.addresses a (by simp [hmem])).1; simp [rcptTo, this])
      rw [this]
      exact .recipient hmem)
    steps [h1]
  have h2 := setMailHeaders_saying (env := env) (D := Speeches m) m (headerLines_speech hm) (fun _ => .data)
  have h3 := setMailBody_saying (env := env) hm
  unfold sendMailConnected sendMailRest
  steps [cleanup_steps, Steps.modify]
  exact Saying.same rfl rfl

theorem sendMail_saying (hm : NulFree m) : Steps env (Saying (Speeches m)) (sendMail m) := by
  have h1 := sendMailConnected_saying (env := env) hm
  have h2 := establish_saying (env := env) (D := Speeches m) (fun cr d hd => by
    simp only [List.mem_cons, List.not_mem_nil, or_false] at hd
    rcases hd with rfl | rfl | rfl | rfl | rfl
    · exact .auth rfl (Props.exchange_spec cr .plain) (by simp [Props.exchange])
    · exact .auth rfl (Props.exchange_spec cr .login) (by simp [Props.exchange])
    · exact .auth rfl (Props.exchange_spec cr .login) (by simp [Props.exchange])
    · exact .auth rfl (Props.exchange_spec cr .login) (by simp [Props.exchange])
    · exact .auth rfl (Props.exchange_spec cr .xoauth2) (by simp [Props.exchange])) (fun _ => .opening (by decide)) (fun _ => .opening (by decide))
  unfold sendMail
  steps []

end Verif.Proofs
