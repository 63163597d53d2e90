import Verif.Proofs.ToldMail
/-!
# What an error code tells: the message
-/
namespace Verif.Proofs
open Verif Verif.Model Verif.Spec

variable {env : Env} {α : Type} {K : Kind → Prop}

/-! ### Sender and recipients -/

theorem mailFormats_prefix (f : MessageAddress) : ∀ d ∈ mailFormats f, b!"MAIL FROM: " <+: cstr d := by
  intro d hd
  simp only [mailFormats, List.mem_cons, List.not_mem_nil, or_false] at hd
  rcases hd with rfl | rfl | rfl
  · have : b!"MAIL FROM: <" ++ f.email ++ b!">\r\n" = b!"MAIL FROM: " ++ (b!"<" ++ f.email ++ b!">\r\n") := by simp
    rw [this]; exact prefix_cstr (by decide) _
  · have : b!"MAIL FROM: <" ++ f.displayName ++ b!" " ++ f.email ++ b!">\r\n" = b!"MAIL FROM: " ++ (b!"<" ++ f.displayName ++ b!" " ++ f.email ++ b!">\r\n") := by simp
    rw [this]; exact prefix_cstr (by decide) _
  · rw [List.append_assoc]; exact prefix_cstr (by decide) _

theorem mailFromLoop_tells (l : List Bytes) (hl : ∀ d ∈ l, b!"MAIL FROM: " <+: cstr d) (last : Int) (h0 : 0 ≤ last) : TellsCause env K (mailFromLoop last l) := by
  induction l generalizing last with
  | nil => exact tells_pure h0
  | cons f l ih =>
    unfold mailFromLoop
    refine tells_bind (addLog_steps _ _) fun _ s hk => ?_
    rw [wp_bind]
    refine wp_mono (wp_and (sendPtrFb_tells (e := -85) (t := -86) (K := K) (P := (b!"MAIL FROM: " <+: ·)) (by decide) (hl f (by simp)) (fun _ _ _ h => .mailFrom h)
      (fun _ _ _ h => .mailFromLate h) s hk) ((sendPtrFb_steps' (R := Onward) f _ _).run s)) ?_ (fun _ _ _ => trivial)
    rintro code s2 ⟨ht, hx⟩
    rw [wp_ite]
    refine ⟨fun _ => told_good (by decide) hx.2.2, fun _ => (wp_ite ..).mpr ⟨fun _ => ht, fun h => ?_⟩⟩
    have h := Decidable.not_not.mp h
    exact wp_mono (ih (fun d hd => hl d (by simp [hd])) code (by omega) s2 (by rw [hx.2.1]; exact hk)) (fun _ _ h => h.after hx) fun _ _ h => h

/-- Something that names a recipient, or says nothing. -/
def Rcpt (e : Ev) : Prop := OnlySays .cmd (b!"RCPT TO: " <+: ·) e

theorem closing_only {k P} {e : Ev} (h : IsClosing e) : OnlySays k P e := by
  rintro k' ch d r rfl
  cases k' <;> simp_all [IsClosing]

theorem unsaid_only {k P} {e : Ev} (h : ¬ IsSend e) : OnlySays k P e := by
  rintro k' ch d r rfl
  exact absurd trivial h

/-- All that happens in a command with its reply. -/
theorem FbOut.only {d : Bytes} {e t : Int} {s s' : St} {code : Int} (h : FbOut d e t s s' code) {P : Bytes → Prop} (hp : P (cstr d)) :
    NewEvents (OnlySays .cmd P) s s' := by
  have one : ∀ ch r, OnlySays .cmd P (.send .cmd ch (cstr d) r) := by
    rintro ch r k' ch' d' r' h
    injection h with h1 h2 h3
    subst h1; subst h3
    exact .inr ⟨rfl, hp⟩
  cases h with
  | failed ch n h =>
    obtain ⟨-, -, post, he, hc⟩ := h
    refine ⟨.send .cmd ch (cstr d) (.fail n) :: post, by rw [he]; simp [St.snoc], ?_⟩
    intro x hx
    rcases List.mem_cons.mp hx with rfl | hx
    · exact one _ _
    · exact closing_only (hc x hx)
  | late ch n mid post hx hv hc =>
    refine ⟨_, hx, ?_⟩
    intro x hx
    simp only [List.mem_cons, List.mem_append] at hx
    rcases hx with rfl | hx | hx
    · exact one _ _
    · exact unsaid_only (hv.unsaid x hx)
    · exact closing_only (hc x hx)
  | garbled ch n mid post y hx hu hd hr h0 hn hc =>
    refine ⟨_, hx, ?_⟩
    intro x hx
    simp only [List.mem_cons, List.mem_append] at hx
    rcases hx with rfl | hx | hx
    · exact one _ _
    · exact unsaid_only (hu x hx)
    · exact closing_only (hc x hx)
  | answered ch n mid y hx hu hd hr h0 hc hch =>
    refine ⟨_, hx, ?_⟩
    intro x hx
    simp only [List.mem_cons, List.mem_append] at hx
    rcases hx with rfl | hx
    · exact one _ _
    · exact unsaid_only (hu x hx)

/-- What is known after some recipients: a cause that stays true while recipients are named. -/
def RcptTold (ret : Int) (s s' : St) : Prop :=
  Onward s s' ∧ ∃ evs, s'.hist = s.hist ++ evs ∧ (0 ≤ ret ∨ Garbled evs ∨
    (ret = -87 ∧ SendFailed .cmd (b!"RCPT TO: " <+: ·) Rcpt evs) ∨ (ret = -88 ∧ NoReply s.client.timeout (b!"RCPT TO: " <+: ·) Rcpt evs))

theorem RcptTold.before {ret : Int} {a b c : St} (h : RcptTold ret a b) (ho : Onward b c) (h' : NewEvents Rcpt b c) : RcptTold ret a c := by
  obtain ⟨hx, evs, he, h⟩ := h
  obtain ⟨y, hy, hr⟩ := h'
  refine ⟨hx.trans ho, evs ++ y, by rw [hy, he, List.append_assoc], ?_⟩
  have both : ∀ {post : Hist}, (∀ x ∈ post, Rcpt x) → ∀ x ∈ post ++ y, Rcpt x := by
    intro post hp x hx
    rcases List.mem_append.mp hx with hx | hx
    · exact hp x hx
    · exact hr x hx
  rcases h with h | h | ⟨h, pre, ch, d, e, post, rfl, hp, hc⟩ | ⟨h, pre, ch, d, n, mid, post, rfl, hp, hv, hc⟩
  · exact .inl h
  · exact .inr (.inl (by simpa using Garbled.mono (pre := []) (post := y) h))
  · exact .inr (.inr (.inl ⟨h, pre, ch, d, e, post ++ y, by simp, hp, both hc⟩))
  · exact .inr (.inr (.inr ⟨h, pre, ch, d, n, mid, post ++ y, by simp, hp, hv, both hc⟩))

theorem FbOut.rcpt {d : Bytes} {s s' : St} {code : Int} (hp : b!"RCPT TO: " <+: cstr d) (hx : Onward s s') (h : FbOut d (-87) (-88) s s' code) : RcptTold code s s' := by
  refine ⟨hx, ?_⟩
  cases h with
  | failed ch n h =>
    obtain ⟨evs, he, hf⟩ := shut_failed h (P := (b!"RCPT TO: " <+: ·)) hp
    exact ⟨evs, he, .inr (.inr (.inl ⟨rfl, SendFailed.imp (fun _ h => h) (fun _ => closing_only) hf⟩))⟩
  | late ch n mid post hh hv hc => exact ⟨_, hh, .inr (.inr (.inr ⟨rfl, [], ch, _, n, mid, post, rfl, hp, hv, fun x hx => closing_only (hc x hx)⟩))⟩
  | garbled ch n mid post x hh hu hd hr h0 hn hc =>
    exact ⟨_, hh, .inr (.inl ⟨[.send .cmd ch (cstr d) (.sent n)], mid, post, x, by simp, hu, hd, hr, fun c => extract_negative h0 (by omega) c⟩)⟩
  | answered ch n mid x hh hu hd hr h0 hc hch =>
    refine ⟨_, hh, ?_⟩
    rcases Int.lt_or_le (extractReturnCode (some x)) 0 with hn | hn
    · exact .inr (.inl ⟨[.send .cmd ch (cstr d) (.sent n)], mid, [], x, by simp, hu, hd, hr, fun c => extract_negative h0 hn c⟩)
    · exact .inl hn

theorem rcptTo_prefix (a : MessageAddress) : b!"RCPT TO: " <+: cstr (rcptTo a) := by
  have : rcptTo a = b!"RCPT TO: " ++ (b!"<" ++ a.email ++ b!">\r\n") := by unfold rcptTo; simp
  rw [this]; exact prefix_cstr (by decide) _

theorem RcptTold.later {ret : Int} {a b c : St} (h : Onward a b) (h' : RcptTold ret b c) : RcptTold ret a c := by
  obtain ⟨ho, y, hy, h'⟩ := h'
  obtain ⟨x, hx⟩ := h.2.2
  refine ⟨h.trans ho, x ++ y, by rw [hy, hx, List.append_assoc], ?_⟩
  rw [h.1] at h'
  rcases h' with h | h | ⟨h, h'⟩ | ⟨h, h'⟩
  · exact .inl h
  · exact .inr (.inl (by simpa using Garbled.mono (pre := x) (post := []) h))
  · exact .inr (.inr (.inl ⟨h, SendFailed.after x h'⟩))
  · exact .inr (.inr (.inr ⟨h, NoReply.after x h'⟩))

theorem RcptTold.told {ret : Int} {a b : St} (h : RcptTold ret a b) : Told ret a b := by
  obtain ⟨-, evs, he, h⟩ := h
  refine ⟨evs, he, ?_⟩
  rcases h with h | h | ⟨rfl, h⟩ | ⟨rfl, h⟩
  · exact .inl h
  · exact .inr (.inl h)
  · exact .inr (.inr (.rcptTo h))
  · exact .inr (.inr (.rcptToLate h))

theorem addMailRecipients_told (l : List MessageAddress) (ret : Int) (s0 s : St) (hl : RcptTold ret s0 s) :
    wp env (addMailRecipients ret l) (fun code s' => RcptTold code s0 s') (fun _ _ => True) s := by
  induction l generalizing ret s with
  | nil => exact hl
  | cons f l ih =>
    unfold addMailRecipients
    rw [wp_bind]
    refine wp_mono ((addLog_still _ _).run s) (fun _ s1 h1 => ?_) (fun _ _ _ => trivial)
    rw [wp_bind]
    refine wp_mono (wp_and (sendPtrFb_fb (rcptTo f) (-87) (-88) s1 (by decide)) ((sendPtrFb_steps' (R := Onward) _ _ _).run s1)) ?_ (fun _ _ _ => trivial)
    rintro code s2 ⟨hf, h2⟩
    refine ih _ s2 ?_
    split
    · exact ((hf.rcpt (rcptTo_prefix f) h2).later h1.onward).later hl.1
    · refine hl.before (h1.onward.trans h2) ?_
      obtain ⟨y, hy, hr⟩ := hf.only (P := (b!"RCPT TO: " <+: ·)) (rcptTo_prefix f)
      exact ⟨y, by rw [hy, h1.2.2], hr⟩

theorem recipientsLoop_tells (l : List (Arr MessageAddress)) : TellsCause env K (recipientsLoop l) := by
  induction l with
  | nil => exact tells_pure (Int.le_refl 0)
  | cons a l ih =>
    unfold recipientsLoop
    refine tells_ite ih (tells_bind (arrElems_steps _) fun as => ?_)
    intro s hk
    rw [wp_bind]
    refine wp_mono (addMailRecipients_told as 250 s s ⟨.same rfl rfl rfl, [], by simp, .inl (by decide)⟩) ?_ (fun _ _ _ => trivial)
    intro code s1 h1
    rw [wp_ite]
    exact ⟨fun _ => h1.told, fun _ => wp_mono (ih s1 (by rw [h1.1.2.1]; exact hk)) (fun _ _ h => h.after h1.1) (fun _ _ h => h)⟩

theorem setMailRecipients_tells (m : Message) : TellsCause env K (setMailRecipients m) := by
  unfold setMailRecipients
  exact tells_test (mailFromLoop_tells _ (mailFormats_prefix _) 0 (Int.le_refl 0)) (mailFromLoop_steps _ _) (recipientsLoop_tells _)

/-! ### Headers -/

/-- Nothing happens to the connection, nothing is sent. -/
theorem Deaf.unsaid {s s' : St} (h : Deaf s s') : NewEvents (fun e => ¬ IsSend e) s s' := by
  obtain ⟨-, x, hx, hd⟩ := h
  exact ⟨x, hx, fun e he => quiet_unsaid (deaf_quiet (hd e he))⟩

theorem Deaf.onward {s s' : St} (h : Deaf s s') : Onward s s' := by
  obtain ⟨hc, x, hx, -⟩ := h
  unfold SameConn at hc
  exact ⟨by rw [hc], by rw [hc], x, hx⟩

/-- What is known while the To and Cc headers are sent: all went well, or one of them failed. -/
def Middle (s s' : St) : Prop :=
  Onward s s' ∧ (CanSend s'.client ∨ ∃ evs, s'.hist = s.hist ++ evs ∧ SendFailed .content MiddleHeader (OnlySays .content MiddleHeader) evs)

theorem middle_grow {a b c : St} (h : ∃ evs, b.hist = a.hist ++ evs ∧ SendFailed .content MiddleHeader (OnlySays .content MiddleHeader) evs)
    (h' : NewEvents (OnlySays .content MiddleHeader) b c) : ∃ evs, c.hist = a.hist ++ evs ∧ SendFailed .content MiddleHeader (OnlySays .content MiddleHeader) evs := by
  obtain ⟨x, hx, pre, ch, d, e, post, rfl, hp, hc⟩ := h
  obtain ⟨y, hy, hr⟩ := h'
  refine ⟨pre ++ .send .content ch d (.fail e) :: post ++ y, by rw [hy, hx, List.append_assoc], pre, ch, d, e, post ++ y, by simp, hp, ?_⟩
  intro x hx
  rcases List.mem_append.mp hx with hx | hx
  · exact hc x hx
  · exact hr x hx

theorem PtrOut.onward {k d e} {s s' : St} {code : Int} (h : PtrOut k d e s s' code) : Onward s s' := by
  cases h with
  | sent ch n hc h => subst h; exact .one
  | failed ch n h =>
    obtain ⟨ht, hk, x, hx, -⟩ := h
    exact ⟨ht, hk, _, by rw [hx]; simp [St.snoc]; rfl⟩
  | nowhere hc h =>
    obtain ⟨ht, hk, x, hx, -⟩ := h
    exact ⟨ht, hk, x, hx⟩

theorem PtrOut.only {d e} {s s' : St} {code : Int} (h : PtrOut .content d e s s' code) {P : Bytes → Prop} (hp : P (cstr d)) : NewEvents (OnlySays .content P) s s' := by
  have one : ∀ ch r, OnlySays .content P (.send .content ch (cstr d) r) := by
    rintro ch r k' ch' d' r' h
    injection h with h1 h2 h3
    subst h1; subst h3
    exact .inr ⟨rfl, hp⟩
  cases h with
  | sent ch n hc h => subst h; exact .one (one _ _)
  | failed ch n h =>
    obtain ⟨-, -, post, he, hc⟩ := h
    refine ⟨.send .content ch (cstr d) (.fail n) :: post, by rw [he]; simp [St.snoc], ?_⟩
    intro x hx
    rcases List.mem_cons.mp hx with rfl | hx
    · exact one _ _
    · exact closing_only (hc x hx)
  | nowhere hc h =>
    obtain ⟨-, -, post, he, hc⟩ := h
    exact ⟨post, he, fun x hx => closing_only (hc x hx)⟩

theorem Ext.failed {s0 s s' : St} (ho : Ext s0 s) {k ch d n} (h : OnlyCloses (St.snoc s (.send k ch d (.fail n))) s') {P : Bytes → Prop} (hp : P d) {a : Ev → Prop}
    (ha : ∀ e, IsClosing e → a e) : ∃ evs, s'.hist = s0.hist ++ evs ∧ SendFailed k P a evs := by
  obtain ⟨x, hx⟩ := ho
  obtain ⟨y, hy, hf⟩ := shut_failed h hp
  exact ⟨x ++ y, by rw [hy, hx, List.append_assoc], SendFailed.after x (SendFailed.imp (fun _ h => h) ha hf)⟩

/-- One of the middle headers, whatever its result. -/
theorem middle_send {s0 s : St} (h : Middle s0 s) {d : Bytes} (hd : MiddleHeader (cstr d)) (e : Int) :
    wp env (sendPtr .content d e) (fun code s' => Middle s0 s' ∧ (code = 0 → e ≠ 0 → CanSend s'.client) ∧
      (code ≠ 0 → code = e ∧ ∃ evs, s'.hist = s0.hist ++ evs ∧ SendFailed .content MiddleHeader (OnlySays .content MiddleHeader) evs)) (fun _ _ => True) s := by
  refine wp_mono (sendPtr_ptr .content d e s) ?_ (fun _ _ _ => trivial)
  intro code s1 h1
  have ho : Onward s0 s1 := h.1.trans h1.onward
  have hn := h1.only hd
  have bad : (∃ evs, s1.hist = s0.hist ++ evs ∧ SendFailed .content MiddleHeader (OnlySays .content MiddleHeader) evs) → code = e →
      Middle s0 s1 ∧ (code = 0 → e ≠ 0 → CanSend s1.client) ∧
      (code ≠ 0 → code = e ∧ ∃ evs, s1.hist = s0.hist ++ evs ∧ SendFailed .content MiddleHeader (OnlySays .content MiddleHeader) evs) :=
    fun hb he => ⟨⟨ho, .inr hb⟩, fun h0 hne => absurd (he ▸ h0) hne, fun _ => ⟨he, hb⟩⟩
  cases h1 with
  | sent ch n hc hs =>
    subst hs
    exact ⟨⟨ho, .inl hc⟩, fun _ _ => hc, fun h => absurd rfl h⟩
  | failed ch n hs => exact bad (Ext.failed h.1.2.2 hs hd fun _ => closing_only) rfl
  | nowhere hc hs =>
    rcases h.2 with h2 | h2
    · exact absurd h2 hc
    · exact bad (middle_grow h2 hn) rfl

theorem Middle.deaf {s0 s s' : St} (h : Middle s0 s) (hd : Deaf s s') : Middle s0 s' := by
  refine ⟨h.1.trans hd.onward, ?_⟩
  rcases h.2 with h2 | h2
  · exact .inl (h2.same hd.1)
  · obtain ⟨x, hx, hu⟩ := hd.unsaid
    exact .inr (middle_grow h2 ⟨x, hx, fun e he => unsaid_only (hu e he)⟩)

theorem addressHeader_middle {s0 s : St} (h : Middle s0 s) {field : Bytes} (hf : ∀ v, MiddleHeader (cstr (headerLine field v))) (a : Arr MessageAddress) :
    wp env (addressHeader field a) (fun _ s' => Middle s0 s') (fun _ _ => True) s := by
  unfold addressHeader addMailHeader
  rw [wp_ite]
  refine ⟨fun _ => ?_, fun _ => h⟩
  rw [wp_bind]
  refine wp_mono ((arrElems_steps (R := Deaf) a).run s) (fun l s1 h1 => ?_) (fun _ _ _ => trivial)
  simp only [wp_bind]
  refine wp_mono ((addLog_steps (R := Deaf) _ _).run s1) (fun _ s2 h2 => ?_) (fun _ _ _ => trivial)
  exact wp_mono (middle_send ((h.deaf h1).deaf h2) (hf _) _) (fun _ _ h => h.1) fun _ _ h => h

theorem SameConn.tk {c c' : Client} (h : SameConn c c') : c'.timeout = c.timeout ∧ c'.kind = c.kind := by
  unfold SameConn at h; rw [h]; exact ⟨rfl, rfl⟩

/-- The last header is the last thing sent. -/
def HeadersSent (h : Hist) : Prop :=
  ∃ pre ch n mid, h = pre ++ .send .content ch b!"Content-Type: multipart/related; boundary=sep\r\n\r\n" (.sent n) :: mid ∧ ∀ x ∈ mid, ¬ IsSend x

theorem FbOut.zero {d : Bytes} {e t : Int} {s s' : St} (h : FbOut d e t s s' 0) (he : e < 0) (ht : t < 0) : ∃ evs, s'.hist = s.hist ++ evs ∧ Garbled evs := by
  generalize hc : (0 : Int) = code at h
  cases h with
  | failed ch n h => omega
  | late ch n mid post hh hv hc => omega
  | garbled ch n mid post x hh hu hd hr h0 hn hc => omega
  | answered ch n mid x hh hu hd hr h0 hc hch =>
    exact ⟨_, hh, [.send .cmd ch (cstr d) (.sent n)], mid, [], x, by simp, hu, hd, hr, fun c => extract_nonpos h0 (by omega) c⟩

theorem Ext.garbled {a b c : St} (h : Ext a b) (h' : ∃ evs, c.hist = b.hist ++ evs ∧ Garbled evs) : ∃ evs, c.hist = a.hist ++ evs ∧ Garbled evs := by
  obtain ⟨x, hx⟩ := h
  obtain ⟨y, hy, hg⟩ := h'
  exact ⟨x ++ y, by rw [hy, hx, List.append_assoc], by simpa using Garbled.mono (pre := x) (post := []) hg⟩

theorem header_prefix {f : Bytes} (h : 0 ∉ f) (v : Bytes) : f ++ b!": " <+: cstr (headerLine f v) := by
  unfold headerLine
  rw [List.append_assoc]
  refine prefix_cstr ?_ _
  simp [h]

/-- The headers: all were sent, the last one at the very end; or the code tells. -/
theorem setMailHeaders_told (m : Message) (s : St) :
    wp env (setMailHeaders m) (fun code s' => Told code s s' ∧ Onward s s' ∧ (code = 0 →
      (CanSend s'.client ∧ ∃ evs, s'.hist = s.hist ++ evs ∧ HeadersSent evs) ∨ ∃ evs, s'.hist = s.hist ++ evs ∧ Garbled evs)) (fun _ _ => True) s := by
  unfold setMailHeaders
  rw [wp_bind]
  refine wp_mono ((addLog_steps (R := Deaf) _ _).run s) (fun _ s1 h1 => ?_) (fun _ _ _ => trivial)
  rw [wp_bind]
  refine wp_mono (wp_and (sendPtrFb_fb dataCmd (-89) (-90) s1 (by decide)) ((sendPtrFb_steps' (R := Onward) _ _ _).run s1)) ?_ (fun _ _ _ => trivial)
  rintro code s2 ⟨hf, h2⟩
  have ho2 : Onward s s2 := h1.onward.trans h2
  have ht : Told code s s2 :=
    (hf.told (P := (· = b!"DATA\r\n")) (by decide) (fun _ h => .data h) (fun _ h => .dataLate h)).after h1.onward
  rw [wp_ite]
  refine ⟨fun hne => ⟨ht, ho2, fun h0 => ?_⟩, fun h354 => ?_⟩
  · subst h0
    exact .inr (Ext.garbled h1.onward.2.2 (hf.zero (by decide) (by decide)))
  have h354 := Decidable.not_not.mp h354
  -- DATA was answered with 354
  obtain ⟨ch, n, mid, h2h, hu2, hc2, hch⟩ : ∃ ch n mid, s2.hist = s1.hist ++ .send .cmd ch b!"DATA\r\n" (.sent n) :: mid ∧ (∀ e ∈ mid, ¬ IsSend e) ∧
      SameConn s1.client s2.client ∧ (s1.client.bio = none → ch = .raw s1.client.sock) := by
    cases hf with
    | failed ch n h => omega
    | late ch n mid post hh hv hc => omega
    | garbled ch n mid post x hh hu hd hr h0 hn hc => omega
    | answered ch n mid x hh hu hd hr h0 hc hch => exact ⟨ch, n, mid, hh, hu, hc, hch⟩
  unfold addMailHeader
  simp only [wp_bind]
  refine wp_mono ((addLog_steps (R := Deaf) _ _).run s2) (fun _ s3 h3 => ?_) (fun _ _ _ => trivial)
  have ho3 := ho2.trans h3.onward
  refine wp_mono (sendPtr_ptr .content _ (-91) s3) ?_ (fun _ _ _ => trivial)
  intro code s4 h4
  have ho4 := ho3.trans h4.onward
  rw [wp_ite]
  refine ⟨fun hne => ⟨?_, ho4, fun h => absurd h hne⟩, fun h0 => ?_⟩
  · cases h4 with
    | sent ch n hc h => exact absurd rfl hne
    | failed ch n h =>
      obtain ⟨evs, he, hf⟩ := Ext.failed ho3.2.2 h (P := (b!"From: " <+: ·)) (header_prefix (f := b!"From") (by decide) _) (fun _ h => h)
      exact ⟨evs, he, .inr (.inr (.headerFrom hf))⟩
    | nowhere hc h =>
      have hsc : SameConn s1.client s3.client := hc2.trans h3.1
      have hb : s1.client.bio = none ∧ s1.client.kind ≠ .smtp := by
        unfold CanSend at hc
        unfold SameConn at hsc
        rw [hsc] at hc
        simp only [not_or, Bool.or_eq_true, Decidable.not_not, beq_iff_eq] at hc
        exact ⟨hc.2, hc.1.2⟩
      have ho1 := h1.onward
      obtain ⟨-, x1, hx1, -⟩ := h1
      obtain ⟨x3, hx3, hu3⟩ := h3.unsaid
      obtain ⟨-, -, post, hp, hcl⟩ := h
      refine ⟨x1 ++ .send .cmd ch b!"DATA\r\n" (.sent n) :: (mid ++ x3 ++ post), by rw [hp, hx3, h2h, hx1]; simp, .inr (.inr (.noTls ⟨?_, x1, s1.client.sock, n, mid ++ x3, post, ?_, ?_, hcl⟩))⟩
      · rw [← ho1.2.1]; exact hb.2
      · rw [hch hb.1]
      · intro e he
        rcases List.mem_append.mp he with he | he
        · exact hu2 e he
        · exact hu3 e he
  have h0 := Decidable.not_not.mp h0
  have hs4 : CanSend s4.client := by
    cases h4 with
    | sent ch n hc h => subst h; exact hc
    | failed ch n h => omega
    | nowhere hc h => omega
  have m4 : Middle s4 s4 := ⟨.same rfl rfl rfl, .inl hs4⟩
  simp only [wp_bind]
  refine wp_mono (addressHeader_middle m4 (fun v => .inl (header_prefix (f := b!"To") (by decide) v)) _) (fun _ s5 m5 => ?_) (fun _ _ h => h)
  refine wp_mono (addressHeader_middle m5 (fun v => .inr (.inl (header_prefix (f := b!"Cc") (by decide) v))) _) (fun _ s6 m6 => ?_) (fun _ _ h => h)
  refine wp_mono ((addLog_steps (R := Deaf) _ _).run s6) (fun _ s7 h7 => ?_) (fun _ _ _ => trivial)
  have hsub : MiddleHeader (cstr (subjectLine m.subject)) := by
    unfold subjectLine
    rw [List.append_assoc]
    exact .inr (.inr (prefix_cstr (by decide) _))
  refine wp_mono (middle_send (m6.deaf h7) hsub (-93)) ?_ (fun _ _ h => h)
  rintro code s8 ⟨m8, hok, hbad⟩
  rw [wp_ite]
  refine ⟨fun hne => ?_, fun h0 => ?_⟩
  · obtain ⟨rfl, evs, he, hf⟩ := hbad hne
    exact ⟨Told.after ho4 ⟨evs, he, .inr (.inr (.headerMiddle hf))⟩, ho4.trans m8.1, fun h => absurd h hne⟩
  have hs8 := hok (Decidable.not_not.mp h0) (by decide)
  simp only [wp_bind]
  refine wp_mono ((addLog_steps (R := Deaf) _ _).run s8) (fun _ s9 h9 => ?_) (fun _ _ _ => trivial)
  have ho9 := (ho4.trans m8.1).trans h9.onward
  have hs9 := hs8.same h9.1
  refine wp_mono (sendPtr_ptr .content contentTypeLine (-94) s9) ?_ (fun _ _ _ => trivial)
  intro code s10 h10
  have ho10 := ho9.trans h10.onward
  have hct : cstr contentTypeLine = b!"Content-Type: multipart/related; boundary=sep\r\n\r\n" := by decide
  rw [wp_ite]
  refine ⟨fun hne => ⟨?_, ho10, fun h => absurd h hne⟩, fun h0 => ⟨told_good (Int.le_refl 0) ho10.2.2, ho10, fun _ => .inl ?_⟩⟩
  · cases h10 with
    | sent ch n hc h => exact absurd rfl hne
    | failed ch n h =>
      obtain ⟨evs, he, hf⟩ := Ext.failed ho9.2.2 h (P := (b!"Content-Type: " <+: ·)) (by rw [hct]; decide) (fun _ h => h)
      exact ⟨evs, he, .inr (.inr (.contentType hf))⟩
    | nowhere hc h => exact absurd hs9 hc
  · have h0 := Decidable.not_not.mp h0
    cases h10 with
    | sent ch n hc h =>
      subst h
      obtain ⟨x, hx⟩ := ho9.2.2
      exact ⟨hc, x ++ [.send .content ch (cstr contentTypeLine) (.sent n)], by simp [St.snoc, hx], x, ch, n, [], by rw [hct], by simp⟩
    | failed ch n h => omega
    | nowhere hc h => omega

/-! ### The body -/

theorem cstr_length_le (d : Bytes) : (cstr d).length ≤ d.length := by
  unfold cstr
  exact (List.takeWhile_sublist _).length_le


/-- Sending the pieces. -/
theorem sendPieces_told (l : List Bytes) (hl : ∀ p ∈ l, p.length ≤ 512) (s : St) (hs : CanSend s.client) :
    wp env (sendPieces l) (fun code s' => Onward s s' ∧ ((code = 0 ∧ CanSend s'.client) ∨ (code = -95 ∧ ∃ mid ch d e post,
      s'.hist = s.hist ++ (mid ++ .send .content ch d (.fail e) :: post) ∧ (∀ x ∈ mid, PieceSent x) ∧ d.length ≤ 512 ∧ ∀ x ∈ post, IsClosing x))) (fun _ _ => True) s := by
  induction l generalizing s with
  | nil => exact ⟨.same rfl rfl rfl, .inl ⟨rfl, hs⟩⟩
  | cons p l ih =>
    unfold sendPieces
    rw [wp_bind]
    have hp : (cstr p).length ≤ 512 := Nat.le_trans (cstr_length_le p) (hl p (by simp))
    refine wp_mono (sendPtr_ptr .content p (-95) s) ?_ (fun _ _ _ => trivial)
    intro code s1 h1
    have ho := h1.onward
    rw [wp_ite]
    refine ⟨fun hne => ⟨ho, .inr ?_⟩, fun h0 => ?_⟩
    · cases h1 with
      | sent ch n hc h => exact absurd rfl hne
      | failed ch n h =>
        obtain ⟨-, -, post, he, hc⟩ := h
        exact ⟨rfl, [], ch, cstr p, n, post, by rw [he]; simp [St.snoc], by simp, hp, hc⟩
      | nowhere hc h => exact absurd hs hc
    · have h0 := Decidable.not_not.mp h0
      cases h1 with
      | failed ch n h => omega
      | nowhere hc h => omega
      | sent ch n hc h =>
        subst h
        refine wp_mono (ih (fun p hp => hl p (by simp [hp])) _ hc) ?_ (fun _ _ h => h)
        rintro code s2 ⟨ho2, h2⟩
        refine ⟨ho.trans ho2, ?_⟩
        rcases h2 with h2 | ⟨hc2, mid, ch', d, e, post, he, hm, hd, hcl⟩
        · exact .inl h2
        · refine .inr ⟨hc2, .send .content ch (cstr p) (.sent n) :: mid, ch', d, e, post, by rw [he]; simp [St.snoc], ?_, hd, hcl⟩
          intro x hx
          rcases List.mem_cons.mp hx with rfl | hx
          · rintro k ch'' d' r h
            injection h with h1 h2 h3 h4
            subst h1; subst h3; subst h4
            exact ⟨rfl, hp, n, rfl⟩
          · exact hm x hx

theorem fullBody_prefix (m : Message) (s : St) : wp env (fullBody m) (fun body _ => b!"--sep\r\n" <+: body) (fun _ _ => True) s := by
  have hb : ∀ x, b!"--sep\r\n" <+: bodyPart m.mime m.body ++ x := by
    intro x
    have : bodyPart m.mime m.body ++ x = b!"--sep\r\n" ++ (b!"Content-Type: " ++ m.mime ++ b!"; charset=UTF-8\r\n\r\n" ++ m.body ++ b!"\r\n" ++ x) := by
      unfold bodyPart; simp
    rw [this]; exact List.prefix_append _ _
  unfold fullBody
  rw [wp_bind]
  refine wp_mono ((arrElems_steps (R := Onward) _).run s) (fun l s1 h1 => ?_) (fun _ _ _ => trivial)
  rw [wp_ite]
  refine ⟨fun _ => ?_, fun _ => by simpa using hb []⟩
  rw [wp_bind]
  exact wp_mono (Steps.run (R := Onward) (createAttachmentsText_steps l) s1) (fun t s2 h2 => hb t) (fun _ _ _ => trivial)

/-- The body, after all headers were sent. -/
theorem setMailBody_told (m : Message) (s0 s : St) (ho : Onward s0 s) (hs : CanSend s.client) {evs : Hist} (he : s.hist = s0.hist ++ evs) (hh : HeadersSent evs) :
    wp env (setMailBody m) (fun code s' => Told code s0 s') (fun _ _ => True) s := by
  unfold setMailBody
  rw [wp_bind]
  refine wp_mono ((addLog_steps (R := Deaf) _ _).run s) (fun _ s1 h1 => ?_) (fun _ _ _ => trivial)
  rw [wp_bind]
  refine wp_mono (wp_and (fullBody_prefix m s1) ((fullBody_steps (R := Deaf) m).run s1)) ?_ (fun _ _ _ => trivial)
  rintro body s2 ⟨hb, h2⟩
  have ho2 := (ho.trans h1.onward).trans h2.onward
  have hs2 := (hs.same h1.1).same h2.1
  obtain ⟨evs2, he2, hh2⟩ : ∃ evs, s2.hist = s0.hist ++ evs ∧ HeadersSent evs := by
    obtain ⟨pre, ch, n, mid, rfl, hm⟩ := hh
    obtain ⟨x1, hx1, hu1⟩ := h1.unsaid
    obtain ⟨x2, hx2, hu2⟩ := h2.unsaid
    refine ⟨pre ++ .send .content ch b!"Content-Type: multipart/related; boundary=sep\r\n\r\n" (.sent n) :: (mid ++ x1 ++ x2), by rw [hx2, hx1, he]; simp, pre, ch, n, mid ++ x1 ++ x2, rfl, ?_⟩
    intro x hx
    simp only [List.mem_append] at hx
    rcases hx with (hx | hx) | hx
    · exact hm x hx
    · exact hu1 x hx
    · exact hu2 x hx
  have sent : wp env (sendBodyText body) (fun code s' => Onward s2 s' ∧ ((code = 0 ∧ CanSend s'.client) ∨ (code ≠ 0 ∧ Told code s0 s'))) (fun _ _ => True) s2 := by
    obtain ⟨pre, ch, n, mid, rfl, hm⟩ := hh2
    unfold sendBodyText
    rw [wp_ite]
    refine ⟨fun _ => ?_, fun hlen => ?_⟩
    · refine wp_mono (sendPieces_told _ (fun p hp => (bodyPieces_size _ _ _ p hp).2) s2 hs2) ?_ (fun _ _ h => h)
      rintro code s3 ⟨ho3, h3 | ⟨rfl, mid', ch', d, e, post, h3h, hm', hd, hcl⟩⟩
      · exact ⟨ho3, .inl h3⟩
      · refine ⟨ho3, .inr ⟨by decide, _, (by rw [h3h, he2, List.append_assoc]), .inr (.inr (.bodyPart ⟨pre, ch, n, mid ++ mid', ch', d, e, post, by simp, ?_, hd, hcl⟩))⟩⟩
        intro x hx
        rcases List.mem_append.mp hx with hx | hx
        · rintro k ch'' d' r rfl
          exact absurd trivial (hm _ hx)
        · exact hm' x hx
    · rw [wp_bind]
      refine wp_mono (sendPtr_ptr .content body (-96) s2) ?_ (fun _ _ _ => trivial)
      intro code s3 h3
      have ho3 := h3.onward
      rw [wp_ite]
      refine ⟨fun hne => ⟨ho3, .inr ⟨hne, ?_⟩⟩, fun h0 => ⟨ho3, .inl ⟨rfl, ?_⟩⟩⟩
      · cases h3 with
        | sent ch n hc h => exact absurd rfl hne
        | nowhere hc h => exact absurd hs2 hc
        | failed ch' n' h =>
          obtain ⟨-, -, post, h3h, hcl⟩ := h
          refine ⟨_, (by rw [h3h]; simp [St.snoc, he2]), .inr (.inr (.body ⟨pre, ch, n, mid, ch', cstr body, n', post, rfl, hm, ⟨?_, ?_⟩, hcl⟩))⟩
          · obtain ⟨y, rfl⟩ := hb
            exact prefix_cstr (by decide) _
          · exact Nat.le_trans (cstr_length_le body) (by omega)
      · have h0 := Decidable.not_not.mp h0
        cases h3 with
        | failed ch n h => omega
        | nowhere hc h => omega
        | sent ch n hc h => subst h; exact hc
  rw [wp_bind]
  refine wp_mono sent ?_ (fun _ _ h => h)
  rintro code s3 ⟨ho3, h3⟩
  have ho3 := ho2.trans ho3
  rw [wp_ite]
  refine ⟨fun hne => ?_, fun h0 => ?_⟩
  · rcases h3 with ⟨h, -⟩ | ⟨-, h⟩
    · exact absurd h hne
    · exact h
  have hs3 : CanSend s3.client := by
    rcases h3 with ⟨-, h⟩ | ⟨h, -⟩
    · exact h
    · exact absurd h h0
  simp only [wp_bind]
  refine wp_mono ((addLog_steps (R := Deaf) _ _).run s3) (fun _ s4 h4 => ?_) (fun _ _ _ => trivial)
  have ho4 := ho3.trans h4.onward
  have hs4 := hs3.same h4.1
  refine wp_mono (wp_and (sendPtrFb_fb endOfData (-97) (-98) s4 (by decide)) ((sendPtrFb_steps' (R := Onward) _ _ _).run s4)) ?_ (fun _ _ _ => trivial)
  rintro code s5 ⟨hf, h5⟩
  have ho5 := ho4.trans h5
  rw [wp_ite]
  refine ⟨fun hne => (hf.told (P := (· = b!"\r\n.\r\n")) (by decide) (fun _ h => .endData h) (fun _ h => .endDataLate h)).after ho4, fun h250 => ?_⟩
  have h250 := Decidable.not_not.mp h250
  simp only [wp_bind, wp_gets]
  rw [wp_ite]
  refine ⟨fun _ => told_good (Int.le_refl 0) ho5.2.2, fun _ => ?_⟩
  obtain ⟨ch, n, mid, x, h5h, hu5, hr5, hz5, hx5, hc5⟩ : ∃ ch n mid x, s5.hist = s4.hist ++ .send .cmd ch b!"\r\n.\r\n" (.sent n) :: mid ∧ (∀ e ∈ mid, ¬ IsSend e) ∧
      ReadAs mid x ∧ 0 ∉ x ∧ extractReturnCode (some x) = 250 ∧ SameConn s4.client s5.client := by
    cases hf with
    | failed ch n h => omega
    | late ch n mid post hh hv hc => omega
    | garbled ch n mid post x hh hu hd hr h0 hn hc => omega
    | answered ch n mid x hh hu hd hr h0 hc hch => exact ⟨ch, n, mid, x, hh, hu, hr, h0, h250, hc⟩
  have hs5 := hs4.same hc5
  unfold sendQuit sendQuitWith
  simp only [wp_bind]
  refine wp_mono ((addLog_steps (R := Deaf) _ _).run s5) (fun _ s6 h6 => ?_) (fun _ _ _ => trivial)
  have ho6 := ho5.trans h6.onward
  refine wp_mono (sendPtr_ptr .quit quitCmd (-99) s6) ?_ (fun _ _ _ => trivial)
  intro code s7 h7
  have ho7 := ho6.trans h7.onward
  rw [wp_ite]
  refine ⟨fun hne => ?_, fun _ => told_good (Int.le_refl 0) ho7.2.2⟩
  cases h7 with
  | sent ch n hc h => exact absurd rfl hne
  | nowhere hc h => exact absurd (hs5.same h6.1) hc
  | failed ch' n' h =>
    obtain ⟨-, -, post, h7h, hcl⟩ := h
    obtain ⟨y, hy⟩ := ho4.2.2
    obtain ⟨-, x6, hx6, hd6⟩ := h6
    have hrc : ReplyCode x 250 := by
      rcases Props.C06_code_of_any_text x with ⟨hp, h1⟩ | ⟨-, h1⟩
      · rw [cstr_eq_self hz5] at hp h1
        rw [hx5] at h1
        exact ⟨hp, h1⟩
      · omega
    refine ⟨_, (by rw [h7h]; simp [St.snoc, hx6, h5h, hy]; rfl), .inr (.inr (.quit ⟨y, ch, n, mid ++ x6, x, ch', n', post, by simp [quitCmd]; decide, ?_, ?_, hrc, hcl⟩))⟩
    · intro e he
      rcases List.mem_append.mp he with he | he
      · exact hu5 e he
      · exact quiet_unsaid (deaf_quiet (hd6 e he))
    · rcases hr5 with rfl | ⟨c, d, hm, rfl⟩
      · exact .inl (by rw [heard_append, heard_deaf hd6, List.append_nil])
      · exact .inr ⟨c, d, by simp [hm], rfl⟩

theorem sendMailConnected_told (m : Message) : TellsCause env K (sendMailConnected m) := by
  unfold sendMailConnected
  refine tells_bind (.modify fun s => .same rfl rfl rfl) fun _ => tells_test (setMailRecipients_tells m) (setMailRecipients_steps m) ?_
  intro s hk
  unfold sendMailRest
  rw [wp_bind]
  refine wp_mono (setMailHeaders_told m s) ?_ (fun _ _ h => h)
  rintro code s1 ⟨ht, ho, h0⟩
  rw [wp_ite]
  refine ⟨fun _ => ht, fun hz => ?_⟩
  have body : wp env (setMailBody m) (fun code s' => Told code s s') (fun _ _ => True) s1 := by
    rcases h0 (Decidable.not_not.mp hz) with ⟨hs, evs, he, hh⟩ | ⟨evs, he, hg⟩
    · exact setMailBody_told m s s1 ho hs he hh
    · refine wp_mono ((setMailBody_steps (R := Onward) m).run s1) (fun _ s2 h2 => ?_) (fun _ _ _ => trivial)
      obtain ⟨y, hy⟩ := h2.2.2
      exact ⟨evs ++ y, by rw [hy, he, List.append_assoc], .inr (.inl (by simpa using Garbled.mono (pre := []) (post := y) hg))⟩
  rw [wp_bind]
  refine wp_mono (wp_and body ((setMailBody_steps (R := Onward) m).run s1)) ?_ (fun _ _ _ => trivial)
  rintro code s2 ⟨ht2, ho2⟩
  rw [wp_ite]
  refine ⟨fun _ => ht2, fun _ => ?_⟩
  have hx := (ho.trans ho2).2.2
  simp only [wp_bind, wp_gets]
  rw [wp_ite]
  refine ⟨fun _ => told_good (Int.le_refl 0) hx, fun _ => ?_⟩
  rw [wp_bind]
  exact wp_mono ((cleanup_steps (R := Ext)).run s2) (fun _ s3 h3 => told_good (Int.le_refl 0) (hx.trans h3)) (fun _ _ _ => trivial)

theorem sendMail_caused (m : Message) (s : St) : wp env (sendMail m) (fun code s' => OpenedOr code s s') (fun _ _ => True) s := by
  unfold sendMail
  rw [wp_bind, wp_gets, wp_ite]
  refine ⟨fun _ => wp_mono (sendMailConnected_told (K := fun _ => True) m s trivial) (fun _ _ h => .inl h) fun _ _ h => h, fun _ => ?_⟩
  rw [wp_bind]
  refine wp_mono (wp_and (establish_caused s) ((establish_steps (R := Onward)).run s)) ?_ (fun _ _ _ => trivial)
  rintro code s1 ⟨ho, hx⟩
  rw [wp_ite]
  exact ⟨fun _ => ho, fun _ => wp_mono (sendMailConnected_told (K := fun _ => True) m s1 trivial) (fun _ _ h => .inl (h.after hx)) fun _ _ h => h⟩

end Verif.Proofs
