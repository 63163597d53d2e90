import Verif.Proofs.Bcc
import Verif.Proofs.Private
import Verif.Props.Delivery
/-!
# C58: a truncated mail is never finished
-/
namespace Verif.Props
open Verif Verif.Model Verif.Spec Verif.Proofs

variable {env : Env}

/-- Anything but the end mark. -/
def notMark : Texts := fun _ k d => k = .cmd → d ≠ b!"\r\n.\r\n"

/-- Not an end mark. -/
def NoMark (e : Ev) : Prop := ∀ ch r, e ≠ .send .cmd ch b!"\r\n.\r\n" r

theorem allowed_noMark {c : Option Credential} {e : Ev} (h : Allowed (notMark c) e) : NoMark e := by
  rintro ch r rfl
  exact h rfl rfl

theorem noMark_of_steps {α : Type} {p : M α} (h : Steps env (Saying notMark) p) : Steps env (NewEvents NoMark) p :=
  ⟨fun s => wp_mono (h.run s) (fun _ _ h => h.2.mono fun _ => allowed_noMark) (fun _ _ h => h.2.mono fun _ => allowed_noMark)⟩

theorem head_noMark {d : Bytes} {a : UInt8} {t : Bytes} (h : d = a :: t) (ha : a ≠ 0) (ha' : a ≠ 13) : ∀ c, notMark c .cmd (cstr d) := by
  intro c _ he
  subst h
  rw [cstr, List.takeWhile_cons, if_pos (by simpa using ha)] at he
  exact ha' (List.cons.inj he).1

theorem setMailRecipients_noMark (m : Message) : Steps env (NewEvents NoMark) (setMailRecipients m) := by
  apply noMark_of_steps
  unfold setMailRecipients
  have h1 := fun c => mailFromLoop_saying (env := env) (D := notMark) (mailFormats m.from) (fun f hf c => by
    simp only [mailFormats, List.mem_cons, List.not_mem_nil, or_false] at hf
    rcases hf with rfl | rfl | rfl <;> exact head_noMark rfl (by decide) (by decide) c) c
  have h2 := recipientsLoop_saying (env := env) (D := notMark) [m.to, m.cc, m.bcc] (fun r _ a _ c => head_noMark rfl (by decide) (by decide) c)
  steps [h1]

theorem setMailHeaders_noMark (m : Message) : Steps env (NewEvents NoMark) (setMailHeaders m) :=
  noMark_of_steps (setMailHeaders_saying m (fun _ _ _ => nofun) (fun _ _ => by decide))

theorem sendBodyText_noMark (t : Bytes) : Steps env (NewEvents NoMark) (sendBodyText t) :=
  noMark_of_steps (sendBodyText_saying t fun _ _ _ => nofun)

theorem establish_noMark : Steps env (NewEvents NoMark) establish := by
  apply noMark_of_steps
  refine establish_saying ?_ (fun _ _ => by decide) (fun _ _ => by decide)
  intro cr d hd _ he
  subst he
  have line : ∀ t, b!"\r\n.\r\n" ≠ authLoginLine t := by
    intro t h
    have : (46 : UInt8) ∈ authLoginLine t := by rw [← h]; decide
    unfold authLoginLine at this
    rcases List.mem_append.mp this with h | h
    · have := C03_encode_alphabet t 46 h
      revert this
      unfold Spec.Base64.Alphabet
      decide
    · revert h; decide
  simp only [List.mem_cons, List.not_mem_nil, or_false] at hd
  rcases hd with h | h | h | h | h
  · exact absurd (congrArg List.head? h) (by simp [authPlain])
  · exact absurd h (by decide)
  · exact line _ h
  · exact line _ h
  · exact absurd (congrArg List.head? h) (by simp [authXOAuth2])

/-- What was done when the end mark is sent. -/
def Finishing (m : Message) (ch : Chan) (pre : Hist) : Prop :=
  AnsweredZero pre ∨ WroteToZero pre ∨ ¬ NoShortWrites pre ∨
    ∃ files, HandedOver ch m files (conversation pre) ∧ (elems m.attachments).length = files.length ∧
      ∀ p ∈ (elems m.attachments).zip files, .readFile p.1.filename p.2 ∈ pre

/-- No end mark, or one after everything else. -/
def Marked (m : Message) (s s' : St) : Prop :=
  NewEvents NoMark s s' ∨ ∃ pre ch r post, s'.hist = s.hist ++ (pre ++ .send .cmd ch b!"\r\n.\r\n" r :: post) ∧
    (∀ e ∈ pre, NoMark e) ∧ (∀ e ∈ post, NoMark e) ∧ Finishing m ch pre

theorem bad_finishing {m : Message} {ch : Chan} {pre : Hist} (h : AnsweredZero pre ∨ WroteToZero pre) : Finishing m ch pre := by
  rcases h with h | h
  · exact .inl h
  · exact .inr (.inl h)

theorem bad_at {m : Message} {ch : Chan} {a b c : St} {pre : Hist} (h : Bad b c) (hx : Ext a b) (hp : c.hist = a.hist ++ pre) : Finishing m ch pre := by
  obtain ⟨evs, he, hb⟩ := h.after hx
  rw [he] at hp
  rw [← List.append_cancel_left hp]
  exact bad_finishing hb

theorem noMark_quiet {e : Ev} (h : EndEv e) : NoMark e := by
  rintro ch r rfl
  exact absurd h.1 (by decide)

theorem noMark_deaf {s s' : St} (h : Deaf s s') : NewEvents NoMark s s' :=
  h.2.mono fun _ h => noMark_quiet (quiet_end (deaf_quiet h))

/-- Sending the end mark when everything is ready. -/
theorem mark_marked (m : Message) (s0 s : St) (h1 : NewEvents NoMark s0 s) (hf : ∀ pre, s.hist = s0.hist ++ pre → Finishing m (chan s.client) pre) :
    wp env (sendPtrFb endOfData (-97) (-98)) (fun _ => Marked m s0) (fun _ => Marked m s0) s := by
  obtain ⟨pre, he, hn⟩ := h1
  have over : ∀ s' r, NewEvents EndEv (St.snoc s (.send .cmd (chan s.client) endOfData r)) s' → Marked m s0 s' := by
    rintro s' r ⟨post, hp, hq⟩
    exact .inr ⟨pre, _, r, post, by rw [hp]; simp [St.snoc, he, endOfData], hn, fun e h => noMark_quiet (hq e h), hf pre he⟩
  refine wp_mono (sendPtrFb_out (env := env) endOfData (-97) (-98) s (by decide)) ?_ (fun _ s' ⟨r, _, h⟩ => over s' r h)
  rintro code s' (⟨n, t, ⟨_, post, hp, hq, _⟩, _⟩ | ⟨_, _, r, _, h⟩)
  · exact over s' (.sent n) ⟨post, hp, fun e h => quiet_end (hq e h)⟩
  · exact over s' r h

theorem Marked.before {m : Message} {a b c : St} (h : Marked m a b) (h' : NewEvents NoMark b c) : Marked m a c := by
  obtain ⟨evs, he, hn⟩ := h'
  rcases h with ⟨e1, h1, h2⟩ | ⟨pre, ch, r, post, h1, h2, h3, h4⟩
  · exact .inl ⟨e1 ++ evs, by rw [he, h1, List.append_assoc], mem_app h2 hn⟩
  · exact .inr ⟨pre, ch, r, post ++ evs, by rw [he, h1]; simp, h2, mem_app h3 hn, h4⟩

theorem quit_noMark : Steps env (NewEvents NoMark) sendQuit :=
  noMark_of_steps sendQuit_steps

theorem cleanup_noMark : Steps env (NewEvents NoMark) cleanup :=
  noMark_of_steps cleanup_steps

theorem wp_marked {α : Type} {m : Message} {p : M α} (h : Steps env (NewEvents NoMark) p) (s0 s : St) (hs : Marked m s0 s) :
    wp env p (fun _ => Marked m s0) (fun _ => Marked m s0) s :=
  wp_mono (h.run s) (fun _ _ h => hs.before h) (fun _ _ h => hs.before h)

instance noMarkPreord : Preord (NewEvents NoMark) where
  refl := fun _ => .same rfl
  trans := fun h h' => h.trans h'

/-- After everything is ready: the end mark, and the rest. -/
theorem setMailBody_marked (m : Message) (s0 s : St) (h0 : NewEvents NoMark s0 s)
    (hf : ∀ files (l : List Bytes) s1, Reads (elems m.attachments) files s s1 → l.flatten = bodyText m files →
      Said (l.map fun p => .content (chan s.client) (cstr p)) s s1 → ∀ pre, s1.hist = s0.hist ++ pre → Finishing m (chan s.client) pre) :
    wp env (setMailBody m) (fun _ => Marked m s0) (fun _ => Marked m s0) s := by
  have no : ∀ {s'}, NewEvents NoMark s0 s' → Marked m s0 s' := fun h => .inl h
  unfold setMailBody
  rw [wp_bind]
  refine wp_mono ((addLog_steps (R := Deaf) _ _).run s) ?_ (fun _ _ h => no (h0.trans (noMark_deaf h)))
  intro _ s1 h1
  rw [wp_bind]
  refine wp_mono (wp_and ((fullBody_steps (R := Deaf) m).run s1) (fullBody_post (env := env) m s1)) ?_
    (fun _ _ h => no (h0.trans ((noMark_deaf h1).trans (noMark_deaf h.1))))
  rintro body s2 ⟨h2, ⟨files, hr, hb⟩, _⟩
  have hs2 := h1.said.then_deaf h2
  have n2 := h0.trans ((noMark_deaf h1).trans (noMark_deaf h2))
  rw [wp_bind]
  refine wp_mono (wp_and ((sendBodyText_noMark body).run s2) (wp_and (sendBodyText_post (env := env) hs2 body (hb ▸ bodyText_ne m files))
    (post_steps (R := Ext) (by unfold sendBodyText; steps [sendPieces_steps, sendPtr_steps']) s2))) ?_ (fun _ _ h => no (n2.trans h.1))
  rintro code s3 ⟨h3, k3, x3⟩
  have n3 := n2.trans h3
  rw [wp_ite]
  refine ⟨fun _ => no n3, fun hc => ?_⟩
  have k3 := k3 (Decidable.not_not.mp hc)
  rw [wp_bind]
  refine wp_mono ((addLog_steps (R := Deaf) _ _).run s3) ?_ (fun _ _ h => no (n3.trans (noMark_deaf h)))
  intro _ s4 h4
  have n4 := n3.trans (noMark_deaf h4)
  rw [wp_bind]
  have hr4 : Reads (elems m.attachments) files s s4 := ((hr.after h1.ext).before x3).before h4.ext
  refine wp_mono (mark_marked (env := env) m s0 s4 n4 ?_) ?_ (fun _ _ h => h)
  · intro pre he
    rcases k3 with ⟨l, hl, _, k3⟩ | k3
    · have k4 := k3.then_deaf h4
      rw [k4.chan]
      rw [List.nil_append] at k4
      exact hf files l s4 hr4 (by rw [hl, hb]) k4 pre he
    · exact bad_at (k3.before h4.ext) (by obtain ⟨x, hx, _⟩ := h0; exact ⟨x, hx⟩) he
  · intro code s5 h5
    refine wp_marked ?_ s0 s5 h5
    steps [quit_noMark]


theorem handedOver_of {m : Message} (hm : NulFree m) {ch : Chan} {files : List (Option Bytes)} {i1 i2 i3 : List Item} {l : List Bytes}
    (h1 : SenderDone ch (mailFormats m.from) i1) (h2 : Turns ch ((recipients m).map fun a => (cstr (rcptTo a), 250)) i2)
    (h3 : Turns ch [(cstr dataCmd, 354)] i3) (hl : (elems m.attachments).length = files.length) (hb : l.flatten = bodyText m files) :
    HandedOver ch m files (i1 ++ i2 ++ (i3 ++ (headerLines m).map fun l => .content ch (cstr l)) ++ l.map fun p => .content ch (cstr p)) := by
  obtain ⟨pre, f, rest, hf, h1⟩ := h1
  have hh := mem_flatten_nul (headerLines_flatten m) (headerText_nul hm)
  have hb' := mem_flatten_nul hb (bodyText_nul hm files)
  rw [map_cstr hh, map_cstr hb']
  rw [mailFormats_eq] at hf
  have hfs : ∀ g ∈ pre ++ f :: rest, cstr g = g := hf ▸ senderForms_nul (hm.addresses m.from (by simp))
  refine ⟨i1, i2, i3, headerLines m, l, by simp, ⟨pre, f, rest, hf, ?_⟩, ?_, h3, headerLines_flatten m, ?_⟩
  · rw [hfs f (by simp)] at h1
    have : (pre.map fun f => (cstr f, (501 : Int))) = pre.map (·, 501) :=
      map_cstr (fun p hp => hfs p (by simp [hp])) (·, (501 : Int))
    rwa [this] at h1
  · have : (recipients m).map (fun a => (cstr (rcptTo a), (250 : Int))) =
        (recipients m).map fun a => (b!"RCPT TO: <" ++ a.email ++ b!">\r\n", 250) := by
      apply List.map_congr_left
      intro a ha
      have := (hm.addresses a (by simp [ha])).1
      rw [rcptTo, cstr_eq_self (by simp [this])]
    rwa [this] at h2
  · rw [hb]; exact bodyText_mime hl

theorem sendMailConnected_marked (m : Message) (hm : NulFree m) (s : St) :
    wp env (sendMailConnected m) (fun _ => Marked m s) (fun _ => Marked m s) s := by
  unfold sendMailConnected
  rw [wp_bind, wp_modify]
  generalize hs0 : ({ s with client := { s.client with isConnected := true } } : St) = s0
  have hh : s0.hist = s.hist := by subst hs0; rfl
  clear hs0
  have n0 : NewEvents NoMark s s0 := .same hh
  rw [wp_bind]
  refine wp_mono (wp_and ((setMailRecipients_noMark m).run s0) (setMailRecipients_post (env := env) m s0)) ?_ (fun _ _ h => .inl (n0.trans h.1))
  rintro code s1 ⟨n1, h1⟩
  have n1 := n0.trans n1
  rw [wp_ite]
  refine ⟨fun _ => .inl n1, fun hc => ?_⟩
  have h1 := h1 (Decidable.not_not.mp hc)
  unfold sendMailRest
  rw [wp_bind]
  refine wp_mono (wp_and ((setMailHeaders_noMark m).run s1) (setMailHeaders_post (env := env) m s1)) ?_ (fun _ _ h => .inl (n1.trans h.1))
  rintro code s2 ⟨n2, h2⟩
  have x12 : Ext s1 s2 := by obtain ⟨x, hx, _⟩ := n2; exact ⟨x, hx⟩
  have n2 := n1.trans n2
  rw [wp_ite]
  refine ⟨fun _ => .inl n2, fun hc => ?_⟩
  have h2 := h2 (Decidable.not_not.mp hc)
  rw [wp_bind]
  have x0 : Ext s s0 := .same hh
  have x1 : Ext s s1 := by obtain ⟨x, hx, _⟩ := n1; exact ⟨x, hx⟩
  refine wp_mono (setMailBody_marked (env := env) m s s2 n2 ?_) ?_ (fun _ _ h => h)
  · intro files l s3 hr hl h3 pre he
    rcases h1 with h1 | ⟨i1, i2, ht1, ht2, h1⟩
    · exact bad_at ((h1.before x12).before h3.ext) x0 he
    rcases h2 with h2 | ⟨i3, ht3, h2⟩
    · exact bad_at (h2.before h3.ext) x1 he
    have c2 := h2.chan
    have c1 := h1.chan
    have h123 := (h1.trans h2).trans h3
    rw [c1] at ht3
    rw [c2, c1] at h123 ⊢
    obtain ⟨_, evs, he', ht⟩ := h123
    rw [hh, he] at he'
    have := List.append_cancel_left he'
    subst this
    by_cases hn : NoShortWrites pre
    · refine .inr (.inr (.inr ⟨files, ?_, hr.1, ?_⟩))
      · rw [conversation, ht hn]
        exact handedOver_of hm ht1 ht2 ht3 hr.1 hl
      · obtain ⟨_, evs, h4, h5⟩ := hr.after (x1.trans x12)
        rw [he] at h4
        rw [List.append_cancel_left h4]
        exact h5
    · exact .inr (.inr (.inl hn))
  · intro code s3 h3
    refine wp_marked ?_ s s3 h3
    steps [cleanup_noMark]

/-- **C58, partial.** In every run of `sendMail`, however it ends: if the end mark is sent, or only tried to be sent, then the complete mail was
handed over before it: on the same channel the sender and every recipient were accepted, DATA was answered 354, and the complete header section and the
complete body with all attachments were sent. So an interrupted mail is never taken for a complete one, and the mark is sent at most once. No end
mark is sent while the connection is being opened. Missing: replies that read as number 0, writes to descriptor 0 and partial writes. -/
theorem C58_never_truncated_partial (env : Env) (m : Message) (hm : NulFree m) (s : St) :
    ∃ opening evs, (sendMail m env s).2.hist = s.hist ++ opening ++ evs ∧ (s.client.isConnected = true → opening = []) ∧
      (∀ ch r, .send .cmd ch b!"\r\n.\r\n" r ∉ opening) ∧
      ∀ pre ch r post, evs = pre ++ .send .cmd ch b!"\r\n.\r\n" r :: post →
        (AnsweredZero pre ∨ WroteToZero pre ∨ ¬ NoShortWrites pre ∨
          ∃ files, HandedOver ch m files (conversation pre) ∧ (elems m.attachments).length = files.length ∧
            ∀ p ∈ (elems m.attachments).zip files, .readFile p.1.filename p.2 ∈ pre) ∧
        ∀ ch' r', .send .cmd ch' b!"\r\n.\r\n" r' ∉ pre ∧ .send .cmd ch' b!"\r\n.\r\n" r' ∉ post := by
  have conn : ∀ s1, ∃ evs, (sendMailConnected m env s1).2.hist = s1.hist ++ evs ∧
      ∀ pre ch r post, evs = pre ++ .send .cmd ch b!"\r\n.\r\n" r :: post →
        Finishing m ch pre ∧ ∀ ch' r', .send .cmd ch' b!"\r\n.\r\n" r' ∉ pre ∧ .send .cmd ch' b!"\r\n.\r\n" r' ∉ post := by
    intro s1
    have := sendMailConnected_marked (env := env) m hm s1
    have key : Marked m s1 (sendMailConnected m env s1).2 := by
      unfold wp at this
      split at this <;> (rename_i e; rw [e]; exact this)
    rcases key with ⟨evs, he, hn⟩ | ⟨pre, ch, r, post, he, h1, h2, h3⟩
    · refine ⟨evs, he, ?_⟩
      rintro pre ch r post rfl
      exact absurd rfl (hn (.send .cmd ch b!"\r\n.\r\n" r) (by simp) ch r)
    · refine ⟨_, he, ?_⟩
      intro pre' ch' r' post' e
      have same : pre = pre' ∧ ch = ch' ∧ post = post' := by
        rcases List.append_eq_append_iff.mp e with ⟨x, hx1, hx2⟩ | ⟨x, hx1, hx2⟩
        · cases x with
          | nil =>
            simp only [List.nil_append, List.cons.injEq, Ev.send.injEq] at hx2
            exact ⟨by simpa using hx1.symm, hx2.1.2.1, hx2.2⟩
          | cons y x =>
            simp only [List.cons_append, List.cons.injEq] at hx2
            exact absurd rfl (h2 (.send .cmd ch' b!"\r\n.\r\n" r') (by rw [hx2.2]; simp) ch' r')
        · cases x with
          | nil =>
            simp only [List.nil_append, List.cons.injEq, Ev.send.injEq] at hx2
            exact ⟨by simpa using hx1, hx2.1.2.1.symm, hx2.2.symm⟩
          | cons y x =>
            simp only [List.cons_append, List.cons.injEq] at hx2
            exact absurd rfl (h1 (.send .cmd ch' b!"\r\n.\r\n" r') (by rw [hx1, hx2.1]; simp) ch' r')
      obtain ⟨rfl, rfl, rfl⟩ := same
      exact ⟨h3, fun ch' r' => ⟨fun h => h1 _ h ch' r' rfl, fun h => h2 _ h ch' r' rfl⟩⟩
  unfold sendMail
  rw [bind_run, gets_run]
  dsimp only
  by_cases hc : s.client.isConnected = true
  · rw [if_pos hc]
    obtain ⟨evs, he, h⟩ := conn s
    exact ⟨[], evs, by rw [he]; simp, fun _ => rfl, by simp, h⟩
  · rw [if_neg hc, bind_run]
    have h1 := (establish_noMark (env := env)).state s
    cases hes : establish env s with
    | mk r s1 =>
      rw [hes] at h1
      obtain ⟨opening, ho, hno⟩ := h1
      dsimp only at ho
      have hcont : ∀ ch r, .send .cmd ch b!"\r\n.\r\n" r ∉ opening := fun ch r h => hno _ h ch r rfl
      cases r with
      | stop e => exact ⟨opening, [], by simp [ho], fun h => absurd h hc, hcont, by simp⟩
      | ok code =>
        dsimp only
        by_cases h0 : code = 0
        · rw [if_neg (by simpa using h0)]
          obtain ⟨evs, he, h⟩ := conn s1
          exact ⟨opening, evs, by rw [he, ho], fun h => absurd h hc, hcont, h⟩
        · rw [if_pos h0]
          exact ⟨opening, [], by rw [pure_run]; simp [ho], fun h => absurd h hc, hcont, by simp⟩

/-- A command of the conversation was sent. -/
theorem cmd_sent {h : Hist} {ch : Chan} {d t : Bytes} (hm : .cmd ch d t ∈ conversation h) :
    ∃ d' n, .send .cmd ch d' (.sent n) ∈ h ∧ d'.take n = d := by
  induction h with
  | nil => simp [conversation, talk] at hm
  | cons e h ih =>
    have step : conversation (e :: h) = (talkStep e (talk h)).2 := rfl
    rw [step] at hm
    have old : .cmd ch d t ∈ conversation h → ∃ d' n, .send .cmd ch d' (.sent n) ∈ e :: h ∧ d'.take n = d := fun hm => by
      obtain ⟨d', n, h1, h2⟩ := ih hm
      exact ⟨d', n, List.mem_cons_of_mem _ h1, h2⟩
    unfold talkStep at hm
    split at hm
    · rename_i c d' n t' l e'
      rcases List.mem_cons.mp hm with hm | hm
      · cases hm
        exact ⟨d', n, by simp, rfl⟩
      · exact old (by rw [conversation, e']; exact hm)
    · rename_i e'
      rcases List.mem_cons.mp hm with hm | hm
      · cases hm
      · exact old (by rw [conversation, e']; exact hm)
    · rename_i e'
      rcases List.mem_cons.mp hm with hm | hm
      · cases hm
      · exact old (by rw [conversation, e']; exact hm)
    · rename_i e'
      exact old (by rw [conversation, e']; exact hm)

/-- The run in which MAIL FROM and DATA are answered `000`. -/
def zeroMailHist : Hist := (sendMail mail (scripted ([.data b!"220 hi\r\n"] ++ clear [b!"250 ok\r\n", b!"000 no\r\n", b!"000 no\r\n", b!"250 ok\r\n"]))
  (fresh .smtp)).2.hist

/-- **C58, refuted**: when MAIL FROM and DATA are answered `000`, the end mark is sent, and accepted, though no part of the run handed over the mail. -/
theorem C58_zero_reply :
    b!"\r\n.\r\n" ∈ commands zeroMailHist ∧
    ∀ opening pre rest, zeroMailHist = opening ++ pre ++ rest → ∀ ch files, ¬ HandedOver ch mail files (conversation pre) := by
  refine ⟨by decide +kernel, ?_⟩
  rintro opening pre rest he ch files ⟨i1, i2, i3, hd, bd, hi, _, ht, _⟩
  have hr : (recipients mail).map (fun a => (b!"RCPT TO: <" ++ a.email ++ b!">\r\n", (250 : Int))) = [(b!"RCPT TO: <you@there.org>\r\n", 250)] := by
    decide +kernel
  rw [hr] at ht
  cases ht with
  | @cons _ _ t _ is _ _ =>
    obtain ⟨d', n, h1, h2⟩ := cmd_sent (h := pre) (ch := ch) (d := b!"RCPT TO: <you@there.org>\r\n") (t := t) (by rw [hi]; simp)
    have h3 : .send .cmd ch d' (.sent n) ∈ zeroMailHist := by rw [he]; simp [h1]
    have key : ∀ e ∈ zeroMailHist, (match e with | .send .cmd _ d (.sent n) => !decide (d.take n = b!"RCPT TO: <you@there.org>\r\n") | _ => true) = true := by
      decide +kernel
    have := key _ h3
    simp [h2] at this

/-- A run in which the end mark is refused. -/
def refusedMailHist : Hist := (sendMail mail (scripted ([.data b!"220 hi\r\n"] ++
  clear [b!"250 ok\r\n", b!"250 ok\r\n", b!"250 ok\r\n", b!"354 go\r\n", b!"552 too big\r\n"])) (fresh .smtp)).2.hist

/-- Non-vacuity: in a run in which the mail is refused at the end there is one end mark; none of the excuses applies to what came before it. -/
example : NulFree mail ∧ ∃ pre post, refusedMailHist = pre ++ .send .cmd (.raw 5) b!"\r\n.\r\n" (.sent 5) :: post ∧
    commands pre = [b!"ehlo localhost\r\n", b!"MAIL FROM: <me@here.org>\r\n", b!"RCPT TO: <you@there.org>\r\n", b!"DATA\r\n"] ∧
    (pre.all fun | .send _ c d (.sent n) => n == d.length && c == .raw 5 | _ => true) = true := by
  refine ⟨⟨?_, ?_, ?_, ?_, ?_⟩, refusedMailHist.takeWhile (fun e => !decide (e = .send .cmd (.raw 5) b!"\r\n.\r\n" (.sent 5))),
    (refusedMailHist.dropWhile (fun e => !decide (e = .send .cmd (.raw 5) b!"\r\n.\r\n" (.sent 5)))).drop 1, ?_, ?_, ?_⟩ <;> decide +kernel

/-- Non-vacuity: a run in which the connection breaks while the body is sent; the end mark is not sent. -/
example :
    (let r := sendMail bigMail (scripted ([.data b!"220 hi\r\n"] ++
        clear [b!"250 ok\r\n", b!"250 ok\r\n", b!"250 ok\r\n", b!"250 ok\r\n", b!"250 ok\r\n", b!"250 ok\r\n", b!"354 go\r\n", b!"250 ok\r\n"])
        (write := fun n => if n = 12 then some (.fail 104) else none)) (fresh .smtp)
     (r.1, decide (b!"DATA\r\n" ∈ commands r.2.hist), (contents r.2.hist).length, decide (b!"\r\n.\r\n" ∈ commands r.2.hist))) =
      (.ok (-96), true, 6, false) := by
  decide +kernel

end Verif.Props
