import Verif.Props.Order
import Verif.Proofs.Kept
import Verif.Spec.Files
/-!
# C64: sendMail reads the attached files and no other, and only when the server agreed to take the mail
-/
namespace Verif.Props
open Verif Verif.Model Verif.Spec Verif.Proofs

/-- Nothing was read from the file system. -/
def Unread (s s' : St) : Prop := NewEvents (fun e => filesRead [e] = []) s s'

instance : Sending Unread where
  refl := fun _ => .same rfl
  trans := .trans
  log := fun _ _ _ _ _ _ _ => .same rfl
  errno := fun _ _ => .same rfl
  resp := fun _ _ => .same rfl
  auth := fun _ _ => .same rfl
  fcntlGet := fun _ _ _ => .one rfl
  fcntlSet := fun _ _ _ _ => .one rfl
  select := fun _ _ _ => .one rfl
  sockopt := fun _ _ _ => .one rfl
  resolve := fun _ _ _ => .one rfl
  connect := fun _ _ _ _ => .one rfl
  sleep := fun _ => .one rfl
  recv := fun _ _ _ => .one rfl
  disconnected := fun _ => .same rfl
  ctx := fun _ _ => .same rfl
  noBio := fun _ => .same rfl
  noSock := fun _ => .same rfl
  close := fun _ _ => .one rfl
  bioFree := fun _ _ => .one rfl
  quit := fun _ _ _ => .one rfl
  send := fun _ _ _ _ _ => .one rfl

instance : Establishing Unread where
  askCmd := fun _ _ _ _ => .one rfl
  freshLog := fun _ => .same rfl
  keep := fun _ => .same rfl
  bio := fun _ _ => .same rfl
  sock := fun _ _ => .same rfl
  socket := fun _ _ => .one rfl
  tls := fun _ _ _ => .one rfl

theorem filesRead_none {evs : Hist} (h : ∀ e ∈ evs, filesRead [e] = []) : filesRead evs = [] := by
  induction evs with
  | nil => rfl
  | cons e evs ih =>
    rw [← List.singleton_append, filesRead_append, h e (by simp), ih fun x hx => h x (by simp [hx])]
    rfl

/-- The server agreed to take the mail. -/
def Agreed (m : Message) (h : Hist) : Prop :=
  AnsweredZero h ∨ (Answered h b!"DATA\r\n" 354 ∧ EnvelopeAccepted m h)

theorem Agreed.mono {m : Message} {h : Hist} (ha : Agreed m h) (a c : Hist) : Agreed m (a ++ h ++ c) := by
  rcases ha with ha | ⟨ha, ⟨f, hf, hb⟩, hr⟩
  · exact .inl (answeredZero_mono (a := a) (c := c) ha)
  · exact .inr ⟨answered_mono (a := a) (c := c) ha, ⟨f, hf, answered_mono (a := a) (c := c) hb⟩,
      fun x hx => answered_mono (a := a) (c := c) (hr x hx)⟩

/-- The files were read after the server had agreed. -/
def AllRead (m : Message) (s s' : St) : Prop :=
  ∃ e1 e2, s'.hist = s.hist ++ (e1 ++ e2) ∧ filesRead e1 = [] ∧ (NulFree m → Agreed m e1) ∧ filesRead e2 = attachedFiles m

/-- All or nothing. -/
def Filed (m : Message) (s s' : St) : Prop := Unread s s' ∨ AllRead m s s'

theorem AllRead.before {m : Message} {a b c : St} (h : AllRead m a b) (h' : Unread b c) : AllRead m a c := by
  obtain ⟨e1, e2, he, h1, h2, h3⟩ := h
  obtain ⟨e3, he3, hn⟩ := h'
  exact ⟨e1, e2 ++ e3, by rw [he3, he]; simp, h1, h2, by rw [filesRead_append, h3, filesRead_none hn, List.append_nil]⟩

theorem AllRead.after {m : Message} {a b c : St} (h' : Unread a b) (h : AllRead m b c) : AllRead m a c := by
  obtain ⟨e1, e2, he, h1, h2, h3⟩ := h
  obtain ⟨e3, he3, hn⟩ := h'
  exact ⟨e3 ++ e1, e2, by rw [he, he3]; simp, by rw [filesRead_append, h1, filesRead_none hn]; rfl,
    fun hm => by simpa using (h2 hm).mono e3 [], h3⟩

theorem Filed.after {m : Message} {a b c : St} (h' : Unread a b) (h : Filed m b c) : Filed m a c := by
  rcases h with h | h
  · exact .inl (h'.trans h)
  · exact .inr (h.after h')

variable {env : Env}

theorem attachmentsLoop_reads (l : List Attachment) (s : St) :
    wp env (attachmentsLoop l) (fun _ s' => ∃ e, s'.hist = s.hist ++ e ∧ filesRead e = l.map (·.filename)) (fun _ _ => False) s := by
  induction l generalizing s with
  | nil => exact ⟨[], by simp, rfl⟩
  | cons a l ih =>
    unfold attachmentsLoop base64EncodedFile sysReadFile
    rw [wp_bind, wp_bind, wp_ask]
    generalize env.readFile s.hist a.filename = f
    have key : ∀ t : Option Bytes, wp env (do let rest ← attachmentsLoop l; pure (attachmentHeader a ++ t.getD [] ++ rest))
        (fun _ s' => ∃ e, s'.hist = s.hist ++ e ∧ filesRead e = (a :: l).map (·.filename)) (fun _ _ => False)
        { s with hist := s.hist ++ [.readFile a.filename f] } := by
      intro t
      rw [wp_bind]
      refine wp_mono (ih _) ?_ (fun _ _ h => h)
      rintro _ s' ⟨e, he, hf⟩
      refine ⟨.readFile a.filename f :: e, by rw [he]; simp, ?_⟩
      rw [← List.singleton_append, filesRead_append, hf]
      rfl
    cases f <;> exact key _

theorem fullBody_reads (m : Message) (s : St) :
    wp env (fullBody m) (fun _ s' => ∃ e, s'.hist = s.hist ++ e ∧ filesRead e = attachedFiles m) (fun _ s' => Unread s s') s := by
  unfold fullBody attachedFiles
  rw [wp_bind]
  have h1 := wp_and (arrElems_post (env := env) m.attachments s) ((arrElems_steps (env := env) (R := Unread) m.attachments).run s)
  refine wp_mono h1 ?_ (fun _ _ h => h.2)
  rintro _ _ ⟨⟨rfl, rfl, hne⟩, _⟩
  refine (wp_ite ..).mpr ⟨fun hc => ?_, fun hc => ?_⟩
  · rw [wp_bind]
    unfold createAttachmentsText
    rw [wp_bind]
    exact wp_mono (attachmentsLoop_reads _ _) (fun _ _ h => h) (fun _ _ h => h.elim)
  · rw [elems_zero hc]
    exact ⟨[], by simp, rfl⟩

theorem setMailHeaders_data (m : Message) (s : St) :
    post env (setMailHeaders m) (fun code s' => code = 0 → Ans b!"DATA\r\n" 354 s s' ∨ Zero s s') s := by
  unfold setMailHeaders
  unfold post
  rw [wp_bind]
  refine post_mono (post_deaf (addLog_steps _ _) s) fun _ s1 h1 => ?_
  rw [wp_bind]
  refine post_mono (sendPtrFb_post _ _ _ s1 (by decide)) fun code s2 ⟨h2, hx⟩ => ?_
  refine (wp_ite ..).mpr ⟨fun _ hc => ?_, fun hc => ?_⟩
  · subst hc
    exact .inr ⟨_, (h2.resolve_right (by decide)).ans.after h1.ext⟩
  · have hc := Decidable.not_not.mp hc
    subst hc
    have h2 : Ans b!"DATA\r\n" 354 s s2 := (h2.resolve_right (by decide)).ans.after h1.ext
    have h3 := (Steps.run (R := Ext) (env := env) (m := do
        let code ← addMailHeader b!"From" (fromHeaderValue m.from) (-91)
        if code ≠ 0 then pure code
        else do
          addressHeader b!"To" m.to
          addressHeader b!"Cc" m.cc
          addLog (subjectLine m.subject)
          let code ← sendPtr .content (subjectLine m.subject) (-93)
          if code ≠ 0 then pure code
          else do
            addLog contentTypeLine
            let code ← sendPtr .content contentTypeLine (-94)
            if code ≠ 0 then pure code else pure 0)
      (by steps [header_ext, addresses_ext, addLog_steps, sendPtr_steps']) s2)
    exact wp_mono h3 (fun _ _ h _ => .inl (h2.before h)) (fun _ _ _ => trivial)

theorem setMailBody_files (m : Message) (s : St) :
    wp env (setMailBody m) (fun _ s' => ∃ e, s'.hist = s.hist ++ e ∧ filesRead e = attachedFiles m)
      (fun _ s' => Unread s s' ∨ ∃ e, s'.hist = s.hist ++ e ∧ filesRead e = attachedFiles m) s := by
  have before : ∀ a b c : St, Unread a b → ∀ d, (∃ e, c.hist = b.hist ++ e ∧ filesRead e = attachedFiles m) → Unread c d →
      ∃ e, d.hist = a.hist ++ e ∧ filesRead e = attachedFiles m := by
    rintro a b c ⟨x, hx, nx⟩ d ⟨e, he, hf⟩ ⟨y, hy, ny⟩
    exact ⟨x ++ e ++ y, by rw [hy, he, hx]; simp, by
      rw [filesRead_append, filesRead_append, filesRead_none nx, filesRead_none ny, hf]; simp⟩
  unfold setMailBody
  rw [wp_bind]
  refine wp_mono ((addLog_steps (R := Unread) _ _).run s) ?_ (fun _ _ h => .inl h)
  intro _ s1 h1
  rw [wp_bind]
  refine wp_mono (fullBody_reads m s1) ?_ (fun _ _ h => .inl (h1.trans h))
  intro body s2 h2
  have h3 := (Steps.run (R := Unread) (env := env) (m := do
    let code ← sendBodyText body
    if code ≠ 0 then pure code
    else do
      addLog endOfData
      let code ← sendPtrFb endOfData (-97) (-98)
      if code ≠ 250 then pure code
      else if ← M.gets (·.batch) then pure 0
      else do
        let code ← sendQuit
        if code ≠ 0 then pure code else pure 0)
    (by unfold sendBodyText; steps [addLog_steps, sendPtrFb_steps', sendPieces_steps, sendPtr_steps', sendQuit_steps]) s2)
  exact wp_mono h3 (fun _ _ h => before _ _ _ h1 _ h2 h) (fun _ _ h => .inr (before _ _ _ h1 _ h2 h))

theorem sendMailConnected_files (m : Message) (s : St) :
    wp env (sendMailConnected m) (fun code s' => Filed m s s' ∧ (code = 0 → AllRead m s s')) (fun _ s' => Filed m s s') s := by
  unfold sendMailConnected
  rw [wp_bind, wp_modify]
  generalize hs0 : ({ s with client := { s.client with isConnected := true } } : St) = s0
  have hh : Unread s s0 := by subst hs0; exact .same rfl
  clear hs0
  rw [wp_bind]
  have hrec : post env (setMailRecipients m) (fun code s' => code = 0 → NulFree m →
      ∃ evs, s'.hist = s0.hist ++ evs ∧ (AnsweredZero evs ∨ EnvelopeAccepted m evs)) s0 := by
    by_cases hm : NulFree m
    · exact post_mono (setMailRecipients_ans env m hm s0) fun _ _ h hc _ => h hc
    · exact post_mono (post_true s0) fun _ _ _ _ h => absurd h hm
  refine wp_mono (wp_and ((setMailRecipients_steps (R := Unread) m).run s0) hrec) ?_ (fun _ _ h => .inl (hh.trans h.1))
  rintro code s1 ⟨h1, h2⟩
  have h01 := hh.trans h1
  refine (wp_ite ..).mpr ⟨fun hne => ⟨.inl h01, fun h => absurd h hne⟩, fun hc => ?_⟩
  have h2 := h2 (Decidable.not_not.mp hc)
  unfold sendMailRest
  rw [wp_bind]
  refine wp_mono (wp_and ((setMailHeaders_steps (R := Unread) m).run s1) (setMailHeaders_data m s1)) ?_
    (fun _ _ h => .inl (h01.trans h.1))
  rintro code s2 ⟨h3, h4⟩
  have h02 := h01.trans h3
  refine (wp_ite ..).mpr ⟨fun hne => ⟨.inl h02, fun h => absurd h hne⟩, fun hc => ?_⟩
  have h4 := h4 (Decidable.not_not.mp hc)
  have agreed : NulFree m → ∃ e1, s2.hist = s0.hist ++ e1 ∧ Agreed m e1 := by
    intro hm
    obtain ⟨x, hx, hxa⟩ := h2 hm
    rcases h4 with ⟨y, hy, hya⟩ | ⟨d, y, hy, hya⟩
    · refine ⟨x ++ y, by rw [hy, hx]; simp, ?_⟩
      rcases hxa with hxa | ⟨⟨f, hf, hb⟩, hr⟩
      · exact .inl (answeredZero_mono (a := []) (c := y) hxa)
      · exact .inr ⟨by simpa using answered_mono (a := x) (c := []) hya, ⟨f, hf, answered_mono (a := []) (c := y) hb⟩,
          fun a ha => answered_mono (a := []) (c := y) (hr a ha)⟩
    · exact ⟨x ++ y, by rw [hy, hx]; simp, .inl ⟨d, by simpa using answered_mono (a := x) (c := []) hya⟩⟩
  have all : ∀ s' : St, (∃ e, s'.hist = s2.hist ++ e ∧ filesRead e = attachedFiles m) → AllRead m s s' := by
    rintro s' ⟨e, he, hf⟩
    obtain ⟨x, hx, hn⟩ := h1.trans h3
    refine AllRead.after hh ⟨x, e, by rw [he, hx]; simp, filesRead_none hn, fun hm => ?_, hf⟩
    obtain ⟨e1, he1, ha⟩ := agreed hm
    rw [hx] at he1
    rwa [List.append_cancel_left he1]
  rw [wp_bind]
  refine wp_mono (setMailBody_files m s2) ?_ ?_
  · intro code s3 h5
    have h6 := all s3 h5
    refine (wp_ite ..).mpr ⟨fun _ => ⟨.inr h6, fun _ => h6⟩, fun _ => ?_⟩
    rw [wp_bind, wp_gets, wp_ite]
    refine ⟨fun _ => ⟨.inr h6, fun _ => h6⟩, fun _ => ?_⟩
    rw [wp_bind]
    exact wp_mono ((cleanup_steps (R := Unread)).run s3) (fun _ _ h => ⟨.inr (h6.before h), fun _ => h6.before h⟩)
      (fun _ _ h => .inr (h6.before h))
  · rintro _ s3 (h | h)
    · exact .inl (h02.trans h)
    · exact .inr (all s3 h)

theorem sendMail_files (m : Message) (s : St) :
    wp env (sendMail m) (fun code s' => Filed m s s' ∧ (code = 0 → AllRead m s s')) (fun _ s' => Filed m s s') s := by
  unfold sendMail
  rw [wp_bind, wp_gets, wp_ite]
  refine ⟨fun _ => sendMailConnected_files m s, fun _ => ?_⟩
  rw [wp_bind]
  refine wp_mono ((establish_steps (R := Unread)).run s) ?_ (fun _ _ h => .inl h)
  intro code s1 h1
  refine (wp_ite ..).mpr ⟨fun hne => ⟨.inl h1, fun h => absurd h hne⟩, fun _ => ?_⟩
  exact wp_mono (sendMailConnected_files m s1) (fun _ _ h => ⟨h.1.after h1, fun hc => (h.2 hc).after h1⟩)
    (fun _ _ h => h.after h1)

/-- **C64.** However `sendMail` ends: it opened no file at all, or it opened the attached files, each once for each time it is
attached, in their order, and no other file. -/
theorem C64_reads_exactly_the_attached_files (env : Env) (m : Message) (s : St) :
    ∃ evs, (sendMail m env s).2.hist = s.hist ++ evs ∧ (filesRead evs = [] ∨ filesRead evs = attachedFiles m) := by
  have key : Filed m s (sendMail m env s).2 := by
    have h := sendMail_files (env := env) m s
    unfold wp at h
    split at h
    · rename_i e; rw [e]; exact h.1
    · rename_i e; rw [e]; exact h
  rcases key with ⟨evs, he, hn⟩ | ⟨e1, e2, he, h1, _, h2⟩
  · exact ⟨evs, he, .inl (filesRead_none hn)⟩
  · exact ⟨e1 ++ e2, he, .inr (by rw [filesRead_append, h1, h2]; rfl)⟩

/-- **C64.** When `sendMail` reports success it has opened all the attached files. -/
theorem C64_success_reads_all (env : Env) (m : Message) (s s' : St) (h : sendMail m env s = (.ok 0, s')) :
    ∃ evs, s'.hist = s.hist ++ evs ∧ filesRead evs = attachedFiles m := by
  have hw := sendMail_files (env := env) m s
  unfold wp at hw
  rw [h] at hw
  obtain ⟨e1, e2, he, h1, _, h2⟩ := hw.2 rfl
  exact ⟨e1 ++ e2, he, by rw [filesRead_append, h1, h2]; rfl⟩

/-- **C64.** No file is opened before the server accepted the sender, every recipient and DATA (or gave a reply that reads as
number 0, the known defect of C30). -/
theorem C64_no_file_before_agreement (env : Env) (m : Message) (hm : NulFree m) (s : St) :
    ∃ evs, (sendMail m env s).2.hist = s.hist ++ evs ∧
      ∀ pre n r post, evs = pre ++ .readFile n r :: post →
        AnsweredZero pre ∨ (Answered pre b!"DATA\r\n" 354 ∧ EnvelopeAccepted m pre) := by
  have key : Filed m s (sendMail m env s).2 := by
    have h := sendMail_files (env := env) m s
    unfold wp at h
    split at h
    · rename_i e; rw [e]; exact h.1
    · rename_i e; rw [e]; exact h
  rcases key with ⟨evs, he, hn⟩ | ⟨e1, e2, he, h1, h2, _⟩
  · refine ⟨evs, he, fun pre n r post hs => ?_⟩
    have := hn (.readFile n r) (by rw [hs]; simp)
    cases this
  · refine ⟨e1 ++ e2, he, fun pre n r post hs => ?_⟩
    rcases split_append hs with ⟨t, ht⟩ | ⟨t, rfl, ht⟩
    · rw [ht, filesRead_append, List.append_eq_nil_iff] at h1
      cases h1.2
    · exact (h2 hm).mono [] t

/-- A message with three attachments, one of them twice. -/
def filesMail : Message :=
  { mail with attachments := { ptr := some [{ filename := b!"/a.txt", name := b!"a", contentId := [] },
      { filename := b!"b.png", name := b!"b", contentId := b!"b" }, { filename := b!"/a.txt", name := b!"c", contentId := [] }], count := 3 } }

/-- Non-vacuity: a delivery reads the three. -/
example :
    (let r := sendMail filesMail (scripted ([.data b!"220 hi\r\n"] ++
        clear [b!"250 ok\r\n", b!"250 ok\r\n", b!"250 ok\r\n", b!"354 go\r\n", b!"250 ok\r\n"])) (fresh .smtp)
     (r.1, filesRead r.2.hist)) = (.ok 0, [b!"/a.txt", b!"b.png", b!"/a.txt"]) := by decide +kernel

/-- Non-vacuity: when DATA is refused nothing is read. -/
example :
    (let r := sendMail filesMail (scripted ([.data b!"220 hi\r\n"] ++
        clear [b!"250 ok\r\n", b!"250 ok\r\n", b!"250 ok\r\n", b!"451 no\r\n"])) (fresh .smtp)
     (r.1, filesRead r.2.hist)) = (.ok 451, []) := by decide +kernel

/-- The files are read even when the body cannot be sent after that. -/
example :
    (let r := sendMail filesMail (scripted ([.data b!"220 hi\r\n"] ++
        clear [b!"250 ok\r\n", b!"250 ok\r\n", b!"250 ok\r\n", b!"354 go\r\n", b!"554 no\r\n"])) (fresh .smtp)
     (r.1, filesRead r.2.hist)) = (.ok 554, [b!"/a.txt", b!"b.png", b!"/a.txt"]) := by decide +kernel

/-- Non-vacuity of `NulFree`. -/
example : NulFree filesMail := by constructor <;> decide

end Verif.Props
