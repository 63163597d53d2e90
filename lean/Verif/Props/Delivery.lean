import Verif.Proofs.Body
import Verif.Props.Values
import Verif.Spec.Script
/-!
# C29, C31, C33: what a successful `sendMail` means
-/
namespace Verif.Props
open Verif Verif.Model Verif.Spec

set_option linter.unusedSimpArgs false in
/-- Everything the constructors build is free of NUL: addresses, attachments and messages. -/
theorem C29_constructors_nul_free (frm : MessageAddress) (to cc bcc : Option (List MessageAddress)) (nt nc nb na : Nat)
    (subject body : Option Bytes) (att : Option (List Attachment)) (html : Bool)
    (hf : ∃ e n, MessageAddress.new e n = .ok frm)
    (ha : ∀ l ∈ [to, cc, bcc], ∀ a ∈ l.getD [], ∃ e n, MessageAddress.new e n = .ok a)
    (hatt : ∀ a ∈ att.getD [], ∃ f n i, Attachment.new f n i = .ok a) :
    NulFree (Message.new frm to nt subject body cc nc bcc nb att na (if html then mimeHtml else mimePlain)) := by
  have addr : ∀ a e n, MessageAddress.new e n = .ok a → 0 ∉ a.email ∧ 0 ∉ a.displayName := by
    intro a e n h
    unfold MessageAddress.new readCStr at h
    cases e with
    | none => simp [bind, Except.bind] at h
    | some e =>
      cases n with
      | none =>
        simp only [bind, Except.bind, pure, Except.pure, throw, throwThe, MonadExceptOf.throw] at h
        repeat (split at h <;> try cases h)
      | some n =>
        simp only [bind, Except.bind, pure, Except.pure, throw, throwThe, MonadExceptOf.throw] at h
        repeat (split at h <;> try cases h)
        exact ⟨Proofs.cstr_no_nul _, Proofs.cstr_no_nul _⟩
  have attach : ∀ a f n i, Attachment.new f n i = .ok a → 0 ∉ a.name ∧ 0 ∉ a.contentId := by
    intro a f n i h
    unfold Attachment.new readCStr at h
    cases f with
    | none => simp [bind, Except.bind] at h
    | some f =>
      cases n with
      | none =>
        simp only [bind, Except.bind, pure, Except.pure, throw, throwThe, MonadExceptOf.throw] at h
        repeat (split at h <;> try cases h)
      | some n =>
        cases i with
        | none =>
          simp only [bind, Except.bind, pure, Except.pure, throw, throwThe, MonadExceptOf.throw] at h
          repeat (split at h <;> try cases h)
        | some i =>
          simp only [bind, Except.bind, pure, Except.pure, throw, throwThe, MonadExceptOf.throw] at h
          repeat (split at h <;> try cases h)
          exact ⟨Proofs.cstr_no_nul _, Proofs.cstr_no_nul _⟩
  have el : ∀ {β : Type} (p : Option (List β)) (n : Nat), ∀ a ∈ elems (Arr.ofArgs p n), a ∈ p.getD [] := by
    intro β p n a h
    unfold elems Arr.ofArgs at h
    cases p with
    | none => simp at h
    | some l => exact List.mem_of_mem_take (List.mem_of_mem_take h)
  have text : ∀ p : Option Bytes, 0 ∉ (p.map cstr).getD [] := by
    intro p
    cases p with
    | none => simp
    | some t => exact Proofs.cstr_no_nul t
  constructor
  · intro a h
    rcases List.mem_cons.mp h with rfl | h
    · obtain ⟨e, n, h⟩ := hf; exact addr _ e n h
    · have : ∃ l ∈ [to, cc, bcc], a ∈ l.getD [] := by
        unfold recipients Message.new at h
        simp only [List.mem_append] at h
        rcases h with (h | h) | h
        · exact ⟨to, by simp, el _ _ _ h⟩
        · exact ⟨cc, by simp, el _ _ _ h⟩
        · exact ⟨bcc, by simp, el _ _ _ h⟩
      obtain ⟨l, hl, hm⟩ := this
      obtain ⟨e, n, h⟩ := ha l hl a hm
      exact addr _ e n h
  · exact text subject
  · exact text body
  · show 0 ∉ (if html = true then mimeHtml else mimePlain)
    cases html <;> decide
  · intro a h
    obtain ⟨f, n, i, h⟩ := hatt a (el _ _ _ h)
    exact attach _ f n i h

theorem sendMail_success (env : Env) (m : Message) (s s' : St) (h : sendMail m env s = (.ok 0, s')) :
    ∃ s1, Proofs.NewEvents (Proofs.Allowed (Proofs.OnlyContent fun _ => False)) s s1 ∧ (s.client.isConnected = true → s1 = s) ∧
      SameConfig s.client s1.client ∧ sendMailConnected m env s1 = (.ok 0, s') := by
  unfold sendMail at h
  rw [Proofs.bind_run, Proofs.gets_run] at h
  dsimp only at h
  by_cases hc : s.client.isConnected = true
  · rw [if_pos hc] at h
    exact ⟨s, .same rfl, fun _ => rfl, by simp [SameConfig], h⟩
  · rw [if_neg hc, Proofs.bind_run] at h
    have h1 := (Proofs.establish_steps (env := env) (R := Proofs.NewEvents (Proofs.Allowed (Proofs.OnlyContent fun _ => False)))).state s
    have h2 := (Proofs.establish_steps (env := env) (R := fun s s' => SameConfig s.client s'.client)).state s
    cases he : establish env s with
    | mk r s1 =>
      rw [he] at h h1 h2
      cases r with
      | stop e => cases h
      | ok code =>
        dsimp only at h
        by_cases h0 : code = 0
        · rw [if_neg (by simpa using h0)] at h
          exact ⟨s1, h1, fun h => absurd h hc, h2, h⟩
        · rw [if_pos h0] at h
          cases h
          exact absurd rfl h0

/-- **C29, partial.** If `sendMail` returns 0, then after the connection was opened the complete message was handed over and
accepted (`Delivered`), and the attached files were read during the call. Missing, and refuted below: replies that read as number
0, such as `000`, count as success; after a failed header the client goes on with descriptor 0; and a send call that accepts
only a part of the text is taken for complete. -/
theorem C29_zero_means_delivered_partial (env : Env) (m : Message) (hm : NulFree m) (s s' : St)
    (h : sendMail m env s = (.ok 0, s')) :
    ∃ opening evs, s'.hist = s.hist ++ opening ++ evs ∧ contents opening = [] ∧ (s.client.isConnected = true → opening = []) ∧
      (AnsweredZero evs ∨ WroteToZero evs ∨ ¬ NoShortWrites evs ∨
        ∃ ch files, Delivered ch m files s.client.batch (conversation evs) ∧ (elems m.attachments).length = files.length ∧
          ∀ p ∈ (elems m.attachments).zip files, .readFile p.1.filename p.2 ∈ evs) := by
  obtain ⟨s1, ⟨opening, ho, hno⟩, hc, hcfg, h1⟩ := sendMail_success env m s s' h
  have key := Proofs.sendMailConnected_post (env := env) m s1
  unfold Proofs.post Proofs.wp at key
  rw [h1] at key
  have hb : s1.client.batch = s.client.batch := by unfold SameConfig at hcfg; simp_all
  have hopen : s.client.isConnected = true → opening = [] := by
    intro hcon
    rw [hc hcon] at ho
    simpa using ho
  have hcont := Proofs.contents_none (fun _ h => h) hno
  rcases key rfl with ⟨evs, he, hbad⟩ | ⟨⟨files, items, ⟨hlen, evs', he', hr⟩, hm', evs, he, ht⟩, _⟩
  · refine ⟨opening, evs, by rw [he, ho], hcont, hopen, ?_⟩
    rcases hbad with h | h
    · exact .inl h
    · exact .inr (.inl h)
  · refine ⟨opening, evs, by rw [he, ho], hcont, hopen, ?_⟩
    rw [he] at he'
    have he' := List.append_cancel_left he'
    subst he'
    by_cases hn : NoShortWrites evs
    · refine .inr (.inr (.inr ⟨Proofs.chan s1.client, files, ?_, hlen, hr⟩))
      have := hm'.delivered hlen hm
      rw [conversation, ht hn, ← hb]
      exact this
    · exact .inr (.inr (.inl hn))

/-- **C29, refuted**: the server answers `000` to everything; no recipient is announced and nothing accepted, and the result is 0. -/
theorem C29_zero_reply_counts_as_success :
    (let r := sendMail mail (scripted ([.data b!"220 hi\r\n"] ++ clear [b!"250 ok\r\n", b!"000 no\r\n", b!"000 no\r\n", b!"000 no\r\n"]))
        (fresh .smtp)
     (r.1, commands r.2.hist)) =
      (.ok 0, [b!"ehlo localhost\r\n", b!"MAIL FROM: <me@here.org>\r\n", b!"DATA\r\n", b!"\r\n.\r\n"]) := by decide +kernel

/-- **C29, refuted**: every send call after EHLO takes one byte only; the result is 0. -/
theorem C29_short_writes_count_as_success :
    (let r := sendMail mail (scripted ([.data b!"220 hi\r\n"] ++
        clear [b!"250 ok\r\n", b!"250 ok\r\n", b!"250 ok\r\n", b!"354 go\r\n", b!"250 ok\r\n"])
          (write := fun n => if n = 0 then none else some (.sent 1))) (fresh .smtp)
     (r.1, (conversation r.2.hist).filterMap fun | .content _ t => some t | _ => none)) =
      (.ok 0, [b!"F", b!"T", b!"S", b!"C", b!"-"]) := by decide +kernel

/-- **C29, refuted**: the To header cannot be sent, the socket is closed; subject, body and end mark go to descriptor 0, from
where also the final reply is read. -/
theorem C29_descriptor_zero :
    (let r := sendMail mail (scripted ([.data b!"220 hi\r\n"] ++
        clear [b!"250 ok\r\n", b!"250 ok\r\n", b!"250 ok\r\n", b!"354 go\r\n", b!"250 ok\r\n"])
          (write := fun n => if n = 5 then some (.fail 32) else none)) (fresh .smtp)
     (r.1, r.2.hist.filterMap fun | .send k c _ _ => some (k, c.fd) | .close _ => some (.quit, -1) | _ => none)) =
      (.ok 0, [(.cmd, 5), (.cmd, 5), (.cmd, 5), (.cmd, 5), (.content, 5), (.content, 5), (.quit, -1), (.content, 0), (.content, 0),
        (.content, 0), (.cmd, 0), (.quit, 0)]) := by decide +kernel

/-- The commands in a conversation. -/
def commandTexts (items : List Item) : List Bytes := items.filterMap fun | .cmd _ t _ => some t | _ => none

theorem turns_texts {ch : Chan} {l : List (Bytes × Int)} {items : List Item} (h : Turns ch l items) :
    commandTexts items = l.map (·.1) := by
  induction h with
  | nil => rfl
  | cons _ _ ih => unfold commandTexts at ih ⊢; simp [ih]

theorem contents_texts (ch : Chan) (l : List Bytes) : commandTexts (l.map (.content ch)) = [] := by
  unfold commandTexts
  rw [List.filterMap_eq_nil_iff]
  simp

/-- The RCPT TO commands of a delivery. -/
theorem delivered_rcpt {ch : Chan} {m : Message} {files : List (Option Bytes)} {keep : Bool} {items : List Item}
    (h : Delivered ch m files keep items) :
    (commandTexts items).filter (b!"RCPT".isPrefixOf ·) = (recipients m).map fun a => b!"RCPT TO: <" ++ a.email ++ b!">\r\n" := by
  obtain ⟨i1, i2, i3, hd, bd, done, rfl, ⟨pre, f, post, hf, h1⟩, h2, h3, _, _, _, h4⟩ := h
  have app : ∀ a b, commandTexts (a ++ b) = commandTexts a ++ commandTexts b := fun a b => List.filterMap_append ..
  have hq : commandTexts (if keep then [] else [.quit ch b!"QUIT\r\n"]) = [] := by cases keep <;> rfl
  have hmail : ∀ g ∈ senderForms m.from, (b!"RCPT".isPrefixOf g) = false := by
    intro g hg
    simp only [senderForms, List.mem_cons, List.not_mem_nil, or_false] at hg
    rcases hg with rfl | rfl | rfl <;> simp [List.isPrefixOf]
  rw [app, app, app, app, app, app, turns_texts h1, turns_texts h2, turns_texts h3, contents_texts, contents_texts, turns_texts h4, hq]
  simp only [List.filter_append, List.map_append, List.map_map, List.append_nil]
  have e1 : List.filter (b!"RCPT".isPrefixOf ·) (pre.map ((fun x => x.1) ∘ (·, (501 : Int)))) = [] := by
    rw [List.filter_eq_nil_iff]
    intro g hg
    obtain ⟨x, hx, rfl⟩ := List.mem_map.mp hg
    simp only [Function.comp]
    rw [hmail x (by rw [hf]; simp [hx])]
    simp
  have e2 : List.filter (b!"RCPT".isPrefixOf ·) ([(f, (250 : Int))].map (·.1)) = [] := by
    have := hmail f (by rw [hf]; simp)
    simp [this]
  have e3 : List.filter (b!"RCPT".isPrefixOf ·) ((recipients m).map ((fun x => x.1) ∘ fun a => (b!"RCPT TO: <" ++ a.email ++ b!">\r\n", (250 : Int)))) =
      (recipients m).map fun a => b!"RCPT TO: <" ++ a.email ++ b!">\r\n" := by
    rw [List.filter_eq_self.mpr]
    · rfl
    · intro g hg
      obtain ⟨x, hx, rfl⟩ := List.mem_map.mp hg
      simp [List.isPrefixOf]
  rw [e1, e2, e3]
  simp [List.isPrefixOf]

/-- **C31, partial.** In a successful `sendMail` the RCPT TO commands are one per recipient, To before Cc before Bcc and in list
order. Missing: the same exceptions as in C29 (`C29_zero_reply_counts_as_success` sends no RCPT TO at all). -/
theorem C31_recipients_in_order_partial (env : Env) (m : Message) (hm : NulFree m) (s s' : St) (h : sendMail m env s = (.ok 0, s')) :
    ∃ opening evs, s'.hist = s.hist ++ opening ++ evs ∧ contents opening = [] ∧
      (AnsweredZero evs ∨ WroteToZero evs ∨ ¬ NoShortWrites evs ∨
        (commandTexts (conversation evs)).filter (b!"RCPT".isPrefixOf ·) =
          (recipients m).map fun a => b!"RCPT TO: <" ++ a.email ++ b!">\r\n") := by
  obtain ⟨opening, evs, h1, h2, _, h3⟩ := C29_zero_means_delivered_partial env m hm s s' h
  refine ⟨opening, evs, h1, h2, ?_⟩
  rcases h3 with h | h | h | ⟨ch, files, h, _⟩
  · exact .inl h
  · exact .inr (.inl h)
  · exact .inr (.inr (.inl h))
  · exact .inr (.inr (.inr (delivered_rcpt h)))

/-- **C33.** In every successful `sendMail` the history splits into a part in which no content but header lines is sent, a
part in which the MIME body is sent in pieces of 1 to 512 bytes (all on the same channel, nothing else in between), and a part
in which the end mark is the only command and no more content is sent. -/
theorem C33_body_complete_in_pieces (env : Env) (m : Message) (hm : NulFree m) (s s' : St) (h : sendMail m env s = (.ok 0, s')) :
    ∃ (before during after : Hist) (ch : Chan) (files : List (Option Bytes)) (body : List Bytes), s'.hist = s.hist ++ before ++ during ++ after ∧
      (∀ t ∈ contents before, ∃ f ∈ fields m, t = fieldLine f ∨ t = fieldLine f ++ b!"\r\n") ∧
      (NoShortWrites during → conversation during = body.map (.content ch)) ∧
      MimeBody m files body.flatten ∧ (∀ p ∈ body, 1 ≤ p.length ∧ p.length ≤ 512) ∧
      (elems m.attachments).length = files.length ∧ (∀ p ∈ (elems m.attachments).zip files, .readFile p.1.filename p.2 ∈ before) ∧
      commands after = [b!"\r\n.\r\n"] ∧ contents after = [] := by
  obtain ⟨s1, ⟨opening, ho, hno⟩, _, _, h1⟩ := sendMail_success env m s s' h
  unfold sendMailConnected at h1
  rw [Proofs.bind_run] at h1
  change (setMailRecipients m >>= fun code => if code ≠ 0 then pure code else sendMailRest m) env
    { s1 with client := { s1.client with isConnected := true } } = (.ok 0, s') at h1
  generalize hs2 : ({ s1 with client := { s1.client with isConnected := true } } : St) = s2 at h1
  have hh : s2.hist = s1.hist := by subst hs2; rfl
  clear hs2
  let T : Bytes → Prop := fun t => ∃ f ∈ fields m, t = fieldLine f ∨ t = fieldLine f ++ b!"\r\n"
  have hT : ∀ t ∈ Proofs.headerLines m, T (cstr t) := by
    intro t ht
    have hn := Proofs.mem_flatten_nul (Proofs.headerLines_flatten m) (Proofs.headerText_nul hm) t ht
    rw [hn]
    unfold Proofs.headerLines at ht
    rw [Proofs.addressLines_eq, Proofs.addressLines_eq, Proofs.fromHeaderValue_eq] at ht
    simp only [List.mem_append, List.mem_cons, List.not_mem_nil, or_false] at ht
    rcases ht with ((rfl | ht) | ht) | rfl | rfl
    · exact ⟨(b!"From", shown m.from), by simp [fields], .inl rfl⟩
    · obtain ⟨f, hf, rfl⟩ := List.mem_map.mp ht
      exact ⟨f, by simp only [fields, List.mem_append]; exact .inl (.inl (.inr hf)), .inl rfl⟩
    · obtain ⟨f, hf, rfl⟩ := List.mem_map.mp ht
      exact ⟨f, by simp only [fields, List.mem_append]; exact .inl (.inr hf), .inl rfl⟩
    · exact ⟨(b!"Subject", m.subject), by simp [fields], .inl rfl⟩
    · exact ⟨(b!"Content-Type", b!"multipart/related; boundary=sep"), by simp [fields], .inr rfl⟩
  have g1 := (Proofs.setMailRecipients_only (env := env) (T := T) m).run s2
  have key : Proofs.post env (setMailRecipients m >>= fun code => if code ≠ 0 then pure code else sendMailRest m)
      (fun code s' => code = 0 → ∃ (s4 s5 s6 : St) (files : List (Option Bytes)) (body : List Bytes), Proofs.NewEvents (Proofs.Allowed (Proofs.OnlyContent T)) s2 s4 ∧
        Proofs.Reads (elems m.attachments) files s4 s5 ∧ Proofs.Speaks [] s4 s5 ∧
        body.flatten = Proofs.bodyText m files ∧ (∀ p ∈ body, 1 ≤ p.length ∧ p.length ≤ 512) ∧
        Proofs.Said (body.map fun p => .content (Proofs.chan s5.client) (cstr p)) s5 s6 ∧ Proofs.Speaks [endOfData] s6 s') s2 := by
    unfold Proofs.post
    rw [Proofs.wp_bind]
    refine Proofs.post_mono (Proofs.post_steps (Proofs.setMailRecipients_only (T := T) m) s2) fun code s3 h3 => ?_
    refine (Proofs.wp_ite ..).mpr ⟨fun h hc => absurd hc h, fun _ => ?_⟩
    unfold sendMailRest
    rw [Proofs.wp_bind]
    refine Proofs.post_mono (Proofs.post_steps (Proofs.setMailHeaders_only (T := T) m hT) s3) fun code s4 h4 => ?_
    refine (Proofs.wp_ite ..).mpr ⟨fun h hc => absurd hc h, fun _ => ?_⟩
    rw [Proofs.wp_bind]
    refine Proofs.post_mono (Proofs.setMailBody_sent m s4) fun code s7 h7 => ?_
    refine (Proofs.wp_ite ..).mpr ⟨fun h hc => absurd hc h, fun hc => ?_⟩
    obtain ⟨files, body, s5, s6, k1, k2, k3, k4, k5, k6⟩ := h7 (Decidable.not_not.mp hc)
    refine Proofs.post_mono (Proofs.steps_speaks ?_ s7) fun _ s8 h8 _ =>
      ⟨s4, s5, s6, files, body, h3.trans h4, k1, k2, k3, k4, k5, by simpa using k6.trans h8⟩
    steps [Proofs.cleanup_steps]
  unfold Proofs.post Proofs.wp at key
  rw [h1] at key
  obtain ⟨s4, s5, s6, files, body, ⟨e4, he4, ha4⟩, ⟨hlen, e5, he5, hr⟩, ⟨e5', he5', hc5, _⟩, hfl, hsz, ⟨_, e6, he6, ht⟩, e7, he7, hc7, hk7⟩ := key rfl
  rw [he5] at he5'
  have := List.append_cancel_left he5'
  subst this
  refine ⟨opening ++ e4 ++ e5, e6, e7, Proofs.chan s5.client, files, body, ?_, ?_, ?_, ?_, hsz, hlen,
    fun p hp => List.mem_append_right _ (hr p hp), hk7, hc7⟩
  · rw [he7, he6, he5, he4, hh, ho]
    simp only [List.append_assoc]
  · intro t ht'
    have e : contents (opening ++ e4 ++ e5) = contents opening ++ contents e4 ++ contents e5 := by
      simp [contents, List.filterMap_append]
    rw [e, hc5, Proofs.contents_none (fun _ h => h) hno] at ht'
    simp only [List.nil_append, List.append_nil] at ht'
    exact Proofs.contents_only ha4 t ht'
  · intro hn
    rw [conversation, ht hn]
    exact Proofs.map_cstr (Proofs.mem_flatten_nul hfl (Proofs.bodyText_nul hm files)) _
  · rw [hfl]
    exact Proofs.bodyText_mime hlen

/-- Non-vacuity: a complete successful run with recipients of every kind and an attachment; the message is free of NUL, no write is
short, and none of the exceptions applies. -/
def bigRun : Res Int × St := sendMail bigMail (scripted ([.data b!"220 hi\r\n"] ++
  clear [b!"250 ok\r\n", b!"250 ok\r\n", b!"250 ok\r\n", b!"250 ok\r\n", b!"250 ok\r\n", b!"250 ok\r\n", b!"354 go\r\n", b!"250 ok\r\n"]))
  (fresh .smtp)

example : bigRun.1 = .ok 0 ∧ NulFree bigMail ∧
    (bigRun.2.hist.all fun | .send _ c d (.sent n) => n == d.length && c == .raw 5 | _ => true) = true ∧
    commands bigRun.2.hist = [b!"ehlo localhost\r\n", b!"MAIL FROM: <me@here.org>\r\n", b!"RCPT TO: <you@there.org>\r\n",
      b!"RCPT TO: <two@there.org>\r\n", b!"RCPT TO: <cc@there.org>\r\n", b!"RCPT TO: <bcc@there.org>\r\n", b!"DATA\r\n",
      b!"\r\n.\r\n"] ∧
    contents bigRun.2.hist = [b!"From: me@here.org\r\n", b!"To: You <you@there.org>, two@there.org\r\n", b!"Cc: cc@there.org\r\n",
      b!"Subject: Hello\r\n", b!"Content-Type: multipart/related; boundary=sep\r\n\r\n",
      b!"--sep\r\nContent-Type: text/plain; charset=UTF-8\r\n\r\nBody\r\n\r\n--sep\r\nContent-Type: text/plain; file=\"a\"\r\nContent-Disposition: Inline; filename=\"a\"\r\nContent-Transfer-Encoding: base64\r\n\r\nZmlsZQ==\r\n--sep--"] := by
  refine ⟨by decide +kernel, ⟨?_, ?_, ?_, ?_, ?_⟩, by decide +kernel, by decide +kernel, by decide +kernel⟩ <;> decide +kernel

end Verif.Props
