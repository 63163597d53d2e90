import Verif.Props.WinScript
import Verif.Props.Reader
/-!
# What the receiver gets from Windows (C84)

What C34, C35, C36, C37 and C94 say about a mail sent from POSIX, said about a mail sent from Windows.
-/
namespace Verif.Props
open Verif Verif.Model Verif.Spec Verif.Proofs

/-- A mail that a client on Windows sent and reported as sent, after any calls before it. -/
structure SentFromWindows (m : Message) (t u : St) : Prop where
  fits : MessageFits m
  nulFree : NulFree m
  run : ∃ (e : Env) (w : WinCalls) (kind : Kind) (name : Bytes) (port : Nat) (cs : List Call) (rs : List CallRes), (∀ c ∈ cs, CallFits c) ∧
    Gen.runCalls (windows w) cs e (newClient kind name port) = (.ok rs, t) ∧ Gen.sendMail (windows w) m e t = (.ok 0, u)

theorem stream_from_windows {m : Message} {t u : St} (h : SentFromWindows m t u) :
    ∃ evs opening rest, u.hist = t.hist ++ evs ∧ spoken evs = opening ++ rest ∧ contents opening = [] ∧ (Flawed rest ∨ ∃ files data,
      MailData m files data ∧ (elems m.attachments).length = files.length ∧
      (∀ p ∈ (elems m.attachments).zip files, .readFile p.1.filename p.2 ∈ rest) ∧
      AfterData (conversation rest) (data ++ b!"\r\n.\r\n" ++ afterMark t.client.batch)) := by
  obtain ⟨hm, hn, e, w, kind, name, port, cs, rs, hf, h1, h2⟩ := h
  obtain ⟨evs, opening, rest, g1, g2, g3, -, g4⟩ := C84_zero_means_delivered_partial e w kind name port cs hf m hm hn rs t u h1 h2
  refine ⟨evs, opening, rest, g1, g2, g3, ?_⟩
  rcases g4 with h | h | h | ⟨ch, files, h, hl, hr⟩
  · exact .inl (.inl h)
  · exact .inl (.inr (.inl h))
  · exact .inl (.inr (.inr h))
  · obtain ⟨data, hd, ha⟩ := delivered_stream h
    exact .inr ⟨files, data, hd, hl, hr, ha⟩

theorem small_rest {t u : St} {evs opening rest : Hist} (hs : SmallFiles u.hist) (h1 : u.hist = t.hist ++ evs) (h2 : spoken evs = opening ++ rest) :
    SmallFiles rest := by
  intro n c hmem
  have : Ev.readFile n (some c) ∈ spoken evs := by rw [h2]; exact List.mem_append_right _ hmem
  exact hs n c (by rw [h1]; exact List.mem_append_right _ (readFile_of_spoken this))

/-- **C34 on Windows.** The receiver of a mail sent from Windows gets exactly the mail data, under the conditions of `C34_receiver_gets_data_partial`. -/
theorem C84_receiver_gets_data_partial (m : Message) (t u : St) (h : SentFromWindows m t u) (ht : OneLineTexts m) (hs : SmallFiles u.hist)
    (hb : NoDotLine m.body) :
    ∃ evs opening rest, u.hist = t.hist ++ evs ∧ spoken evs = opening ++ rest ∧ contents opening = [] ∧ (Flawed rest ∨ ∃ files data bytes,
      MailData m files data ∧ AfterData (conversation rest) bytes ∧ receive (lines bytes) = some (lines data, lines (afterMark t.client.batch))) := by
  obtain ⟨evs, opening, rest, h1, h2, h3, h4⟩ := stream_from_windows h
  refine ⟨evs, opening, rest, h1, h2, h3, h4.imp id ?_⟩
  rintro ⟨files, data, hd, hl, hr, ha⟩
  refine ⟨files, data, _, hd, ha, ?_⟩
  rw [mark_lines]
  exact (Proofs.receive_iff _ _).mpr (data_noDot (evs := rest) hd ht (small_rest hs h1 h2) hl hr hb)

/-- **C35 and C94 on Windows.** The header section of a mail sent from Windows has exactly the meant lines, under the conditions of
`C35_no_added_lines_partial`, and a mail program shows the meant sender, recipients and subject, under those of `C94_shown_as_meant_partial`. -/
theorem C84_header_section_partial (m : Message) (t u : St) (h : SentFromWindows m t u) (hs : CrlfFree m.subject)
    (ha : ∀ a ∈ m.from :: (elems m.to ++ elems m.cc), CrlfFree a.displayName ∧ Made a) :
    ∃ evs opening rest, u.hist = t.hist ++ evs ∧ spoken evs = opening ++ rest ∧ contents opening = [] ∧ (Flawed rest ∨ ∃ bytes,
      AfterData (conversation rest) bytes ∧ headerSection (lines bytes) = meantHeader m ∧
      ((∀ a ∈ m.from :: (elems m.to ++ elems m.cc), Quotable a) → ShownAs m (headerSection (lines bytes)))) := by
  obtain ⟨evs, opening, rest, h1, h2, h3, h4⟩ := stream_from_windows h
  refine ⟨evs, opening, rest, h1, h2, h3, h4.imp id ?_⟩
  rintro ⟨files, data, ⟨b, hb, rfl⟩, -, -, hd⟩
  have key : headerSection (lines (headerText m ++ b ++ b!"\r\n.\r\n" ++ afterMark t.client.batch)) = meantHeader m := by
    rw [List.append_assoc, List.append_assoc]
    refine ((Proofs.header_section_iff m _).trans (fields_free m)).mpr ?_
    exact ⟨hs, fun a h => ⟨(ha a h).1, Proofs.noBreak_crlfFree (C12_accepted_address_facts _ (ha a h).2).1⟩⟩
  exact ⟨_, hd, key, fun hq => by rw [key]; exact shownAs_meant m hq⟩

/-- **C36 and C37 on Windows.** A parser finds the body and the attachments of a mail sent from Windows, under the conditions of
`C36_parsed_back_partial`, and the attachments arrive bit-exact, under those of `C37_files_arrive_partial`. -/
theorem C84_parts_arrive_partial (m : Message) (t u : St) (h : SentFromWindows m t u) (ha : elems m.attachments ≠ []) :
    ∃ evs opening rest, u.hist = t.hist ++ evs ∧ spoken evs = opening ++ rest ∧ contents opening = [] ∧ (Flawed rest ∨ ∃ files data encs,
      (∀ p ∈ (elems m.attachments).zip files, .readFile p.1.filename p.2 ∈ rest) ∧
      AfterData (conversation rest) (data ++ b!"\r\n.\r\n" ++ afterMark t.client.batch) ∧
      files.length = (elems m.attachments).length ∧ encs.length = (elems m.attachments).length ∧
      data = headerText m ++ textPart m ++ (((elems m.attachments).zip encs).map fun q => attachmentHead q.1 ++ q.2).flatten ++ b!"\r\n--sep--" ∧
      FilesEncoded files encs ∧
      (OneLineTexts m → SmallFiles u.hist → NoDelimiter m.body →
        ∃ parts, multipart b!"sep" (afterHeader (lines data)) = some parts ∧ Parsed m files parts)) := by
  obtain ⟨evs, opening, rest, h1, h2, h3, h4⟩ := stream_from_windows h
  refine ⟨evs, opening, rest, h1, h2, h3, h4.imp id ?_⟩
  rintro ⟨files, data, hd, hl, hr, had⟩
  obtain ⟨encs, g1, g2, g3, g4⟩ := data_files hd ha
  exact ⟨files, data, encs, hr, had, g1, g2, g3, g4, fun ht hs hb => data_parsed hd ht (small_rest hs h1 h2) hl hr hb ha⟩

/-- **C93 on Windows, text.** The lines of the text a call sends on Windows are within the limit of RFC 5321, under the conditions of `C93_text_partial`. -/
theorem C84_line_lengths_partial (e : Env) (w : WinCalls) (kind : Kind) (name : Bytes) (port : Nat) (cs : List Call) (hf : ∀ c ∈ cs, CallFits c) (m : Message)
    (hm : MessageFits m) (hn : NulFree m) (ht : TextFits m) (rs : List CallRes) (t u : St) (code : Int)
    (h1 : Gen.runCalls (windows w) cs e (newClient kind name port) = (.ok rs, t)) (h2 : Gen.sendMail (windows w) m e t = (.ok code, u))
    (hc : ∀ c, t.client.credential = some c → Modest c) :
    ∃ evs, u.hist = t.hist ++ evs ∧
      (ReplyIn (spoken evs) 0 ∨ (∃ n c, .readFile n (some c) ∈ evs ∧ 747 < c.length) ∨
        ∃ text, saidContent (uttered evs) <+: text ∧ LinesFit text ∧ (code = 0 → saidContent (uttered evs) = text)) := by
  obtain ⟨e', rs', t', code', u', h3, h4, -, hcode, hv, -, hx⟩ := C84_each_mail_partial e w kind name port cs hf m hm rs t u code h1 h2
  obtain ⟨evs, h5, h6⟩ := C93_text_partial e' m hn ht t' (by intro c h; rw [← hv.settings.credential] at h; exact hc c h)
  rw [h4] at h5 h6
  obtain ⟨evs0, h7, h8⟩ := hx evs h5
  have same : uttered evs0 = uttered evs := by rw [← uttered_spoken, h8, uttered_spoken]
  refine ⟨evs0, h7, ?_⟩
  rw [same]
  rcases h6 with h | ⟨n, c, h, hl⟩ | ⟨text, g1, g2, g3⟩
  · exact .inl (by rw [h8]; exact replyIn_spoken h)
  · have := readFile_spoken h
    rw [← h8] at this
    exact .inr (.inl ⟨n, c, readFile_of_spoken this, hl⟩)
  · refine .inr (.inr ⟨text, g1, g2, fun h0 => g3 ?_⟩)
    subst h0
    rcases hcode with h | ⟨h | h | h, -⟩ | ⟨h, -⟩
    · exact congrArg _ h.symm
    all_goals cases h

/-- A server that accepts the mail below. -/
def acceptingWindows : Env :=
  scripted ([.data b!"220 hi\r\n"] ++ clear [b!"250 ok\r\n", b!"250 ok\r\n", b!"250 ok\r\n", b!"250 ok\r\n", b!"354 go\r\n", b!"250 ok\r\n"])

/-- The hypotheses of the theorems above are met by a mail with an attachment that is sent from Windows, and this is what a mail program shows. -/
example : (∃ u, SentFromWindows windowsMail (newClient .smtp b!"mail.org" 25) u ∧ SmallFiles u.hist ∧
      namedIn b!"To" (headerSection (contentLines u.hist)) = (elems windowsMail.to).map person) ∧
    OneLineTexts windowsMail ∧ NoDotLine windowsMail.body ∧ NoDelimiter windowsMail.body ∧ TextFits windowsMail ∧ elems windowsMail.attachments ≠ [] ∧
    (∀ a ∈ windowsMail.from :: (elems windowsMail.to ++ elems windowsMail.cc), CrlfFree a.displayName ∧ Made a) ∧
    ∀ a ∈ windowsMail.from :: (elems windowsMail.to ++ elems windowsMail.cc), Quotable a := by
  have hf : ∀ l : Bytes, 13 ∉ l → CrlfFree l := fun _ => Proofs.crlfFree_noCR
  refine ⟨⟨(Gen.sendMail (windows fineCalls) windowsMail
      acceptingWindows
      (newClient .smtp b!"mail.org" 25)).2, ⟨windowsMail_fits, by constructor <;> decide, ?_⟩, ?_, by decide +kernel⟩, ⟨?_, hf _ (by decide), ?_, .inl rfl⟩,
    by unfold NoDotLine; decide, by unfold NoDelimiter; decide, ?_, by decide, ?_, ?_⟩
  · have h0 : (Gen.sendMail (windows fineCalls) windowsMail acceptingWindows (newClient .smtp b!"mail.org" 25)).1 = .ok 0 := by decide +kernel
    have e : ∀ {p : Res Int × St}, p.1 = .ok 0 → p = (.ok 0, p.2) := fun h => by rw [← h]
    exact ⟨acceptingWindows, fineCalls, .smtp, b!"mail.org", 25, [], [], by simp, rfl, e h0⟩
  · intro n c hmem
    generalize hh : (Gen.sendMail _ _ _ _).2.hist = h at hmem
    have : ∀ c ∈ h.filterMap (fun | .readFile _ (some c) => some c | _ => none), c.length < 2 ^ 32 := by rw [← hh]; decide +kernel
    exact this c (List.mem_filterMap.mpr ⟨_, hmem, rfl⟩)
  · intro a ha
    exact ⟨hf _ (by revert a; decide), hf _ (by revert a; decide)⟩
  · intro a ha
    exact ⟨hf _ (by revert a; decide), hf _ (by revert a; decide)⟩
  · exact ⟨by decide +kernel, by decide, by decide, by decide⟩
  · intro a ha
    refine ⟨hf _ (by revert a; decide), ?_⟩
    revert a
    unfold Made
    decide +kernel
  · unfold Quotable
    decide +kernel

end Verif.Props
