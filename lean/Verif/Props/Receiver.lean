import Verif.Proofs.Receiver
import Verif.Props.Delivery
import Verif.Props.Address
import Verif.Props.Mime
/-!
# C34, C35, C36, C37: what the receiver gets
-/
namespace Verif.Props
open Verif Verif.Model Verif.Spec

/-! ### The bytes after DATA -/

/-- The bytes that were sent after the server agreed to DATA. -/
def AfterData (items : List Item) (bytes : Bytes) : Prop :=
  ∃ before ch ans after, items = before ++ .cmd ch b!"DATA\r\n" ans :: after ∧ ReplyCode ans 354 ∧ bytes = said after

/-- The exceptions of C29: a reply that reads as number 0, writes to descriptor 0, short writes. -/
def Flawed (evs : Hist) : Prop := AnsweredZero evs ∨ WroteToZero evs ∨ ¬ NoShortWrites evs

/-- The mail data: header section and MIME body, the files having these contents. -/
def MailData (m : Message) (files : List (Option Bytes)) (data : Bytes) : Prop :=
  ∃ t, MimeBody m files t ∧ data = headerText m ++ t

/-- What follows the mail data. -/
def afterMark (keep : Bool) : Bytes := if keep then [] else b!"QUIT\r\n"

theorem said_append (a b : List Item) : said (a ++ b) = said a ++ said b := by simp [said]

theorem said_content (ch : Chan) (l : List Bytes) : said (l.map (.content ch)) = l.flatten := by
  induction l with
  | nil => rfl
  | cons x l ih => simp only [said, List.map_cons, List.flatten_cons] at ih ⊢; rw [ih]

theorem delivered_stream {ch : Chan} {m : Message} {files : List (Option Bytes)} {keep : Bool} {items : List Item}
    (h : Delivered ch m files keep items) :
    ∃ data, MailData m files data ∧ AfterData items (data ++ b!"\r\n.\r\n" ++ afterMark keep) := by
  obtain ⟨i1, i2, i3, hd, bd, done, rfl, _, _, h3, hh, hb, _, h4⟩ := h
  cases h3 with
  | cons hr hn =>
    cases hn
    cases h4 with
    | cons hr' hn' =>
      cases hn'
      rename_i t2
      refine ⟨_, ⟨_, hb, rfl⟩, i1 ++ i2, ch, _, hd.map (.content ch) ++ (bd.map (.content ch) ++ (.cmd ch b!"\r\n.\r\n" t2 ::
        (if keep then [] else [.quit ch b!"QUIT\r\n"]))), ?_, hr, ?_⟩
      · simp only [List.append_assoc, List.cons_append, List.nil_append]
      · rw [said_append, said_append, said_content, said_content, hh]
        cases keep <;> simp [said, afterMark]

theorem stream_of_success (env : Env) (m : Message) (hm : NulFree m) (s s' : St) (h : sendMail m env s = (.ok 0, s')) :
    ∃ opening evs, s'.hist = s.hist ++ opening ++ evs ∧ contents opening = [] ∧ (Flawed evs ∨ ∃ files data,
      MailData m files data ∧ (elems m.attachments).length = files.length ∧
      (∀ p ∈ (elems m.attachments).zip files, .readFile p.1.filename p.2 ∈ evs) ∧
      AfterData (conversation evs) (data ++ b!"\r\n.\r\n" ++ afterMark s.client.batch)) := by
  obtain ⟨opening, evs, h1, h2, _, h3⟩ := C29_zero_means_delivered_partial env m hm s s' h
  refine ⟨opening, evs, h1, h2, ?_⟩
  rcases h3 with h | h | h | ⟨ch, files, h, hl, hr⟩
  · exact .inl (.inl h)
  · exact .inl (.inr (.inl h))
  · exact .inl (.inr (.inr h))
  · obtain ⟨data, hd, ha⟩ := delivered_stream h
    exact .inr ⟨files, data, hd, hl, hr, ha⟩

/-! ### Texts without line ends -/

/-- All files were smaller than 4 GiB. -/
def SmallFiles (h : Hist) : Prop := ∀ n c, .readFile n (some c) ∈ h → c.length < 2 ^ 32

/-- The user's one-line texts are really without CRLF, and the type is one of the two the library has. The body is not restricted. -/
structure OneLineTexts (m : Message) : Prop where
  addresses : ∀ a ∈ m.from :: (elems m.to ++ elems m.cc), CrlfFree a.displayName ∧ CrlfFree a.email
  subject : CrlfFree m.subject
  attachments : ∀ a ∈ elems m.attachments, CrlfFree a.name ∧ CrlfFree a.contentId
  mime : m.mime = mimePlain ∨ m.mime = mimeHtml

theorem free_lit {l : Bytes} (h : 13 ∉ l) : CrlfFree l := Proofs.crlfFree_noCR h

theorem free_append_lit {a l : Bytes} (ha : CrlfFree a) (hl : 13 ∉ l) (h : l.head? ≠ some 10) : CrlfFree (a ++ l) :=
  (Proofs.crlfFree_append (.inr h)).mpr ⟨ha, free_lit hl⟩

theorem free_lit_append {l v : Bytes} (hl : 13 ∉ l) (hv : CrlfFree v) : CrlfFree (l ++ v) := by
  refine (Proofs.crlfFree_append (.inl ?_)).mpr ⟨free_lit hl, hv⟩
  intro h
  exact hl (List.mem_of_getLast? h)

theorem free_append_iff {a l v : Bytes} (hl : 13 ∉ l) (hne : l ≠ []) (hh : l.head? ≠ some 10) :
    CrlfFree (a ++ l ++ v) ↔ CrlfFree a ∧ CrlfFree v := by
  rw [List.append_assoc, Proofs.crlfFree_append, Proofs.crlfFree_append (.inl ?_)]
  · exact ⟨fun h => ⟨h.1, h.2.2⟩, fun h => ⟨h.1, free_lit hl, h.2⟩⟩
  · intro h; exact hl (List.mem_of_getLast? h)
  · refine .inr ?_
    cases l with
    | nil => exact absurd rfl hne
    | cons c l => exact hh

theorem shown_free (a : MessageAddress) : CrlfFree (shown a) ↔ CrlfFree a.displayName ∧ CrlfFree a.email := by
  unfold shown
  split
  · rename_i h
    rw [h]
    exact ⟨fun h => ⟨free_lit (by decide), h⟩, fun h => h.2⟩
  · rw [Proofs.crlfFree_append (.inr (by decide)), free_append_iff (by decide) (by decide) (by decide)]
    exact ⟨fun h => h.1, fun h => ⟨h, free_lit (by decide)⟩⟩

theorem intercalate_free (l : List Bytes) : CrlfFree (List.intercalate b!", " l) ↔ ∀ x ∈ l, CrlfFree x := by
  induction l with
  | nil => simp only [List.not_mem_nil, false_implies, implies_true, iff_true]; exact free_lit (by decide)
  | cons x l ih =>
    cases l with
    | nil => simp [List.intercalate]
    | cons y l =>
      rw [Proofs.intercalate_cons_cons _ _ _ (by simp), free_append_iff (by decide) (by decide) (by decide), ih]
      simp

theorem field_free {n v : Bytes} (hn : 13 ∉ n) : CrlfFree (Proofs.fieldBare (n, v)) ↔ CrlfFree v := by
  unfold Proofs.fieldBare
  rw [free_append_iff (by decide) (by decide) (by decide)]
  exact ⟨fun h => h.2, fun h => ⟨free_lit hn, h⟩⟩

theorem fields_free (m : Message) : (∀ f ∈ fields m, CrlfFree (Proofs.fieldBare f)) ↔
    CrlfFree m.subject ∧ ∀ a ∈ m.from :: (elems m.to ++ elems m.cc), CrlfFree a.displayName ∧ CrlfFree a.email := by
  have many : ∀ n l, 13 ∉ n → ((∀ f ∈ (if l = [] then [] else [(n, List.intercalate b!", " (l.map shown))] : List (Bytes × Bytes)),
      CrlfFree (Proofs.fieldBare f)) ↔ ∀ a ∈ l, CrlfFree a.displayName ∧ CrlfFree a.email) := by
    intro n l hn
    split
    · rename_i h; simp [h]
    · simp only [List.mem_singleton, forall_eq]
      rw [field_free hn, intercalate_free]
      simp only [List.mem_map, forall_exists_index, and_imp, forall_apply_eq_imp_iff₂, shown_free]
  have h1 := many b!"To" (elems m.to) (by decide)
  have h2 := many b!"Cc" (elems m.cc) (by decide)
  have h3 : CrlfFree (Proofs.fieldBare (b!"From", shown m.from)) ↔ _ := (field_free (by decide)).trans (shown_free _)
  have h4 : CrlfFree (Proofs.fieldBare (b!"Subject", m.subject)) ↔ _ := field_free (by decide)
  have h5 : CrlfFree (Proofs.fieldBare (b!"Content-Type", b!"multipart/related; boundary=sep")) := (field_free (by decide)).mpr (free_lit (by decide))
  constructor
  · intro h
    refine ⟨h4.mp (h _ (by simp [fields])), fun a ha => ?_⟩
    rcases List.mem_cons.mp ha with rfl | ha
    · exact h3.mp (h _ (by simp [fields]))
    · rcases List.mem_append.mp ha with ha | ha
      · exact h1.mp (fun f hf => h f (by simp only [fields, List.mem_append]; exact .inl (.inl (.inr hf)))) a ha
      · exact h2.mp (fun f hf => h f (by simp only [fields, List.mem_append]; exact .inl (.inr hf))) a ha
  · rintro ⟨hs, ha⟩ f hf
    simp only [fields, List.mem_append] at hf
    rcases hf with ((hf | hf) | hf) | hf
    · rw [List.mem_singleton.mp hf]
      exact h3.mpr (ha _ (List.mem_cons_self ..))
    · exact h1.mpr (fun a h => ha a (List.mem_cons_of_mem _ (List.mem_append_left _ h))) f hf
    · exact h2.mpr (fun a h => ha a (List.mem_cons_of_mem _ (List.mem_append_right _ h))) f hf
    · simp only [List.mem_cons, List.not_mem_nil, or_false] at hf
      rcases hf with rfl | rfl
      · exact h4.mpr hs
      · exact h5

/-! ### C35: the header section -/

/-- The header lines that are meant: name, colon, value. -/
def meantHeader (m : Message) : List Bytes := (fields m).map fun f => f.1 ++ b!": " ++ f.2

/-- **C35, exact.** The header section of the mail data is From, To, Cc (if there are such recipients), Subject and Content-Type with the meant
values if and only if no CRLF is in the subject, the display names and the addresses. -/
theorem C35_header_section_iff (m : Message) (files : List (Option Bytes)) (data : Bytes) (h : MailData m files data) :
    headerSection (lines data) = meantHeader m ↔
      CrlfFree m.subject ∧ ∀ a ∈ m.from :: (elems m.to ++ elems m.cc), CrlfFree a.displayName ∧ CrlfFree a.email := by
  obtain ⟨t, _, rfl⟩ := h
  exact (Proofs.header_section_iff m t).trans (fields_free m)

/-- An address made by the constructor. -/
def Made (a : MessageAddress) : Prop := isEmailAddressValid a.email = true

/-- **C35, partial.** After a successful `sendMail` the header section the server got has exactly the meant lines, when the subject and the
display names are without CRLF. The addresses need not be assumed to be: the constructor accepts none with CRLF. What is missing is refuted by
`C35_injected_header`. -/
theorem C35_no_added_lines_partial (env : Env) (m : Message) (hm : NulFree m) (s s' : St) (h : sendMail m env s = (.ok 0, s'))
    (hs : CrlfFree m.subject) (ha : ∀ a ∈ m.from :: (elems m.to ++ elems m.cc), CrlfFree a.displayName ∧ Made a) :
    ∃ opening evs, s'.hist = s.hist ++ opening ++ evs ∧ contents opening = [] ∧ (Flawed evs ∨ ∃ bytes,
      AfterData (conversation evs) bytes ∧ headerSection (lines bytes) = meantHeader m) := by
  obtain ⟨opening, evs, h1, h2, h3⟩ := stream_of_success env m hm s s' h
  refine ⟨opening, evs, h1, h2, h3.imp id ?_⟩
  rintro ⟨files, data, ⟨t, ht, rfl⟩, _, _, hd⟩
  refine ⟨_, hd, ?_⟩
  rw [List.append_assoc, List.append_assoc]
  refine ((Proofs.header_section_iff m _).trans (fields_free m)).mpr ?_
  exact ⟨hs, fun a h => ⟨(ha a h).1, Proofs.noBreak_crlfFree (C12_accepted_address_facts _ (ha a h).2).1⟩⟩

/-- A message whose subject brings a header line and a body of its own. -/
def injecting : Message := { mail with subject := b!"Hi\r\nBcc: all@there.org\r\n\r\nOther body" }

/-- All answers of a server that accepts a message. -/
def acceptingServer : List RecvRes :=
  [.data b!"220 hi\r\n"] ++ clear [b!"250 ok\r\n", b!"250 ok\r\n", b!"250 ok\r\n", b!"354 go\r\n", b!"250 ok\r\n"]

/-- The lines of the message content of a run. -/
def contentLines (h : Hist) : List Bytes := lines (contents h).flatten

/-- **C35, refuted**: a subject with CRLF adds a header line and ends the header section. -/
theorem C35_injected_header :
    (let r := sendMail injecting (scripted acceptingServer) (fresh .smtp)
     (r.1, headerSection (contentLines r.2.hist))) =
      (.ok 0, [b!"From: me@here.org", b!"To: You <you@there.org>", b!"Subject: Hi", b!"Bcc: all@there.org"]) := by
  decide +kernel

/-- The hypotheses of `C35_no_added_lines_partial` are met by a message with recipients of all kinds, and the header section is as meant. -/
example : (∀ a ∈ bigMail.from :: (elems bigMail.to ++ elems bigMail.cc), CrlfFree a.displayName ∧ Made a) ∧ CrlfFree bigMail.subject ∧
    meantHeader bigMail = [b!"From: me@here.org", b!"To: You <you@there.org>, two@there.org", b!"Cc: cc@there.org", b!"Subject: Hello",
      b!"Content-Type: multipart/related; boundary=sep"] := by
  refine ⟨fun a ha => ⟨Proofs.crlfFree_noCR (by revert a; decide), ?_⟩, Proofs.crlfFree_noCR (by decide), by decide⟩
  revert a
  unfold Made
  decide +kernel

/-! ### The lines of the mail data -/

theorem lines_line {l : Bytes} (h : CrlfFree l) (rest : Bytes) : lines (l ++ 13 :: 10 :: rest) = l :: lines rest := by
  rw [Proofs.lines_append_sep, Proofs.lines_crlfFree h]; rfl

/-- The header lines of the part of an attachment. -/
def partHeader (a : Attachment) : List Bytes :=
  [b!"Content-Type: " ++ fileType a.filename ++ b!"; file=\"" ++ a.name ++ b!"\""] ++
  (if a.contentId = [] then [b!"Content-Disposition: Inline; filename=\"" ++ a.name ++ b!"\""]
   else [b!"X-Attachment-Id: " ++ a.contentId, b!"Content-ID: <" ++ a.contentId ++ b!">",
     b!"Content-Disposition: attachment; filename=\"" ++ a.name ++ b!"\""]) ++
  [b!"Content-Transfer-Encoding: base64"]

/-- The header line of the part of the body. -/
def bodyHeader (m : Message) : Bytes := b!"Content-Type: " ++ m.mime ++ b!"; charset=UTF-8"

theorem mimeType_free (a : Attachment) : 13 ∉ fileType a.filename := by
  rw [← C14_file_type]
  have h : ∀ p ∈ mimeTable, 13 ∉ p.2 := by decide +kernel
  unfold Attachment.mimeType
  rcases mimeLookup_mem (toUpper (extensionOf a.filename)) mimeTable with h' | ⟨h1, _⟩
  · exact h _ h'
  · simp [h1]

theorem quoted_free {l v : Bytes} (hl : 13 ∉ l) (hv : CrlfFree v) (e : Bytes) (he : 13 ∉ e) (hh : e.head? ≠ some 10) : CrlfFree (l ++ v ++ e) :=
  free_append_lit (free_lit_append hl hv) he hh

theorem partHeader_free {a : Attachment} (hn : CrlfFree a.name) (hc : CrlfFree a.contentId) : ∀ l ∈ partHeader a, CrlfFree l := by
  intro l hl
  have h1 : CrlfFree (b!"Content-Type: " ++ fileType a.filename ++ b!"; file=\"" ++ a.name ++ b!"\"") := by
    refine quoted_free ?_ hn _ (by decide) (by decide)
    simp only [List.mem_append, not_or]
    exact ⟨⟨by decide, mimeType_free a⟩, by decide⟩
  unfold partHeader at hl
  simp only [List.mem_append, List.mem_singleton] at hl
  rcases hl with (rfl | hl) | rfl
  · exact h1
  · split at hl
    · rw [List.mem_singleton.mp hl]
      exact quoted_free (by decide) hn _ (by decide) (by decide)
    · simp only [List.mem_cons, List.not_mem_nil, or_false] at hl
      rcases hl with rfl | rfl | rfl
      · exact free_lit_append (by decide) hc
      · exact quoted_free (by decide) hc _ (by decide) (by decide)
      · exact quoted_free (by decide) hn _ (by decide) (by decide)
  · exact free_lit (by decide)

theorem partHeader_ne (a : Attachment) : ∀ l ∈ partHeader a, l ≠ [] ∧ l.head? ≠ some 46 ∧ ¬ IsDelimiter b!"sep" l := by
  intro l hl
  unfold partHeader at hl
  simp only [List.mem_append, List.mem_singleton] at hl
  have key : ∀ c l, c ≠ 46 → c ≠ 45 → (c :: l) ≠ [] ∧ (c :: l : Bytes).head? ≠ some 46 ∧ ¬ IsDelimiter b!"sep" (c :: l) := by
    intro c l h1 h2
    refine ⟨by simp, by simpa using h1, ?_⟩
    rintro ⟨t, ht⟩
    injection ht with h3
    exact h2 h3.symm
  rcases hl with (rfl | hl) | rfl
  · simp only [List.cons_append]; exact key _ _ (by decide) (by decide)
  · split at hl
    · rw [List.mem_singleton.mp hl]
      simp only [List.cons_append]; exact key _ _ (by decide) (by decide)
    · simp only [List.mem_cons, List.not_mem_nil, or_false] at hl
      rcases hl with rfl | rfl | rfl
      all_goals simp only [List.cons_append]; exact key _ _ (by decide) (by decide)
  · exact key _ _ (by decide) (by decide)

theorem lines_map {ls : List Bytes} (h : ∀ l ∈ ls, CrlfFree l) (rest : Bytes) :
    lines ((ls.map (· ++ b!"\r\n")).flatten ++ rest) = ls ++ lines rest := by
  induction ls with
  | nil => rfl
  | cons l ls ih =>
    have : ((l :: ls).map (· ++ b!"\r\n")).flatten ++ rest = l ++ 13 :: 10 :: ((ls.map (· ++ b!"\r\n")).flatten ++ rest) := by simp
    rw [this, lines_line (h l (by simp)), ih fun x hx => h x (by simp [hx])]
    rfl

theorem attachmentHead_eq (a : Attachment) :
    attachmentHead a = 13 :: 10 :: (((b!"--sep" :: partHeader a ++ [[]]).map (· ++ b!"\r\n")).flatten) := by
  unfold attachmentHead partHeader
  split <;> simp

theorem lines_head {a : Attachment} (hn : CrlfFree a.name) (hc : CrlfFree a.contentId) (x rest : Bytes) :
    lines (x ++ (attachmentHead a ++ rest)) = lines x ++ (b!"--sep" :: partHeader a ++ [] :: lines rest) := by
  rw [attachmentHead_eq, List.cons_append, List.cons_append, Proofs.lines_append_sep, lines_map]
  · simp
  · intro l hl
    simp only [List.cons_append, List.mem_cons, List.mem_append, List.not_mem_nil, or_false] at hl
    rcases hl with rfl | hl | rfl
    · exact free_lit (by decide)
    · exact partHeader_free hn hc l hl
    · exact free_lit (by decide)

/-- The lines of an attachment part, its delimiter included. -/
def partLines (p : Attachment × Bytes) : List Bytes := b!"--sep" :: partHeader p.1 ++ [] :: lines p.2

theorem parts_lines {as : List Attachment} {fs : List (Option Bytes)} {p : Bytes} (h : Parts as fs p)
    (ha : ∀ a ∈ as, CrlfFree a.name ∧ CrlfFree a.contentId) (x : Bytes) :
    ∃ encs : List Bytes, encs.length = as.length ∧ fs.length = as.length ∧ (∀ q ∈ fs.zip encs, Encodes q.1 q.2) ∧
      p = ((as.zip encs).map fun q => attachmentHead q.1 ++ q.2).flatten ∧
      lines (x ++ (p ++ b!"\r\n--sep--")) = lines x ++ ((as.zip encs).map partLines).flatten ++ [b!"--sep--"] := by
  induction h generalizing x with
  | nil =>
    refine ⟨[], rfl, rfl, by simp, rfl, ?_⟩
    show lines (x ++ 13 :: 10 :: b!"--sep--") = _
    rw [Proofs.lines_append_sep]
    simp [lines, consFirst]
  | @cons a f enc as fs t he _ ih =>
    obtain ⟨encs, h1, h1', h2, h3, h4⟩ := ih (fun a h => ha a (List.mem_cons_of_mem _ h)) enc
    refine ⟨enc :: encs, by simp [h1], by simp [h1'], ?_, by simp [h3], ?_⟩
    · intro q hq
      rcases List.mem_cons.mp hq with rfl | hq
      · exact he
      · exact h2 q hq
    · have := ha a (List.mem_cons_self ..)
      rw [List.append_assoc, List.append_assoc, lines_head this.1 this.2, h4]
      simp [partLines]

theorem text_lines {m : Message} (hm : m.mime = mimePlain ∨ m.mime = mimeHtml) (rest : Bytes) :
    lines (textPart m ++ rest) = b!"--sep" :: bodyHeader m :: [] :: (lines m.body ++ lines rest) := by
  have : textPart m ++ rest = (([b!"--sep", bodyHeader m, []].map (· ++ b!"\r\n")).flatten) ++ (m.body ++ 13 :: 10 :: rest) := by
    simp [textPart, bodyHeader]
  rw [this, lines_map, Proofs.lines_append_sep]
  · simp
  · intro l hl
    simp only [List.mem_cons, List.not_mem_nil, or_false] at hl
    rcases hl with rfl | rfl | rfl
    · exact free_lit (by decide)
    · unfold bodyHeader
      refine quoted_free (by decide) ?_ _ (by decide) (by decide)
      rcases hm with h | h <;> rw [h] <;> exact free_lit (by decide)
    · exact free_lit (by decide)

/-- The lines of the mail data when the one-line texts are one line each. -/
theorem data_lines {m : Message} {files : List (Option Bytes)} {data : Bytes} (h : MailData m files data) (ht : OneLineTexts m) :
    ∃ encs : List Bytes, (∀ q ∈ files.zip encs, Encodes q.1 q.2) ∧
      (elems m.attachments ≠ [] → encs.length = (elems m.attachments).length ∧ files.length = (elems m.attachments).length) ∧
      lines data = meantHeader m ++ [] :: b!"--sep" :: bodyHeader m :: [] :: (lines m.body ++ [] ::
        (if elems m.attachments = [] then [] else (((elems m.attachments).zip encs).map partLines).flatten ++ [b!"--sep--"])) := by
  obtain ⟨t, hb, rfl⟩ := h
  rw [Proofs.header_lines ((fields_free m).mpr ⟨ht.subject, ht.addresses⟩)]
  unfold MimeBody at hb
  split at hb
  · rename_i h0
    refine ⟨[], by simp, fun h => absurd h0 h, ?_⟩
    rw [hb]
    have := text_lines ht.mime []
    rw [List.append_nil] at this
    rw [this]
    simp [meantHeader, Proofs.fieldBare, h0, lines]
  · rename_i h0
    obtain ⟨p, hp, rfl⟩ := hb
    obtain ⟨encs, h1, h1', h2, -, h3⟩ := parts_lines hp ht.attachments []
    refine ⟨encs, h2, fun _ => ⟨h1, h1'⟩, ?_⟩
    rw [List.append_assoc, text_lines ht.mime, ← List.nil_append (p ++ _), h3]
    simp [meantHeader, Proofs.fieldBare, h0, lines]

/-! ### C34: transparency -/

/-- No line begins with a period. -/
def NoDotLine (t : Bytes) : Prop := ∀ l ∈ lines t, l.head? ≠ some 46

theorem mark_lines (data rest : Bytes) : lines (data ++ b!"\r\n.\r\n" ++ rest) = lines data ++ [46] :: lines rest := by
  have : data ++ b!"\r\n.\r\n" ++ rest = data ++ 13 :: 10 :: ([46] ++ 13 :: 10 :: rest) := by simp
  rw [this, Proofs.lines_append_sep, lines_line (free_lit (by decide))]

/-- **C34, exact.** After a successful `sendMail` an RFC 5321 receiver gets the mail data as it was meant, and QUIT (or nothing) as the next
command, if and only if no line of the mail data begins with a period. -/
theorem C34_transparent_iff (env : Env) (m : Message) (hm : NulFree m) (s s' : St) (h : sendMail m env s = (.ok 0, s')) :
    ∃ opening evs, s'.hist = s.hist ++ opening ++ evs ∧ contents opening = [] ∧ (Flawed evs ∨ ∃ files data bytes,
      MailData m files data ∧ AfterData (conversation evs) bytes ∧
      (receive (lines bytes) = some (lines data, lines (afterMark s.client.batch)) ↔ NoDotLine data)) := by
  obtain ⟨opening, evs, h1, h2, h3⟩ := stream_of_success env m hm s s' h
  refine ⟨opening, evs, h1, h2, h3.imp id ?_⟩
  rintro ⟨files, data, hd, _, _, ha⟩
  refine ⟨files, data, _, hd, ha, ?_⟩
  rw [mark_lines]
  exact Proofs.receive_iff _ _

theorem mem_zip_right {β γ : Type} {a : List β} {b : List γ} (h : a.length = b.length) {y : γ} (hy : y ∈ b) : ∃ x, (x, y) ∈ a.zip b := by
  obtain ⟨i, hi, rfl⟩ := List.mem_iff_getElem.mp hy
  exact ⟨a[i], List.mem_iff_getElem.mpr ⟨i, by simp; omega, by simp⟩⟩

theorem encs_unmarked {m : Message} {files : List (Option Bytes)} {encs : List Bytes} {evs : Hist} (hs : SmallFiles evs)
    (hl : (elems m.attachments).length = files.length) (hl' : files.length = encs.length)
    (hr : ∀ p ∈ (elems m.attachments).zip files, .readFile p.1.filename p.2 ∈ evs)
    (he : ∀ q ∈ files.zip encs, Encodes q.1 q.2) : ∀ e ∈ encs, 45 ∉ e ∧ 46 ∉ e := by
  intro e hmem
  obtain ⟨f, hf⟩ := mem_zip_right hl' hmem
  have hE := he _ hf
  cases f with
  | none => have : e = [] := hE; simp [this]
  | some c =>
    obtain ⟨a, ha⟩ := mem_zip_right hl (List.of_mem_zip hf).1
    exact Proofs.decode_no_mark (hE (hs _ _ (hr _ ha)))

/-- The mail data has lines with a period in front only where the body has them. -/
theorem data_noDot {m : Message} {files : List (Option Bytes)} {data : Bytes} {evs : Hist} (h : MailData m files data) (ht : OneLineTexts m)
    (hs : SmallFiles evs) (hl : (elems m.attachments).length = files.length)
    (hr : ∀ p ∈ (elems m.attachments).zip files, .readFile p.1.filename p.2 ∈ evs) (hb : NoDotLine m.body) : NoDotLine data := by
  obtain ⟨encs, h1, h2, h3⟩ := data_lines h ht
  intro l hmem
  rw [h3] at hmem
  simp only [List.mem_append, List.mem_cons] at hmem
  rcases hmem with hmem | rfl | rfl | rfl | rfl | hmem | rfl | hmem
  · obtain ⟨f, hf, rfl⟩ := List.mem_map.mp hmem
    have : f.1 ∈ [b!"From", b!"To", b!"Cc", b!"Subject", b!"Content-Type"] := by
      simp only [fields, List.mem_append, List.mem_cons, List.not_mem_nil, or_false] at hf
      rcases hf with ((rfl | hf) | hf) | rfl | rfl
      · simp
      · split at hf
        · cases hf
        · rw [List.mem_singleton.mp hf]; simp
      · split at hf
        · cases hf
        · rw [List.mem_singleton.mp hf]; simp
      · simp
      · simp
    simp only [List.mem_cons, List.not_mem_nil, or_false] at this
    rcases this with h | h | h | h | h <;> rw [h] <;> simp
  · simp
  · decide
  · simp [bodyHeader]
  · simp
  · exact hb l hmem
  · simp
  · split at hmem
    · cases hmem
    · rename_i hne
      have hlen := h2 hne
      rcases List.mem_append.mp hmem with hmem | hmem
      · obtain ⟨p, hp, hmem⟩ := List.mem_flatten.mp hmem
        obtain ⟨q, hq, rfl⟩ := List.mem_map.mp hp
        simp only [partLines, List.cons_append, List.mem_cons, List.mem_append] at hmem
        rcases hmem with rfl | hmem | rfl | hmem
        · decide
        · exact (partHeader_ne _ l hmem).2.1
        · simp
        · have := (encs_unmarked hs hl (by omega) hr h1 q.2 (List.of_mem_zip hq).2).2
          cases l with
          | nil => simp
          | cons c l =>
            intro hc
            simp only [List.head?_cons, Option.some.injEq] at hc
            exact this (hc ▸ Proofs.mem_lines hmem c (List.mem_cons_self ..))
      · rw [List.mem_singleton.mp hmem]; decide

/-- **C34, partial.** After a successful `sendMail` of a message whose one-line texts have no CRLF and whose body has no line beginning with a
period, an RFC 5321 receiver gets exactly the mail data and then reads the next command. What is missing is refuted by `C34_data_cut`. -/
theorem C34_receiver_gets_data_partial (env : Env) (m : Message) (hm : NulFree m) (s s' : St) (h : sendMail m env s = (.ok 0, s'))
    (ht : OneLineTexts m) (hs : SmallFiles s'.hist) (hb : NoDotLine m.body) :
    ∃ opening evs, s'.hist = s.hist ++ opening ++ evs ∧ contents opening = [] ∧ (Flawed evs ∨ ∃ files data bytes,
      MailData m files data ∧ AfterData (conversation evs) bytes ∧
      receive (lines bytes) = some (lines data, lines (afterMark s.client.batch))) := by
  obtain ⟨opening, evs, h1, h2, h3⟩ := stream_of_success env m hm s s' h
  refine ⟨opening, evs, h1, h2, h3.imp id ?_⟩
  rintro ⟨files, data, hd, hl, hr, ha⟩
  refine ⟨files, data, _, hd, ha, ?_⟩
  rw [mark_lines]
  refine (Proofs.receive_iff _ _).mpr (data_noDot (evs := evs) hd ht ?_ hl hr hb)
  intro n c hmem
  exact hs n c (by rw [h1]; exact List.mem_append_right _ hmem)

/-- A message with a period on a line of its own, followed by commands. -/
def smuggling : Message := { mail with body := b!"Hi\r\n.\r\nMAIL FROM: <boss@there.org>\r\n..two" }

/-- **C34, refuted**: a body with a line of one period is cut there, and the rest of it is read as commands; elsewhere periods are lost. -/
theorem C34_data_cut :
    (let r := sendMail smuggling (scripted acceptingServer) (fresh .smtp)
     (r.1, (receive (lines ((contents r.2.hist).flatten ++ b!"\r\n.\r\n"))).map fun p => (p.1.drop 7, p.2))) =
      (.ok 0, some ([[], b!"Hi"], [b!"MAIL FROM: <boss@there.org>", b!"..two", [], b!".", []])) ∧
    (let r := sendMail { mail with body := b!"..two" } (scripted acceptingServer) (fresh .smtp)
     (r.1, (receive (lines ((contents r.2.hist).flatten ++ b!"\r\n.\r\n"))).map fun p => (p.1.drop 7, p.2))) =
      (.ok 0, some ([[], b!".two", []], [[]])) := by
  decide +kernel

/-- The hypotheses of `C34_receiver_gets_data_partial` are met by a message with all kinds of recipients and an attachment. -/
example : NulFree bigMail ∧ OneLineTexts bigMail ∧ NoDotLine bigMail.body ∧
    (let r := sendMail bigMail (scripted ([.data b!"220 hi\r\n"] ++ clear ([b!"250 ok\r\n", b!"250 ok\r\n"] ++ List.replicate 4 b!"250 ok\r\n" ++
        [b!"354 go\r\n", b!"250 ok\r\n"]))) (fresh .smtp)
     (r.1, (receive (lines ((contents r.2.hist).flatten ++ b!"\r\n.\r\n"))).map (·.2))) = (.ok 0, some [[]]) := by
  have hf : ∀ l : Bytes, 13 ∉ l → CrlfFree l := fun _ => Proofs.crlfFree_noCR
  refine ⟨⟨by decide, by decide, by decide, by decide, by decide⟩, ⟨?_, hf _ (by decide), ?_, .inl rfl⟩, by unfold NoDotLine; decide, by decide +kernel⟩
  · intro a ha
    exact ⟨hf _ (by revert a; decide), hf _ (by revert a; decide)⟩
  · intro a ha
    exact ⟨hf _ (by revert a; decide), hf _ (by revert a; decide)⟩

/-! ### C36: the MIME structure -/

/-- No line begins like a delimiter. -/
def NoDelimiter (t : Bytes) : Prop := ∀ l ∈ lines t, ¬ IsDelimiter b!"sep" l

theorem meantHeader_ne (m : Message) : ∀ l ∈ meantHeader m, l ≠ [] := by
  intro l hl
  obtain ⟨f, _, rfl⟩ := List.mem_map.mp hl
  simp

theorem noHyphen {l : Bytes} (h : 45 ∉ l) : ¬ IsDelimiter b!"sep" l := by
  rintro ⟨t, rfl⟩
  exact h (by simp)

theorem parts_parsed {ps : List (Attachment × Bytes)} (h : ∀ p ∈ ps, 45 ∉ p.2) {first : List Bytes} (hf : ∀ l ∈ first, ¬ IsDelimiter b!"sep" l) :
    bodyParts b!"sep" (first ++ ((ps.map partLines).flatten ++ [b!"--sep--"])) =
      some (first :: ps.map fun p => partHeader p.1 ++ [] :: lines p.2) := by
  induction ps generalizing first with
  | nil => exact Proofs.bodyParts_close hf (by decide)
  | cons p ps ih =>
    have : first ++ (((p :: ps).map partLines).flatten ++ [b!"--sep--"]) =
        first ++ b!"--sep" :: ((partHeader p.1 ++ [] :: lines p.2) ++ ((ps.map partLines).flatten ++ [b!"--sep--"])) := by
      simp [partLines]
    rw [this, Proofs.bodyParts_step hf (by decide) (by decide), ih fun q hq => h q (List.mem_cons_of_mem _ hq)]
    · rfl
    · intro l hl
      simp only [List.mem_append, List.mem_cons] at hl
      rcases hl with hl | rfl | hl
      · exact (partHeader_ne _ l hl).2.2
      · decide
      · exact noHyphen fun hc => h p (List.mem_cons_self ..) (Proofs.mem_lines hl _ hc)

theorem body_first {m : Message} (hb : NoDelimiter m.body) :
    ∀ l ∈ bodyHeader m :: [] :: (lines m.body ++ [[]]), ¬ IsDelimiter b!"sep" l := by
  intro l hl
  simp only [List.mem_cons, List.mem_append, List.not_mem_nil, or_false] at hl
  rcases hl with rfl | rfl | hl | rfl
  · rintro ⟨t, ht⟩
    simp [bodyHeader] at ht
  · decide
  · exact hb l hl
  · decide

theorem multipart_start (rest : List Bytes) : multipart b!"sep" (b!"--sep" :: rest) = bodyParts b!"sep" rest := by
  rw [multipart, if_neg (by decide), if_pos (by decide)]

/-- The parsed structure: the part of the body and one part per attachment, in order, with the right headers and contents. The text of the body
part is the body with an additional line end. -/
def Parsed (m : Message) (files : List (Option Bytes)) (parts : List (List Bytes)) : Prop :=
  ∃ body atts, parts = body :: atts ∧ headerSection body = [bodyHeader m] ∧ joined (afterHeader body) = m.body ++ b!"\r\n" ∧
    atts.length = (elems m.attachments).length ∧ files.length = (elems m.attachments).length ∧
    ∀ q ∈ (elems m.attachments).zip (files.zip atts), headerSection q.2.2 = partHeader q.1 ∧ Encodes q.2.1 (joined (afterHeader q.2.2))

theorem data_parsed {m : Message} {files : List (Option Bytes)} {data : Bytes} {evs : Hist} (hd : MailData m files data) (ht : OneLineTexts m)
    (hsm : SmallFiles evs) (hl : (elems m.attachments).length = files.length)
    (hr : ∀ p ∈ (elems m.attachments).zip files, .readFile p.1.filename p.2 ∈ evs) (hb : NoDelimiter m.body) (ha : elems m.attachments ≠ []) :
    ∃ parts, multipart b!"sep" (afterHeader (lines data)) = some parts ∧ Parsed m files parts := by
  obtain ⟨encs, he, hlen, hlines⟩ := data_lines hd ht
  have hlen := hlen ha
  have hun := encs_unmarked hsm hl (by omega) hr he
  rw [hlines, Proofs.afterHeader_append (meantHeader_ne m), if_neg ha, multipart_start]
  have hre : bodyHeader m :: [] :: (lines m.body ++ [] :: ((((elems m.attachments).zip encs).map partLines).flatten ++ [b!"--sep--"])) =
      (bodyHeader m :: [] :: (lines m.body ++ [[]])) ++ ((((elems m.attachments).zip encs).map partLines).flatten ++ [b!"--sep--"]) := by simp
  rw [hre, parts_parsed (fun p hp => (hun p.2 (List.of_mem_zip hp).2).1) (body_first hb)]
  refine ⟨_, rfl, _, _, rfl, ?_, ?_, ?_, hlen.2, ?_⟩
  · exact Proofs.headerSection_append (a := [bodyHeader m]) (by simp [bodyHeader])
  · have := Proofs.afterHeader_append (a := [bodyHeader m]) (b := lines m.body ++ [[]]) (by simp [bodyHeader])
    rw [show bodyHeader m :: [] :: (lines m.body ++ [[]]) = [bodyHeader m] ++ [] :: (lines m.body ++ [[]]) from rfl, this]
    have hj := Proofs.lines_join (m.body ++ 13 :: 10 :: [])
    rw [Proofs.lines_append_sep] at hj
    exact hj
  · simp [hlen.1]
  · intro q hq
    obtain ⟨i, hi, rfl⟩ := List.mem_iff_getElem.mp hq
    simp only [List.length_zip, List.length_map] at hi
    simp only [List.getElem_zip, List.getElem_map]
    rw [Proofs.headerSection_append (fun l hl => (partHeader_ne _ l hl).1), Proofs.afterHeader_append (fun l hl => (partHeader_ne _ l hl).1)]
    refine ⟨rfl, ?_⟩
    rw [joined, Proofs.lines_join]
    exact he (files[i], encs[i]) (List.mem_iff_getElem.mpr ⟨i, by simp; omega, by simp⟩)

/-- **C36, partial.** After a successful `sendMail` of a message with attachments, with one-line texts and a body in which no line begins with the
boundary, an RFC 2046 parser finds the body and the attachments in order, and the multipart is closed. Missing: messages without attachments
(`C36_not_closed`), bodies with the boundary (`C36_body_cut`), and the body gets an additional line end. -/
theorem C36_parsed_back_partial (env : Env) (m : Message) (hm : NulFree m) (s s' : St) (h : sendMail m env s = (.ok 0, s'))
    (ht : OneLineTexts m) (hs : SmallFiles s'.hist) (hb : NoDelimiter m.body) (ha : elems m.attachments ≠ []) :
    ∃ opening evs, s'.hist = s.hist ++ opening ++ evs ∧ contents opening = [] ∧ (Flawed evs ∨ ∃ files data,
      (∀ p ∈ (elems m.attachments).zip files, .readFile p.1.filename p.2 ∈ evs) ∧
      AfterData (conversation evs) (data ++ b!"\r\n.\r\n" ++ afterMark s.client.batch) ∧
      ∃ parts, multipart b!"sep" (afterHeader (lines data)) = some parts ∧ Parsed m files parts) := by
  obtain ⟨opening, evs, h1, h2, h3⟩ := stream_of_success env m hm s s' h
  refine ⟨opening, evs, h1, h2, h3.imp id ?_⟩
  rintro ⟨files, data, hd, hl, hr, had⟩
  exact ⟨files, data, hr, had, data_parsed hd ht (fun n c hmem => hs n c (by rw [h1]; exact List.mem_append_right _ hmem)) hl hr hb ha⟩

/-- **C36, refuted for every message without attachments** (and with the texts as above): the multipart is never closed. -/
theorem C36_not_closed (m : Message) (files : List (Option Bytes)) (data : Bytes) (h : MailData m files data) (ht : OneLineTexts m)
    (hb : NoDelimiter m.body) (ha : elems m.attachments = []) : multipart b!"sep" (afterHeader (lines data)) = none := by
  obtain ⟨encs, _, _, hlines⟩ := data_lines h ht
  rw [hlines, Proofs.afterHeader_append (meantHeader_ne m), if_pos ha, multipart_start]
  exact Proofs.bodyParts_open (body_first hb)

/-- The answers of a server that accepts `bigMail`. -/
def acceptingBig : List RecvRes :=
  [.data b!"220 hi\r\n"] ++ clear ([b!"250 ok\r\n", b!"250 ok\r\n"] ++ List.replicate 4 b!"250 ok\r\n" ++ [b!"354 go\r\n", b!"250 ok\r\n"])

/-- **C36, refuted**: a body with a closing delimiter hides its rest and the attachments. -/
theorem C36_body_cut :
    (let r := sendMail { bigMail with body := b!"one\r\n--sep--\r\ntwo" } (scripted acceptingBig) (fresh .smtp)
     (r.1, multipart b!"sep" (afterHeader (contentLines r.2.hist)))) =
      (.ok 0, some [[b!"Content-Type: text/plain; charset=UTF-8", [], b!"one"]]) := by
  decide +kernel

/-- The parsed structure of a real run, and the hypothesis on the body. -/
example : NoDelimiter bigMail.body ∧ elems bigMail.attachments ≠ [] ∧
    (let r := sendMail bigMail (scripted acceptingBig) (fresh .smtp)
     (r.1, multipart b!"sep" (afterHeader (contentLines r.2.hist)))) =
      (.ok 0, some [[b!"Content-Type: text/plain; charset=UTF-8", [], b!"Body", []],
        [b!"Content-Type: text/plain; file=\"a\"", b!"Content-Disposition: Inline; filename=\"a\"", b!"Content-Transfer-Encoding: base64", [],
          b!"ZmlsZQ=="]]) := by
  refine ⟨by unfold NoDelimiter; decide, by decide, by decide +kernel⟩

/-! ### C37: files arrive bit-exact -/

theorem parts_flat {as : List Attachment} {fs : List (Option Bytes)} {p : Bytes} (h : Parts as fs p) :
    ∃ encs : List Bytes, encs.length = as.length ∧ fs.length = as.length ∧ (∀ q ∈ fs.zip encs, Encodes q.1 q.2) ∧
      p = ((as.zip encs).map fun q => attachmentHead q.1 ++ q.2).flatten := by
  induction h with
  | nil => exact ⟨[], rfl, rfl, by simp, rfl⟩
  | @cons a f enc as fs t he _ ih =>
    obtain ⟨encs, h1, h1', h2, h3⟩ := ih
    refine ⟨enc :: encs, by simp [h1], by simp [h1'], ?_, by simp [h3]⟩
    intro q hq
    rcases List.mem_cons.mp hq with rfl | hq
    · exact he
    · exact h2 q hq

/-- The encoded files in the mail data. -/
def FilesEncoded (files : List (Option Bytes)) (encs : List Bytes) : Prop :=
  ∀ q ∈ files.zip encs, ∀ c, q.1 = some c → c.length < 2 ^ 32 → Spec.Base64.decode q.2 = some c ∧ 45 ∉ q.2 ∧ 46 ∉ q.2

theorem data_files {m : Message} {files : List (Option Bytes)} {data : Bytes} (hd : MailData m files data) (ha : elems m.attachments ≠ []) :
    ∃ encs : List Bytes, files.length = (elems m.attachments).length ∧ encs.length = (elems m.attachments).length ∧
      data = headerText m ++ textPart m ++ (((elems m.attachments).zip encs).map fun q => attachmentHead q.1 ++ q.2).flatten ++ b!"\r\n--sep--" ∧
      FilesEncoded files encs := by
  obtain ⟨t, hb, rfl⟩ := hd
  unfold MimeBody at hb
  rw [if_neg ha] at hb
  obtain ⟨p, hp, rfl⟩ := hb
  obtain ⟨encs, g1, g2, g3, rfl⟩ := parts_flat hp
  refine ⟨encs, g2, g1, ?_, ?_⟩
  · simp only [List.append_assoc]
  · intro q hq c hc hlen
    have := g3 q hq
    rw [hc] at this
    have hd := this hlen
    exact ⟨hd, Proofs.decode_no_mark hd⟩

/-- **C37, partial.** After a successful `sendMail` of any message with attachments, whatever its texts are, the mail data ends in the attachment
parts, and for every file that was read and is smaller than 4 GiB the part's content decodes to exactly the bytes of the file; it has no hyphen
and no period, so no boundary and no end mark. Missing: larger files, refuted by `C37_large_file`. -/
theorem C37_files_arrive_partial (env : Env) (m : Message) (hm : NulFree m) (s s' : St) (h : sendMail m env s = (.ok 0, s'))
    (ha : elems m.attachments ≠ []) :
    ∃ opening evs, s'.hist = s.hist ++ opening ++ evs ∧ contents opening = [] ∧ (Flawed evs ∨ ∃ (files : List (Option Bytes)) (encs : List Bytes),
      files.length = (elems m.attachments).length ∧ encs.length = (elems m.attachments).length ∧
      (∀ p ∈ (elems m.attachments).zip files, .readFile p.1.filename p.2 ∈ evs) ∧
      AfterData (conversation evs) (headerText m ++ textPart m ++ (((elems m.attachments).zip encs).map fun q => attachmentHead q.1 ++ q.2).flatten ++
        b!"\r\n--sep--" ++ b!"\r\n.\r\n" ++ afterMark s.client.batch) ∧
      FilesEncoded files encs) := by
  obtain ⟨opening, evs, h1, h2, h3⟩ := stream_of_success env m hm s s' h
  refine ⟨opening, evs, h1, h2, h3.imp id ?_⟩
  rintro ⟨files, data, hd, hl, hr, had⟩
  obtain ⟨encs, g1, g2, rfl, g3⟩ := data_files hd ha
  exact ⟨files, encs, g1, g2, hr, had, g3⟩

/-- **C37, refuted for large files**: a file of exactly 4 GiB is sent as an empty text. -/
theorem C37_large_file (env : Env) (a : Attachment) (s : St) (content : Bytes) (hlen : content.length = 2 ^ 32)
    (hf : env.readFile s.hist a.filename = some content) :
    (base64EncodedFile a env s).1 = .ok (some []) ∧ Spec.Base64.decode [] ≠ some content := by
  constructor
  · unfold base64EncodedFile sysReadFile
    simp only [Proofs.bind_run, M.ask, hf, hlen]
    simp [Base64.encode, Base64.encodeFrom, cstr]
    rfl
  · intro h
    have h0 : Spec.Base64.decode [] = some [] := rfl
    rw [h0] at h
    injection h with h
    rw [← h] at hlen
    simp at hlen

/-- Such a file exists. -/
example : ∃ (env : Env) (content : Bytes), content.length = 2 ^ 32 ∧ env.readFile [] b!"big" = some content :=
  ⟨{ scripted [] with readFile := fun _ _ => some (List.replicate (2 ^ 32) 0) }, List.replicate (2 ^ 32) 0, List.length_replicate, rfl⟩

/-- The hypotheses of `C37_files_arrive_partial`: a successful run with a readable file. -/
example : elems bigMail.attachments ≠ [] ∧
    (let r := sendMail bigMail (scripted acceptingBig) (fresh .smtp)
     (r.1, r.2.hist.filterMap fun | .readFile n c => some (n, c) | _ => none)) = (.ok 0, [(b!"a.txt", some b!"file")]) := by
  refine ⟨by decide, by decide +kernel⟩

end Verif.Props
