import Verif.Proofs.Parts
import Verif.Props.WinReceiver
/-!
# C95: a mail program shows the attachments as they were named
-/
namespace Verif.Props
open Verif Verif.Model Verif.Spec

/-- What a mail program finds in the header of the part of an attachment. -/
structure ShownFile (a : Attachment) (hs : List Bytes) : Prop where
  name : (bodies b!"Content-Disposition" hs).flatMap (paramsNamed b!"filename") = [a.name]
  type : (bodies b!"Content-Type" hs).map mainValue = [fileType a.filename]
  encoding : (bodies b!"Content-Transfer-Encoding" hs).map mainValue = [b!"base64"]
  id : (bodies b!"Content-ID" hs).map idIn = if a.contentId = [] then [] else [a.contentId]
  disposition : (bodies b!"Content-Disposition" hs).map mainValue = if a.contentId = [] then [b!"Inline"] else [b!"attachment"]

/-- An attachment whose name and content id can be written as they are: no quote and no backslash in the name, no closing bracket in the id. -/
def PlainlyNamed (a : Attachment) : Prop := (∀ c ∈ a.name, c ≠ 34 ∧ c ≠ 92) ∧ 62 ∉ a.contentId

/-- Names and values of the header fields of a part. -/
def partFields (a : Attachment) : List (Bytes × Bytes) :=
  [(b!"Content-Type", fileType a.filename ++ b!"; " ++ b!"file" ++ b!"=\"" ++ a.name ++ b!"\"")] ++
  (if a.contentId = [] then [(b!"Content-Disposition", b!"Inline" ++ b!"; " ++ b!"filename" ++ b!"=\"" ++ a.name ++ b!"\"")]
   else [(b!"X-Attachment-Id", a.contentId), (b!"Content-ID", b!"<" ++ a.contentId ++ b!">"),
     (b!"Content-Disposition", b!"attachment" ++ b!"; " ++ b!"filename" ++ b!"=\"" ++ a.name ++ b!"\"")]) ++
  [(b!"Content-Transfer-Encoding", b!"base64")]

theorem partHeader_fields (a : Attachment) : partHeader a = (partFields a).map fun f => f.1 ++ b!": " ++ f.2 := by
  unfold partHeader partFields
  split <;> simp

theorem partFields_names (a : Attachment) : ∀ f ∈ partFields a, Proofs.FieldName f.1 := by
  intro f hf
  have : ∀ n ∈ [b!"Content-Type", b!"Content-Disposition", b!"X-Attachment-Id", b!"Content-ID", b!"Content-Transfer-Encoding"], Proofs.FieldName n := by decide
  refine this f.1 ?_
  unfold partFields at hf
  split at hf <;> simp only [List.mem_append, List.mem_cons, List.not_mem_nil, or_false, or_assoc] at hf
  · rcases hf with rfl | rfl | rfl <;> simp
  · rcases hf with rfl | rfl | rfl | rfl | rfl <;> simp

theorem idIn_brackets (i : Bytes) (h : 62 ∉ i) : idIn (32 :: (b!"<" ++ i ++ b!">")) = i := by
  unfold idIn
  have e : ((32 :: (b!"<" ++ i ++ b!">")).dropWhile fun x => decide (x ≠ 60)).drop 1 = i ++ [62] := by
    simp
  have hc : ∀ c ∈ i, decide (c ≠ 62) = true := fun c hc => decide_eq_true fun hh => h (hh ▸ hc)
  rw [e, List.takeWhile_append_of_pos hc]
  simp

theorem shownFile_meant (a : Attachment) (h : PlainlyNamed a) : ShownFile a (partHeader a) := by
  obtain ⟨hn, hi⟩ := h
  have k := Proofs.bodies_lines (partFields a) (partFields_names a)
  rw [← partHeader_fields] at k
  have lit : ∀ n ∈ [b!"Inline", b!"attachment", b!"filename", b!"file"], ∀ c ∈ n, c ≠ 34 ∧ c ≠ 40 ∧ c ≠ 60 ∧ c ≠ (59 : UInt8) := by decide
  have disp : ∀ v ∈ [b!"Inline", b!"attachment"],
      cutAt 59 .plain (32 :: (v ++ b!"; " ++ b!"filename" ++ b!"=\"" ++ a.name ++ b!"\"")) = [32 :: v, 32 :: (b!"filename" ++ b!"=\"" ++ a.name ++ b!"\"")] := by
    intro v hv
    exact Proofs.cut_param v b!"filename" a.name (lit v (by revert v; decide)) (lit _ (by decide)) hn
  have pn := Proofs.param_quoted b!"filename" a.name (by decide) (by decide) (by decide) hn
  have nm : ∀ v ∈ [b!"Inline", b!"attachment"],
      paramsNamed b!"filename" (32 :: (v ++ b!"; " ++ b!"filename" ++ b!"=\"" ++ a.name ++ b!"\"")) = [a.name] ∧
      mainValue (32 :: (v ++ b!"; " ++ b!"filename" ++ b!"=\"" ++ a.name ++ b!"\"")) = v := by
    intro v hv
    unfold paramsNamed mainValue
    rw [disp v hv]
    constructor
    · rw [List.tail_cons, List.map_singleton, pn]
      rfl
    · have : ∀ v ∈ [b!"Inline", b!"attachment"], trimmed (32 :: v) = v := by decide
      exact this v hv
  have ty := Proofs.cut_param (fileType a.filename) b!"file" a.name (Proofs.fileType_plain _).1 (lit _ (by decide)) hn
  have mt : mainValue (32 :: (fileType a.filename ++ b!"; " ++ b!"file" ++ b!"=\"" ++ a.name ++ b!"\"")) = fileType a.filename := by
    unfold mainValue
    rw [ty]
    exact (Proofs.trimmed_cons _).trans (Proofs.fileType_plain _).2
  have dCD : bodies b!"Content-Disposition" (partHeader a) = [32 :: ((if a.contentId = [] then b!"Inline" else b!"attachment") ++ b!"; " ++ b!"filename" ++ b!"=\"" ++ a.name ++ b!"\"")] := by
    have e0 : decide (EqIgnoringCase b!"Content-Type" b!"Content-Disposition") = false := by decide
    have e1 : decide (EqIgnoringCase b!"Content-Disposition" b!"Content-Disposition") = true := by decide
    have e2 : decide (EqIgnoringCase b!"X-Attachment-Id" b!"Content-Disposition") = false := by decide
    have e3 : decide (EqIgnoringCase b!"Content-ID" b!"Content-Disposition") = false := by decide
    have e4 : decide (EqIgnoringCase b!"Content-Transfer-Encoding" b!"Content-Disposition") = false := by decide
    rw [k]
    unfold partFields
    by_cases c : a.contentId = []
    · rw [if_pos c]
      simp only [List.cons_append, List.nil_append, List.filter_cons, List.filter_nil, e0, e1, e2, e3, e4]
      simp [c]
    · rw [if_neg c]
      simp only [List.cons_append, List.nil_append, List.filter_cons, List.filter_nil, e0, e1, e2, e3, e4]
      simp [c]
  have dCT : bodies b!"Content-Type" (partHeader a) = [32 :: (fileType a.filename ++ b!"; " ++ b!"file" ++ b!"=\"" ++ a.name ++ b!"\"")] := by
    have e0 : decide (EqIgnoringCase b!"Content-Type" b!"Content-Type") = true := by decide
    have e1 : decide (EqIgnoringCase b!"Content-Disposition" b!"Content-Type") = false := by decide
    have e2 : decide (EqIgnoringCase b!"X-Attachment-Id" b!"Content-Type") = false := by decide
    have e3 : decide (EqIgnoringCase b!"Content-ID" b!"Content-Type") = false := by decide
    have e4 : decide (EqIgnoringCase b!"Content-Transfer-Encoding" b!"Content-Type") = false := by decide
    rw [k]
    unfold partFields
    by_cases c : a.contentId = []
    · rw [if_pos c]
      simp only [List.cons_append, List.nil_append, List.filter_cons, List.filter_nil, e0, e1, e2, e3, e4]
      simp [c]
    · rw [if_neg c]
      simp only [List.cons_append, List.nil_append, List.filter_cons, List.filter_nil, e0, e1, e2, e3, e4]
      simp [c]
  have dCE : bodies b!"Content-Transfer-Encoding" (partHeader a) = [b!" base64"] := by
    have e0 : decide (EqIgnoringCase b!"Content-Type" b!"Content-Transfer-Encoding") = false := by decide
    have e1 : decide (EqIgnoringCase b!"Content-Disposition" b!"Content-Transfer-Encoding") = false := by decide
    have e2 : decide (EqIgnoringCase b!"X-Attachment-Id" b!"Content-Transfer-Encoding") = false := by decide
    have e3 : decide (EqIgnoringCase b!"Content-ID" b!"Content-Transfer-Encoding") = false := by decide
    have e4 : decide (EqIgnoringCase b!"Content-Transfer-Encoding" b!"Content-Transfer-Encoding") = true := by decide
    rw [k]
    unfold partFields
    by_cases c : a.contentId = []
    · rw [if_pos c]
      simp only [List.cons_append, List.nil_append, List.filter_cons, List.filter_nil, e0, e1, e2, e3, e4]
      simp [c]
    · rw [if_neg c]
      simp only [List.cons_append, List.nil_append, List.filter_cons, List.filter_nil, e0, e1, e2, e3, e4]
      simp [c]
  have dCI : bodies b!"Content-ID" (partHeader a) = if a.contentId = [] then [] else [32 :: (b!"<" ++ a.contentId ++ b!">")] := by
    have e0 : decide (EqIgnoringCase b!"Content-Type" b!"Content-ID") = false := by decide
    have e1 : decide (EqIgnoringCase b!"Content-Disposition" b!"Content-ID") = false := by decide
    have e2 : decide (EqIgnoringCase b!"X-Attachment-Id" b!"Content-ID") = false := by decide
    have e3 : decide (EqIgnoringCase b!"Content-ID" b!"Content-ID") = true := by decide
    have e4 : decide (EqIgnoringCase b!"Content-Transfer-Encoding" b!"Content-ID") = false := by decide
    rw [k]
    unfold partFields
    by_cases c : a.contentId = []
    · rw [if_pos c]
      simp only [List.cons_append, List.nil_append, List.filter_cons, List.filter_nil, e0, e1, e2, e3, e4]
      simp [c]
    · rw [if_neg c]
      simp only [List.cons_append, List.nil_append, List.filter_cons, List.filter_nil, e0, e1, e2, e3, e4]
      simp [c]
  constructor
  · rw [dCD]
    have := (nm (if a.contentId = [] then b!"Inline" else b!"attachment") (by split <;> simp)).1
    simp only [List.flatMap_cons, List.flatMap_nil, List.append_nil]
    exact this
  · rw [dCT, List.map_singleton, mt]
  · rw [dCE]
    decide
  · rw [dCI]
    split
    · rfl
    · rw [List.map_singleton, idIn_brackets _ hi]
  · rw [dCD, List.map_singleton, (nm (if a.contentId = [] then b!"Inline" else b!"attachment") (by split <;> simp)).2]
    split <;> rfl

/-- The header of the part of every attachment, as a parser finds it, is read as meant. -/
def FilesShown (m : Message) (parts : List (List Bytes)) : Prop :=
  ∃ body atts, parts = body :: atts ∧ atts.length = (elems m.attachments).length ∧
    ∀ q ∈ (elems m.attachments).zip atts, PlainlyNamed q.1 → ShownFile q.1 (headerSection q.2)

theorem filesShown_parsed {m : Message} {files : List (Option Bytes)} {parts : List (List Bytes)} (h : Parsed m files parts) : FilesShown m parts := by
  obtain ⟨body, atts, rfl, _, _, h1, h2, h3⟩ := h
  refine ⟨body, atts, rfl, h1, fun q hq hp => ?_⟩
  obtain ⟨i, hi, rfl⟩ := List.mem_iff_getElem.mp hq
  simp only [List.length_zip] at hi
  have := (h3 ((elems m.attachments)[i], (files[i], atts[i])) (List.mem_iff_getElem.mpr ⟨i, by simp; omega, by simp⟩)).1
  simp only [List.getElem_zip] at hp ⊢
  rw [this]
  exact shownFile_meant _ hp

/-- **C95, partial.** After a successful `sendMail` of a message with attachments a mail program finds one part for each attachment, in order, and
in its header the name and the content id the attachment was given, the type its extension has in the table, and base64 as encoding. The conditions
on the message are those of C36; of each attachment they are that the name has no quote and no backslash and the content id no closing bracket.
This is what is missing, and `C95_quote_in_name` and `C95_backslash_in_name` show that the statement is false there. -/
theorem C95_files_shown_partial (env : Env) (m : Message) (hm : NulFree m) (s s' : St) (h : sendMail m env s = (.ok 0, s'))
    (ht : OneLineTexts m) (hs : SmallFiles s'.hist) (hb : NoDelimiter m.body) (ha : elems m.attachments ≠ []) :
    ∃ opening evs, s'.hist = s.hist ++ opening ++ evs ∧ contents opening = [] ∧ (Flawed evs ∨ ∃ data parts,
      AfterData (conversation evs) (data ++ b!"\r\n.\r\n" ++ afterMark s.client.batch) ∧
      multipart b!"sep" (afterHeader (lines data)) = some parts ∧ FilesShown m parts) := by
  obtain ⟨opening, evs, h1, h2, h3⟩ := C36_parsed_back_partial env m hm s s' h ht hs hb ha
  refine ⟨opening, evs, h1, h2, h3.imp id ?_⟩
  rintro ⟨files, data, _, hd, parts, hp, hparsed⟩
  exact ⟨data, parts, hd, hp, filesShown_parsed hparsed⟩

/-- **C95 on Windows**, under the same conditions. -/
theorem C95_windows_partial (m : Message) (t u : St) (h : SentFromWindows m t u)
    (ht : OneLineTexts m) (hs : SmallFiles u.hist) (hb : NoDelimiter m.body) (ha : elems m.attachments ≠ []) :
    ∃ evs opening rest, u.hist = t.hist ++ evs ∧ spoken evs = opening ++ rest ∧ contents opening = [] ∧ (Flawed rest ∨ ∃ data parts,
      AfterData (conversation rest) (data ++ b!"\r\n.\r\n" ++ afterMark t.client.batch) ∧
      multipart b!"sep" (afterHeader (lines data)) = some parts ∧ FilesShown m parts) := by
  obtain ⟨evs, opening, rest, h1, h2, h3, h4⟩ := C84_parts_arrive_partial m t u h ha
  refine ⟨evs, opening, rest, h1, h2, h3, h4.imp id ?_⟩
  rintro ⟨files, data, encs, _, hd, _, _, _, _, hp⟩
  obtain ⟨parts, hp, hparsed⟩ := hp ht hs hb
  exact ⟨data, parts, hd, hp, filesShown_parsed hparsed⟩

/-- What a mail program reads from the parts of a run: name, type, content id. -/
def shownFiles (h : Hist) : List (List Bytes × List Bytes × List Bytes) :=
  (((multipart b!"sep" (afterHeader (contentLines h))).getD []).tail.map headerSection).map fun hs =>
    ((bodies b!"Content-Disposition" hs).flatMap (paramsNamed b!"filename"), (bodies b!"Content-Type" hs).map mainValue, (bodies b!"Content-ID" hs).map idIn)

/-- A message with one attachment. -/
def oneFile (file name id : Bytes) : Message :=
  { mail with attachments := { ptr := some [{ filename := file, name := name, contentId := id }], count := 1 } }

/-- An attachment with a name that needs quotes but no escapes, and what is read. -/
example : (∀ a ∈ elems (oneFile b!"/tmp/plan.pdf" b!"plan; final.pdf" b!"plan@here").attachments, PlainlyNamed a) ∧
    (let r := sendMail (oneFile b!"/tmp/plan.pdf" b!"plan; final.pdf" b!"plan@here") (scripted acceptingServer) (fresh .smtp)
     (r.1, shownFiles r.2.hist)) = (.ok 0, [([b!"plan; final.pdf"], [b!"application/pdf"], [b!"plan@here"])]) := by
  refine ⟨by unfold PlainlyNamed; decide, by decide +kernel⟩

/-- **C95, refuted** for a name with a quote: it is cut there, and the rest is read as another parameter, even as another file name. -/
theorem C95_quote_in_name :
    (let r := sendMail (oneFile b!"/tmp/a.txt" b!"a.txt\"; filename=\"b.exe" []) (scripted acceptingServer) (fresh .smtp)
     (r.1, shownFiles r.2.hist)) = (.ok 0, [([b!"a.txt", b!"b.exe"], [b!"text/plain"], [])]) := by
  decide +kernel

/-- **C95, refuted** for a name with backslashes, such as a path on Windows: they are lost. -/
theorem C95_backslash_in_name :
    (let r := sendMail (oneFile b!"C:\\docs\\a.txt" b!"C:\\docs\\a.txt" []) (scripted acceptingServer) (fresh .smtp)
     (r.1, shownFiles r.2.hist)) = (.ok 0, [([b!"C:docsa.txt"], [b!"text/plain"], [])]) := by
  decide +kernel

/-- **C95.** A file whose extension is not in the table gets an empty type, which is no type of RFC 2045. -/
theorem C95_no_type : fileType b!"/tmp/a.json" = [] ∧
    (let r := sendMail (oneFile b!"/tmp/a.json" b!"a.json" []) (scripted acceptingServer) (fresh .smtp)
     (r.1, shownFiles r.2.hist)) = (.ok 0, [([b!"a.json"], [[]], [])]) := by
  decide +kernel

end Verif.Props
