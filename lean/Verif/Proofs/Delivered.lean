import Verif.Proofs.Deliver
import Verif.Proofs.Errors
import Verif.Props.Base64
import Verif.Props.Mime
/-!
# From what the code says to the specification of a delivery
-/
namespace Verif.Proofs
open Verif Verif.Model Verif.Spec

variable {env : Env}

theorem mailFormats_eq (a : MessageAddress) : mailFormats a = senderForms a := by
  simp [mailFormats, senderForms]

theorem toText_eq (a : MessageAddress) : a.toText = shown a := by
  unfold MessageAddress.toText shown
  cases a.displayName <;> simp

theorem fromHeaderValue_eq (a : MessageAddress) : fromHeaderValue a = shown a := by
  unfold fromHeaderValue shown
  cases a.displayName <;> simp

theorem headerAddressLoop_succ (l : List MessageAddress) (i : Nat) :
    headerAddressLoop (i + 1) l = (l.map fun a => b!", " ++ shown a).flatten := by
  induction l generalizing i with
  | nil => rfl
  | cons a l ih =>
    rw [headerAddressLoop, if_pos (by omega), ih, toText_eq, List.map_cons, List.flatten_cons]

theorem intercalate_cons (sep a : Bytes) (l : List Bytes) :
    List.intercalate sep (a :: l) = a ++ (l.map (sep ++ ·)).flatten := by
  induction l generalizing a with
  | nil => simp [List.intercalate]
  | cons b l ih => 
    have := ih b
    simp only [List.intercalate] at this ⊢
    rw [List.intersperse_cons_cons, List.flatten_cons, List.flatten_cons, this, List.map_cons, List.flatten_cons,
      List.append_assoc]

theorem generateHeaderAddressValues_eq (l : List MessageAddress) :
    generateHeaderAddressValues l = List.intercalate b!", " (l.map shown) := by
  unfold generateHeaderAddressValues
  cases l with
  | nil => simp [headerAddressLoop, List.intercalate]
  | cons a l =>
    rw [List.map_cons, intercalate_cons, headerAddressLoop, headerAddressLoop_succ, toText_eq, List.map_map]
    simp only [gt_iff_lt, Nat.lt_irrefl, if_false, List.nil_append]
    rfl

theorem addressLines_eq (f : Bytes) (a : Arr MessageAddress) :
    addressLines f a = (if elems a = [] then [] else [(f, List.intercalate b!", " ((elems a).map shown))]).map fieldLine := by
  unfold addressLines
  split
  · rfl
  · rw [generateHeaderAddressValues_eq]; rfl

theorem headerLines_flatten (m : Message) : (headerLines m).flatten = headerText m := by
  unfold headerLines headerText fields
  rw [addressLines_eq, addressLines_eq, fromHeaderValue_eq]
  simp [fieldLine, headerLine, subjectLine, contentTypeLine]

theorem shown_nul {a : MessageAddress} (h : 0 ∉ a.email ∧ 0 ∉ a.displayName) : 0 ∉ shown a := by
  unfold shown
  split <;> simp [h]

theorem headerText_nul {m : Message} (h : NulFree m) : 0 ∉ headerText m := by
  have hi : ∀ l : List MessageAddress, (∀ a ∈ l, 0 ∉ a.email ∧ 0 ∉ a.displayName) →
      (0 : UInt8) ∉ List.intercalate b!", " (l.map shown) := by
    intro l hl
    cases l with
    | nil => simp [List.intercalate]
    | cons a l =>
      rw [List.map_cons, intercalate_cons, List.mem_append, not_or]
      refine ⟨shown_nul (hl a (by simp)), ?_⟩
      simp only [List.mem_flatten, List.mem_map, not_exists, not_and]
      rintro _ ⟨_, ⟨b, hb, rfl⟩, rfl⟩
      have := shown_nul (hl b (by simp [hb]))
      simp [this]
  have ht := hi (elems m.to) fun a ha => h.addresses a (by simp [recipients, ha])
  have hc := hi (elems m.cc) fun a ha => h.addresses a (by simp [recipients, ha])
  have hf := shown_nul (h.addresses m.from (by simp))
  have hs := h.subject
  unfold headerText fields
  simp only [List.map_append, List.map_cons, List.map_nil, List.flatten_append, List.mem_append, not_or, fieldLine,
    List.flatten_cons, List.flatten_nil]
  refine ⟨⟨⟨⟨?_, ?_⟩, ?_⟩, ?_⟩, by decide⟩
  · simp [hf]
  · split
    · simp
    · simp only [List.map_cons, List.map_nil, List.flatten_cons, List.flatten_nil, List.append_nil, fieldLine, List.mem_append, not_or]
      exact ⟨⟨⟨by decide, by decide⟩, ht⟩, by decide⟩
  · split
    · simp
    · simp only [List.map_cons, List.map_nil, List.flatten_cons, List.flatten_nil, List.append_nil, fieldLine, List.mem_append, not_or]
      exact ⟨⟨⟨by decide, by decide⟩, hc⟩, by decide⟩
  · simp [hs]

theorem mimeType_nul (a : Attachment) : 0 ∉ a.mimeType := by
  have : ∀ l : List (Bytes × Bytes), (∀ p ∈ l, 0 ∉ p.2) → ∀ e, (0 : UInt8) ∉ mimeLookup e l := by
    intro l
    induction l with
    | nil => intro _ e; simp [mimeLookup]
    | cons p l ih =>
      intro h e
      unfold mimeLookup
      split
      · exact h p (by simp)
      · exact ih (fun q hq => h q (by simp [hq])) e
  exact this mimeTable (by decide +kernel) _

theorem attachmentHeader_eq (a : Attachment) : attachmentHeader a = attachmentHead a := by
  unfold attachmentHeader attachmentHead
  rw [← Props.C14_file_type]
  cases h : a.contentId <;> simp

theorem attachmentHead_nul {a : Attachment} (h : 0 ∉ a.name ∧ 0 ∉ a.contentId) : 0 ∉ attachmentHead a := by
  unfold attachmentHead
  rw [← Props.C14_file_type]
  have := mimeType_nul a
  split <;> simp [h, this]

theorem encode_cstr (b : Bytes) : cstr (Model.Base64.encode b) = Model.Base64.encode b :=
  cstr_eq_self fun h => Props.C03_encode_no_nul b 0 h rfl

theorem fileText_encodes (f : Option Bytes) : Encodes f (fileText f) := by
  cases f with
  | none => rfl
  | some c =>
    intro h
    simp only [fileText]
    rw [encode_cstr, Props.C01_standard_decoder_inverts_encode, Nat.mod_eq_of_lt h, List.take_length]

theorem fileText_nul (f : Option Bytes) : 0 ∉ fileText f := by
  cases f with
  | none => simp [fileText]
  | some c => exact cstr_no_nul _

theorem attText_parts {l : List Attachment} {files : List (Option Bytes)} (h : l.length = files.length) :
    Parts l files (attText l files) := by
  induction l generalizing files with
  | nil => cases files with
    | nil => exact .nil
    | cons f fs => simp at h
  | cons a l ih => cases files with
    | nil => simp at h
    | cons f fs =>
      rw [attText, attachmentHeader_eq]
      exact .cons (fileText_encodes f) (ih (by simpa using h))

theorem attText_nul {l : List Attachment} (files : List (Option Bytes)) (h : ∀ a ∈ l, 0 ∉ a.name ∧ 0 ∉ a.contentId) :
    0 ∉ attText l files := by
  induction l generalizing files with
  | nil => simp [attText]
  | cons a l ih => cases files with
    | nil => simp [attText]
    | cons f fs =>
      rw [attText, attachmentHeader_eq]
      have h1 := attachmentHead_nul (h a (by simp))
      have h2 := fileText_nul f
      have h3 := ih fs fun b hb => h b (by simp [hb])
      simp [h1, h2, h3]

theorem bodyText_mime {m : Message} {files : List (Option Bytes)} (h : (elems m.attachments).length = files.length) :
    MimeBody m files (bodyText m files) := by
  unfold MimeBody bodyText
  split
  · simp [bodyPart, textPart]
  · exact ⟨_, attText_parts h, by simp [bodyPart, textPart]⟩

theorem bodyText_nul {m : Message} (h : NulFree m) (files : List (Option Bytes)) : 0 ∉ bodyText m files := by
  unfold bodyText bodyPart
  have h1 := h.body
  have h2 := h.mime
  have h3 := attText_nul files h.attachments
  split <;> simp [h1, h2, h3]

theorem mem_flatten_nul {l : List Bytes} {t : Bytes} (h : l.flatten = t) (ht : 0 ∉ t) : ∀ p ∈ l, cstr p = p := fun p hp =>
  cstr_eq_self fun h0 => ht (h ▸ List.mem_flatten.mpr ⟨p, hp, h0⟩)

theorem map_cstr {β : Type} {l : List Bytes} (h : ∀ p ∈ l, cstr p = p) (f : Bytes → β) : (l.map fun p => f (cstr p)) = l.map f :=
  List.map_congr_left fun p hp => by rw [h p hp]

theorem senderForms_nul {a : MessageAddress} (h : 0 ∉ a.email ∧ 0 ∉ a.displayName) : ∀ f ∈ senderForms a, cstr f = f := by
  intro f hf
  simp only [senderForms, List.mem_cons, List.not_mem_nil, or_false] at hf
  rcases hf with rfl | rfl | rfl <;> exact cstr_eq_self (by simp [h])

theorem MailSaid.delivered {ch : Chan} {m : Message} {files : List (Option Bytes)} {batch : Bool} {items : List Item}
    (h : MailSaid ch m files batch items) (hl : (elems m.attachments).length = files.length) (hm : NulFree m) :
    Delivered ch m files batch items := by
  obtain ⟨i1, i2, i3, _, hi, ⟨pre, f, rest, hf, h1⟩, h2, h3, l, done, rfl, hb, hsz, hd⟩ := h
  have hh := mem_flatten_nul (headerLines_flatten m) (headerText_nul hm)
  have hb' := mem_flatten_nul hb (bodyText_nul hm files)
  rw [map_cstr hh, map_cstr hb'] at hi
  rw [mailFormats_eq] at hf
  have hfs : ∀ g ∈ pre ++ f :: rest, cstr g = g := hf ▸ senderForms_nul (hm.addresses m.from (by simp))
  refine ⟨i1, i2, i3, headerLines m, l, done, ?_, ⟨pre, f, rest, hf, ?_⟩, ?_, h3, headerLines_flatten m, ?_, hsz, hd⟩
  · rw [hi]; simp [quitCmd]
  · rw [hfs f (by simp)] at h1
    have : (pre.map fun f => (cstr f, (501 : Int))) = pre.map (·, 501) :=
      map_cstr (fun p hp => hfs p (by simp [hp])) (·, (501 : Int))
    rwa [this] at h1
  · have : (recipients m).map (fun a => (cstr (rcptTo a), (250 : Int))) =
        (recipients m).map fun a => (b!"RCPT TO: <" ++ a.email ++ b!">\r\n", 250) := by
      apply List.map_congr_left
      intro a ha
      have := (hm.addresses a (by simp [ha])).1
      rw [rcptTo, cstr_eq_self (by simp [this])]
    rwa [this] at h2
  · rw [hb]; exact bodyText_mime hl

end Verif.Proofs
