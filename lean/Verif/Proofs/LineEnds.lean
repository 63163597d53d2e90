import Verif.Proofs.Speech
import Verif.Proofs.Dialogue
import Verif.Proofs.Base64
import Verif.Spec.LineEnds
/-!
# CR and LF are only sent together
-/
namespace Verif.Proofs
open Verif Verif.Model Verif.Spec

variable {env : Env} {m : Message}

theorem _root_.Verif.Spec.LineEnds.append {a b : Bytes} (ha : LineEnds a) (hb : LineEnds b) : LineEnds (a ++ b) := by
  induction ha with
  | nil => exact hb
  | crlf _ ih => exact .crlf ih
  | char h1 h2 _ ih => exact .char h1 h2 ih

theorem lineEnds_free {t : Bytes} (h : ∀ c ∈ t, c ≠ 13 ∧ c ≠ 10) : LineEnds t := by
  induction t with
  | nil => exact .nil
  | cons c t ih => exact .char (h c (by simp)).1 (h c (by simp)).2 (ih fun d hd => h d (by simp [hd]))

/-- The same as a test. -/
def paired : Bytes → Bool
  | [] => true
  | [c] => c != 13 && c != 10
  | c :: d :: t => if c = 13 then d == 10 && paired t else c != 10 && paired (d :: t)

theorem lineEnds_paired (t : Bytes) (h : paired t = true) : LineEnds t := by
  induction t using paired.induct with
  | case1 => exact .nil
  | case2 c =>
    simp only [paired, Bool.and_eq_true, bne_iff_ne] at h
    exact .char h.1 h.2 .nil
  | case3 d t ih =>
    simp only [paired, if_true, Bool.and_eq_true, beq_iff_eq] at h
    obtain ⟨rfl, h⟩ := h
    exact .crlf (ih h)
  | case4 c d t hc ih =>
    rw [paired, if_neg hc, Bool.and_eq_true, bne_iff_ne] at h
    exact .char hc h.1 (ih h.2)

theorem encodeFrom_lineEnds (s : Bytes) (n : Nat) : LineEnds (Model.Base64.encodeFrom s n) := by
  induction s, n using Model.Base64.encodeFrom.induct with
  | case1 a b c rest n _ _ _ _ _ ih =>
    rw [Base64.encodeFrom_cons]
    refine (lineEnds_free fun x hx => ?_).append (LineEnds.append ?_ ih)
    · obtain ⟨i, hi, rfl⟩ := Base64.mem_group hx
      exact ⟨(Base64.charAt_ne i hi).2.1, (Base64.charAt_ne i hi).2.2.1⟩
    · split
      · exact lineEnds_paired _ (by decide)
      · exact .nil
  | case2 a b n =>
    have ha := Base64.toNat_lt a; have hb := Base64.toNat_lt b
    rw [Base64.encodeFrom_two]
    refine lineEnds_free fun x hx => ?_
    simp only [List.mem_cons, List.not_mem_nil, or_false] at hx
    have k : ∀ i, i < 64 → Model.Base64.charAt i ≠ 13 ∧ Model.Base64.charAt i ≠ 10 := fun i hi => ⟨(Base64.charAt_ne i hi).2.1, (Base64.charAt_ne i hi).2.2.1⟩
    rcases hx with rfl | rfl | rfl | rfl
    · exact k _ (by omega)
    · exact k _ (by omega)
    · exact k _ (by omega)
    · decide
  | case3 a n =>
    have ha := Base64.toNat_lt a
    rw [Base64.encodeFrom_one]
    refine lineEnds_free fun x hx => ?_
    simp only [List.mem_cons, List.not_mem_nil, or_false] at hx
    have k : ∀ i, i < 64 → Model.Base64.charAt i ≠ 13 ∧ Model.Base64.charAt i ≠ 10 := fun i hi => ⟨(Base64.charAt_ne i hi).2.1, (Base64.charAt_ne i hi).2.2.1⟩
    rcases hx with rfl | rfl | rfl | rfl
    · exact k _ (by omega)
    · exact k _ (by omega)
    · decide
    · decide
  | case4 n => simp only [Model.Base64.encodeFrom]; exact .nil

theorem encode_lineEnds (s : Bytes) : LineEnds (Model.Base64.encode s) := encodeFrom_lineEnds s 0

/-! ### The message -/

theorem shown_lineEnds {a : MessageAddress} (h : LineEnds a.email ∧ LineEnds a.displayName) : LineEnds (shown a) := by
  have lit : ∀ t ∈ [b!" <", b!">"], LineEnds t := fun t ht => lineEnds_paired t (by revert t; decide)
  unfold shown
  split
  · exact h.1
  · exact ((h.2.append (lit _ (by simp))).append h.1).append (lit _ (by simp))

theorem flatten_lineEnds (l : List Bytes) (h : ∀ t ∈ l, LineEnds t) : LineEnds l.flatten := by
  induction l with
  | nil => exact .nil
  | cons a l ih =>
    rw [List.flatten_cons]
    exact (h a (by simp)).append (ih fun t ht => h t (by simp [ht]))

theorem intercalate_lineEnds (l : List Bytes) (h : ∀ t ∈ l, LineEnds t) : LineEnds (List.intercalate b!", " l) := by
  cases l with
  | nil => simp only [List.intercalate, List.intersperse_nil, List.flatten_nil]; exact .nil
  | cons a l =>
    rw [intercalate_cons]
    refine (h a (by simp)).append (flatten_lineEnds _ fun t ht => ?_)
    obtain ⟨c, hc, rfl⟩ := List.mem_map.mp ht
    exact (lineEnds_paired b!", " (by decide)).append (h c (by simp [hc]))

theorem headerText_lineEnds (hm : LineEndsOf m) : LineEnds (headerText m) := by
  have lit : ∀ t ∈ [b!"From", b!"To", b!"Cc", b!"Subject", b!": ", b!"\r\n", b!"Content-Type", b!"multipart/related; boundary=sep"], LineEnds t :=
    fun t ht => lineEnds_paired t (by revert t; decide)
  have hf : ∀ f ∈ fields m, LineEnds f.1 ∧ LineEnds f.2 := by
    intro f hf
    simp only [fields, List.mem_append, List.mem_cons, List.not_mem_nil, or_false] at hf
    rcases hf with ((rfl | hf) | hf) | rfl | rfl
    · exact ⟨lit _ (by simp), shown_lineEnds (hm.addresses _ (by simp))⟩
    · split at hf
      · simp at hf
      · rw [List.mem_singleton] at hf
        subst hf
        refine ⟨lit _ (by simp), intercalate_lineEnds _ fun t ht => ?_⟩
        obtain ⟨a, ha, rfl⟩ := List.mem_map.mp ht
        exact shown_lineEnds (hm.addresses _ (by simp [recipients, ha]))
    · split at hf
      · simp at hf
      · rw [List.mem_singleton] at hf
        subst hf
        refine ⟨lit _ (by simp), intercalate_lineEnds _ fun t ht => ?_⟩
        obtain ⟨a, ha, rfl⟩ := List.mem_map.mp ht
        exact shown_lineEnds (hm.addresses _ (by simp [recipients, ha]))
    · exact ⟨lit _ (by simp), hm.subject⟩
    · exact ⟨lit _ (by simp), lit _ (by simp)⟩
  unfold headerText
  refine LineEnds.append (flatten_lineEnds _ fun t ht => ?_) (lit _ (by simp))
  obtain ⟨f, h, rfl⟩ := List.mem_map.mp ht
  have := hf f h
  exact ((this.1.append (lit _ (by simp))).append this.2).append (lit _ (by simp))

theorem mimeType_lineEnds (a : Attachment) : LineEnds a.mimeType := by
  have : ∀ l : List (Bytes × Bytes), (∀ p ∈ l, paired p.2 = true) → ∀ e, LineEnds (mimeLookup e l) := by
    intro l
    induction l with
    | nil => intro _ e; simp only [mimeLookup]; exact .nil
    | cons p l ih =>
      intro h e
      unfold mimeLookup
      split
      · exact lineEnds_paired _ (h p (by simp))
      · exact ih (fun q hq => h q (by simp [hq])) e
  exact this mimeTable (by decide +kernel) _

theorem attachmentHeader_lineEnds {a : Attachment} (h : LineEnds a.name ∧ LineEnds a.contentId) : LineEnds (attachmentHeader a) := by
  have lit : ∀ t ∈ [b!"\r\n--sep\r\n", b!"Content-Type: ", b!"; file=\"", b!"\"\r\n", b!"X-Attachment-Id: ", b!"\r\n", b!"Content-ID: <", b!">\r\n",
      b!"Content-Disposition: attachment; filename=\"", b!"Content-Disposition: Inline; filename=\"", b!"Content-Transfer-Encoding: base64\r\n\r\n"], LineEnds t :=
    fun t ht => lineEnds_paired t (by revert t; decide)
  obtain ⟨hn, hi⟩ := h
  have ht := mimeType_lineEnds a
  unfold attachmentHeader
  split
  all_goals
    repeat' apply LineEnds.append
    all_goals first | assumption | exact lit _ (by simp)

theorem bodyText_lineEnds (hm : LineEndsOf m) (files : List (Option Bytes)) : LineEnds (bodyText m files) := by
  have lit : ∀ t ∈ [b!"--sep\r\nContent-Type: ", b!"; charset=UTF-8\r\n\r\n", b!"\r\n", b!"\r\n--sep--", []], LineEnds t :=
    fun t ht => lineEnds_paired t (by revert t; decide)
  have hf : ∀ f : Option Bytes, LineEnds (fileText f) := by
    rintro (_ | c)
    · exact .nil
    · simp only [fileText]
      rw [encode_cstr]
      exact encode_lineEnds _
  have ha : ∀ (l : List Attachment) (files : List (Option Bytes)), (∀ a ∈ l, LineEnds a.name ∧ LineEnds a.contentId) → LineEnds (attText l files) := by
    intro l
    induction l with
    | nil => intro _ _; exact lit _ (by simp [attText])
    | cons a l ih =>
      intro files h
      cases files with
      | nil => exact lit _ (by simp [attText])
      | cons f fs =>
        rw [attText]
        exact ((attachmentHeader_lineEnds (h a (by simp))).append (hf f)).append (ih fs fun b hb => h b (by simp [hb]))
  have hp : LineEnds (bodyPart m.mime m.body) := by
    have := hm.mime
    have := hm.body
    unfold bodyPart
    repeat' apply LineEnds.append
    all_goals first | assumption | exact lit _ (by simp)
  unfold bodyText
  split
  · exact hp
  · exact hp.append ((ha _ files hm.attachments).append (lit _ (by simp)))

/-! ### The commands -/

/-- In commands CR and LF occur only together; about content nothing is said. -/
abbrev PairedEnds : Texts := fun _ k d => k = .cmd → LineEnds d

theorem auth_pairedEnds : AuthTexts PairedEnds := by
  intro cr d hd _
  have lit : ∀ t ∈ [b!"\r\n", b!"AUTH PLAIN ", b!"AUTH XOAUTH2 ", b!"AUTH LOGIN\r\n"], LineEnds t := fun t ht => lineEnds_paired t (by revert t; decide)
  simp only [List.mem_cons, List.not_mem_nil, or_false] at hd
  rcases hd with rfl | rfl | rfl | rfl | rfl
  · exact ((lit _ (by simp)).append (encode_lineEnds _)).append (lit _ (by simp))
  · exact lit _ (by simp)
  · exact (encode_lineEnds _).append (lit _ (by simp))
  · exact (encode_lineEnds _).append (lit _ (by simp))
  · exact ((lit _ (by simp)).append (encode_lineEnds _)).append (lit _ (by simp))

theorem content_pairedEnds (d : Bytes) (c) : PairedEnds c .content d := fun h => by cases h

theorem sendMailConnected_pairedEnds (hn : NulFree m) (hm : LineEndsOf m) : Steps env (Saying PairedEnds) (sendMailConnected m) := by
  have lit : ∀ t ∈ [b!"MAIL FROM: <", b!"MAIL FROM: ", b!" ", b!">\r\n", b!"\r\n", b!"RCPT TO: <", dataCmd, endOfData], LineEnds t :=
    fun t ht => lineEnds_paired t (by revert t; decide)
  have h1 : Steps env (Saying PairedEnds) (setMailRecipients m) := by
    unfold setMailRecipients
    have h1 := fun c => mailFromLoop_saying (env := env) (D := PairedEnds) (mailFormats m.from) (fun f hf c _ => by
      obtain ⟨he, hd⟩ := hm.addresses m.from (by simp)
      rw [senderForms_nul (hn.addresses m.from List.mem_cons_self) f (by rwa [mailFormats_eq] at hf)]
      simp only [mailFormats, List.mem_cons, List.not_mem_nil, or_false] at hf
      rcases hf with rfl | rfl | rfl
      all_goals
        repeat' apply LineEnds.append
        all_goals first | assumption | exact lit _ (by simp)) c
    have h2 := recipientsLoop_saying (env := env) (D := PairedEnds) [m.to, m.cc, m.bcc] (fun r hr a ha c _ => by
      have hmem : a ∈ recipients m := by
        simp only [List.mem_cons, List.not_mem_nil, or_false] at hr
        simp only [recipients, List.mem_append]
        rcases hr with rfl | rfl | rfl
        · exact .inl (.inl ha)
        · exact .inl (.inr ha)
        · exact .inr ha
      have : cstr (rcptTo a) = b!"RCPT TO: <" ++ a.email ++ b!">\r\n" :=
        cstr_eq_self (by have := (hn.addresses a (by simp [hmem])).1; simp [rcptTo, this])
      rw [this]
      exact ((lit _ (by simp)).append (hm.addresses a (by simp [hmem])).1).append (lit _ (by simp)))
    steps [h1]
  have h2 := setMailHeaders_saying (env := env) (D := PairedEnds) m (fun _ _ c => content_pairedEnds _ c) (fun _ _ => lit _ (by simp))
  have h3 : Steps env (Saying PairedEnds) (setMailBody m) := by
    have h1 : ∀ t, Steps env (Saying PairedEnds) (sendBodyText t) := fun t => sendBodyText_saying t fun _ _ c => content_pairedEnds _ c
    have h2 := cmd_saying (env := env) (D := PairedEnds) (d := endOfData) (fun _ _ => lit _ (by simp [show cstr endOfData = endOfData by decide])) (-97) (-98)
    unfold setMailBody
    steps [addLog_steps, sendQuit_steps, fullBody_steps, h1]
  unfold sendMailConnected sendMailRest
  steps [cleanup_steps, Steps.modify]
  exact Saying.same rfl rfl

theorem sendMail_pairedEnds (hn : NulFree m) (hm : LineEndsOf m) : Steps env (Saying PairedEnds) (sendMail m) := by
  have h1 := sendMailConnected_pairedEnds (env := env) hn hm
  have h2 := establish_saying (env := env) (D := PairedEnds) auth_pairedEnds (fun _ _ => lineEnds_paired _ (by decide)) (fun _ _ => lineEnds_paired _ (by decide))
  unfold sendMail
  steps []

end Verif.Proofs
