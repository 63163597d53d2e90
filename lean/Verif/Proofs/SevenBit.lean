import Verif.Proofs.Speech
import Verif.Proofs.Faults
import Verif.Props.Base64
import Verif.Spec.SevenBit
/-!
# Only US-ASCII is sent
-/
namespace Verif.Proofs
open Verif Verif.Model Verif.Spec

variable {env : Env} {m : Message}

theorem _root_.Verif.Spec.Ascii.append {a b : Bytes} (ha : Ascii a) (hb : Ascii b) : Ascii (a ++ b) := fun x hx => by
  rcases List.mem_append.mp hx with h | h
  · exact ha x h
  · exact hb x h

theorem _root_.Verif.Spec.Ascii.cstr {d : Bytes} (h : Ascii d) : SevenBit (cstr d) := fun b hb => by
  refine ⟨Nat.pos_of_ne_zero fun h0 => ?_, h b (mem_cstr hb)⟩
  have : b = 0 := UInt8.toNat_inj.mp h0
  subst this
  exact cstr_no_nul d hb

theorem alphabet_ascii : ∀ b : UInt8, Spec.Base64.Alphabet b → 0 < b.toNat ∧ b.toNat < 128 := by
  intro b
  unfold Spec.Base64.Alphabet Spec.Base64.value
  intro h
  rcases h with h | rfl
  · revert h
    simp only [← UInt8.toNat_inj]
    repeat' split
    all_goals simp_all
    all_goals omega
  · decide

theorem encode_sevenBit (d : Bytes) : SevenBit (Model.Base64.encode d) := by
  intro b hb
  rcases Props.C03_encode_alphabet d b hb with h | rfl | rfl
  · exact alphabet_ascii b h
  · decide
  · decide

theorem _root_.Verif.Spec.SevenBit.ascii {d : Bytes} (h : SevenBit d) : Ascii d := fun b hb => (h b hb).2

theorem _root_.Verif.Spec.SevenBit.append {a b : Bytes} (ha : SevenBit a) (hb : SevenBit b) : SevenBit (a ++ b) := fun x hx => by
  rcases List.mem_append.mp hx with h | h
  · exact ha x h
  · exact hb x h

/-- Everything sent is of US-ASCII. -/
abbrev Seven : Texts := fun _ _ d => SevenBit d

theorem auth_seven : AuthTexts Seven := by
  intro cr d hd
  simp only [List.mem_cons, List.not_mem_nil, or_false] at hd
  have lit : ∀ t ∈ [b!"\r\n", b!"AUTH PLAIN ", b!"AUTH XOAUTH2 ", b!"AUTH LOGIN\r\n"], SevenBit t := by unfold SevenBit; decide
  rcases hd with rfl | rfl | rfl | rfl | rfl
  · exact ((lit _ (by simp)).append (encode_sevenBit _)).append (lit _ (by simp))
  · exact lit _ (by simp)
  · exact (encode_sevenBit _).append (lit _ (by simp))
  · exact (encode_sevenBit _).append (lit _ (by simp))
  · exact ((lit _ (by simp)).append (encode_sevenBit _)).append (lit _ (by simp))

theorem shown_ascii {a : MessageAddress} (h : Ascii a.email ∧ Ascii a.displayName) : Ascii (shown a) := by
  have lit : ∀ t ∈ [b!" <", b!">"], Ascii t := by unfold Ascii; decide
  unfold shown
  split
  · exact h.1
  · exact ((h.2.append (lit _ (by simp))).append h.1).append (lit _ (by simp))

theorem intercalate_ascii (l : List Bytes) (h : ∀ t ∈ l, Ascii t) : Ascii (List.intercalate b!", " l) := by
  cases l with
  | nil => intro b hb; simp [List.intercalate] at hb
  | cons a l =>
    rw [intercalate_cons]
    refine (h a (by simp)).append fun b hb => ?_
    simp only [List.mem_flatten, List.mem_map] at hb
    obtain ⟨_, ⟨c, hc, rfl⟩, hb⟩ := hb
    exact Ascii.append (by unfold Ascii; decide) (h c (by simp [hc])) b hb

theorem headerText_ascii (hm : AsciiMessage m) : Ascii (headerText m) := by
  have lit : ∀ t ∈ [b!"From", b!"To", b!"Cc", b!"Subject", b!": ", b!"\r\n", b!"Content-Type", b!"multipart/related; boundary=sep"], Ascii t := by
    unfold Ascii; decide
  have hf : ∀ f ∈ fields m, Ascii f.1 ∧ Ascii f.2 := by
    intro f hf
    simp only [fields, List.mem_append, List.mem_cons, List.not_mem_nil, or_false] at hf
    rcases hf with ((rfl | hf) | hf) | rfl | rfl
    · exact ⟨lit _ (by simp), shown_ascii (hm.addresses _ (by simp))⟩
    · split at hf
      · simp at hf
      · rw [List.mem_singleton] at hf
        subst hf
        refine ⟨lit _ (by simp), intercalate_ascii _ fun t ht => ?_⟩
        obtain ⟨a, ha, rfl⟩ := List.mem_map.mp ht
        exact shown_ascii (hm.addresses _ (by simp [recipients, ha]))
    · split at hf
      · simp at hf
      · rw [List.mem_singleton] at hf
        subst hf
        refine ⟨lit _ (by simp), intercalate_ascii _ fun t ht => ?_⟩
        obtain ⟨a, ha, rfl⟩ := List.mem_map.mp ht
        exact shown_ascii (hm.addresses _ (by simp [recipients, ha]))
    · exact ⟨lit _ (by simp), hm.subject⟩
    · exact ⟨lit _ (by simp), lit _ (by simp)⟩
  unfold headerText
  refine Ascii.append (fun b hb => ?_) (lit _ (by simp))
  simp only [List.mem_flatten, List.mem_map] at hb
  obtain ⟨_, ⟨f, h, rfl⟩, hb⟩ := hb
  have := hf f h
  exact (((this.1.append (lit _ (by simp))).append this.2).append (lit _ (by simp))) b hb

theorem mimeType_ascii (a : Attachment) : Ascii a.mimeType := by
  have : ∀ l : List (Bytes × Bytes), (∀ p ∈ l, ∀ b ∈ p.2, b.toNat < 128) → ∀ e, Ascii (mimeLookup e l) := by
    intro l
    induction l with
    | nil => intro _ e; simp [mimeLookup, Ascii]
    | cons p l ih =>
      intro h e
      unfold mimeLookup
      split
      · exact h p (by simp)
      · exact ih (fun q hq => h q (by simp [hq])) e
  exact this mimeTable (by decide +kernel) _

theorem attachmentHeader_ascii {a : Attachment} (h : Ascii a.name ∧ Ascii a.contentId) : Ascii (attachmentHeader a) := by
  have lit : ∀ t ∈ [b!"\r\n--sep\r\n", b!"Content-Type: ", b!"; file=\"", b!"\"\r\n", b!"X-Attachment-Id: ", b!"\r\n", b!"Content-ID: <", b!">\r\n",
      b!"Content-Disposition: attachment; filename=\"", b!"Content-Disposition: Inline; filename=\"", b!"Content-Transfer-Encoding: base64\r\n\r\n"], Ascii t := by
    unfold Ascii; decide
  obtain ⟨hn, hi⟩ := h
  have ht := mimeType_ascii a
  unfold attachmentHeader
  split
  all_goals
    repeat' apply Ascii.append
    all_goals first | assumption | exact lit _ (by simp)

theorem bodyText_ascii (hm : AsciiMessage m) (files : List (Option Bytes)) : Ascii (bodyText m files) := by
  have lit : ∀ t ∈ [b!"--sep\r\nContent-Type: ", b!"; charset=UTF-8\r\n\r\n", b!"\r\n", b!"\r\n--sep--", []], Ascii t := by
    unfold Ascii; decide
  have hf : ∀ f : Option Bytes, Ascii (fileText f) := by
    rintro (_ | c)
    · exact lit _ (by simp [fileText])
    · exact fun b hb => (encode_sevenBit _ b (mem_cstr hb)).2
  have ha : ∀ (l : List Attachment) (files : List (Option Bytes)), (∀ a ∈ l, Ascii a.name ∧ Ascii a.contentId) → Ascii (attText l files) := by
    intro l
    induction l with
    | nil => intro _ _; exact lit _ (by simp [attText])
    | cons a l ih =>
      intro files h
      cases files with
      | nil => exact lit _ (by simp [attText])
      | cons f fs =>
        rw [attText]
        exact ((attachmentHeader_ascii (h a (by simp))).append (hf f)).append (ih fs fun b hb => h b (by simp [hb]))
  have hp : Ascii (bodyPart m.mime m.body) := by
    have := hm.mime
    have := hm.body
    unfold bodyPart
    repeat' apply Ascii.append
    all_goals first | assumption | exact lit _ (by simp)
  unfold bodyText
  split
  · exact hp
  · exact hp.append ((ha _ files hm.attachments).append (lit _ (by simp)))

theorem headerLines_ascii (hm : AsciiMessage m) : ∀ t ∈ headerLines m, Ascii t := fun t ht b hb =>
  headerText_ascii hm b (headerLines_flatten m ▸ List.mem_flatten.mpr ⟨t, ht, hb⟩)

theorem sendMailConnected_seven (hm : AsciiMessage m) : Steps env (Saying Seven) (sendMailConnected m) := by
  have lit : ∀ t ∈ [b!"MAIL FROM: <", b!"MAIL FROM: ", b!" ", b!">\r\n", b!"\r\n", b!"RCPT TO: <", dataCmd, endOfData], Ascii t := by unfold Ascii; decide
  have h1 : Steps env (Saying Seven) (setMailRecipients m) := by
    unfold setMailRecipients
    have h1 := fun c => mailFromLoop_saying (env := env) (D := Seven) (mailFormats m.from) (fun f hf c => Ascii.cstr (by
      obtain ⟨he, hn⟩ := hm.addresses m.from (by simp)
      simp only [mailFormats, List.mem_cons, List.not_mem_nil, or_false] at hf
      rcases hf with rfl | rfl | rfl
      all_goals
        repeat' apply Ascii.append
        all_goals first | assumption | exact lit _ (by simp))) c
    have h2 := recipientsLoop_saying (env := env) (D := Seven) [m.to, m.cc, m.bcc] (fun r hr a ha c => Ascii.cstr (by
      have hmem : a ∈ recipients m := by
        simp only [List.mem_cons, List.not_mem_nil, or_false] at hr
        simp only [recipients, List.mem_append]
        rcases hr with rfl | rfl | rfl
        · exact .inl (.inl ha)
        · exact .inl (.inr ha)
        · exact .inr ha
      exact ((lit _ (by simp)).append (hm.addresses a (by simp [hmem])).1).append (lit _ (by simp))))
    steps [h1]
  have h2 := setMailHeaders_saying (env := env) (D := Seven) m (fun t ht _ => (headerLines_ascii hm t ht).cstr) (fun _ => show SevenBit _ by unfold SevenBit; decide)
  have h3 : Steps env (Saying Seven) (setMailBody m) := by
    unfold setMailBody
    refine .bind (addLog_steps _ _) fun _ => ?_
    refine bind_post_steps (P := fun t => Ascii t) (fullBody_steps m) ?_ ?_
    · intro s
      refine post_mono (fullBody_post m s) ?_
      rintro t s' ⟨⟨files, hr, rfl⟩, _⟩
      exact bodyText_ascii hm files
    · intro t ht
      have h1 : Steps env (Saying Seven) (sendBodyText t) := sendBodyText_saying t fun d hd c => Ascii.cstr fun b hb => ht b (hd.subset hb)
      have h2 := cmd_saying (env := env) (D := Seven) (d := endOfData) (fun _ => (lit _ (by simp)).cstr) (-97) (-98)
      steps [addLog_steps, sendQuit_steps, h1]
  unfold sendMailConnected sendMailRest
  steps [cleanup_steps, Steps.modify]
  exact Saying.same rfl rfl

theorem sendMail_seven (hm : AsciiMessage m) : Steps env (Saying Seven) (sendMail m) := by
  have h1 := sendMailConnected_seven (env := env) hm
  have h2 := establish_saying (env := env) (D := Seven) auth_seven (fun _ => show SevenBit _ by unfold SevenBit; decide) (fun _ => show SevenBit _ by unfold SevenBit; decide)
  unfold sendMail
  steps []

end Verif.Proofs
