import Verif.Proofs.Limits
import Verif.Proofs.Dialogue
import Verif.Proofs.Lines
import Verif.Props.Receiver
/-!
# The length of the lines of a message
-/
namespace Verif.Proofs
open Verif Verif.Model Verif.Spec

theorem line_length (s : Bytes) : ∀ l ∈ lines s, l.length ≤ s.length := by
  induction s using lines.induct with
  | case1 => simp [lines]
  | case2 => simp [lines]
  | case3 c d rest h ih =>
    intro l hl
    simp only [lines, h, and_self, if_true, List.mem_cons] at hl
    rcases hl with rfl | hl
    · simp
    · have := ih l hl
      simp only [List.length_cons]
      omega
  | case4 c d rest h ih =>
    intro l hl
    simp only [lines, h, if_false] at hl
    cases hx : lines (d :: rest) with
    | nil => exact absurd hx (lines_ne_nil _)
    | cons x xs =>
      rw [hx] at hl ih
      simp only [consFirst, List.mem_cons] at hl
      rcases hl with rfl | hl
      · have := ih x (by simp)
        simp only [List.length_cons] at this ⊢
        omega
      · have := ih l (by simp [hl])
        simp only [List.length_cons] at this ⊢
        omega

theorem fits_short {s : Bytes} (h : s.length ≤ 998) : LinesFit s := by
  intro l hl
  have := line_length s l hl
  unfold textLimit
  omega

theorem fits_sep {a b : Bytes} (ha : LinesFit a) (hb : LinesFit b) : LinesFit (a ++ 13 :: 10 :: b) := by
  intro l hl
  rw [lines_append_sep, List.mem_append] at hl
  exact hl.elim (ha l) (hb l)

theorem fits_each {ls : List Bytes} (h : ∀ l ∈ ls, l.length ≤ 998) {rest : Bytes} (hr : LinesFit rest) :
    LinesFit ((ls.map (· ++ b!"\r\n")).flatten ++ rest) := by
  induction ls with
  | nil => exact hr
  | cons x xs ih =>
    have : ((x :: xs).map (· ++ b!"\r\n")).flatten ++ rest = x ++ 13 :: 10 :: ((xs.map (· ++ b!"\r\n")).flatten ++ rest) := by simp
    rw [this]
    exact fits_sep (fits_short (h x (by simp))) (ih fun l hl => h l (by simp [hl]))

theorem mimeTypes_short : ∀ p ∈ mimeTypes, p.1.length ≤ 74 := by decide +kernel

theorem fileType_short (f : Bytes) : (fileType f).length ≤ 74 := by
  unfold fileType
  split
  · next p h => exact mimeTypes_short p (List.mem_of_find?_eq_some h)
  · simp

theorem partHeader_short {a : Attachment} (h1 : a.name.length ≤ 900) (h2 : a.contentId.length ≤ 900) : ∀ l ∈ Props.partHeader a, l.length ≤ 998 := by
  have := fileType_short a.filename
  intro l hl
  unfold Props.partHeader at hl
  split at hl
  all_goals
    simp only [List.mem_cons, List.mem_append, List.not_mem_nil, or_false, or_assoc] at hl
    repeat' rcases hl with hl | hl
    all_goals
      simp only [List.length_append, List.length_cons, List.length_nil]
      omega

/-- No file is so long that its line is too long. -/
def FilesShort (files : List (Option Bytes)) : Prop := ∀ c, some c ∈ files → c.length ≤ 747

theorem fileText_short {f : Option Bytes} (h : ∀ c, f = some c → c.length ≤ 747) : (fileText f).length ≤ 998 := by
  cases f with
  | none => simp [fileText]
  | some c =>
    have hc := h c rfl
    have h1 : (c.take (c.length % 2 ^ 32)).length ≤ 747 := by rw [List.length_take]; omega
    have h2 := encode_len (s := c.take (c.length % 2 ^ 32)) (by omega)
    have h3 := cstr_length_le (Base64.encode (c.take (c.length % 2 ^ 32)))
    refine Nat.le_trans h3 ?_
    omega

theorem attText_fits (as : List Attachment) (ha : ∀ a ∈ as, a.name.length ≤ 900 ∧ a.contentId.length ≤ 900) (files : List (Option Bytes)) (hf : FilesShort files)
    (x : Bytes) (hx : LinesFit x) : LinesFit (x ++ (attText as files ++ b!"\r\n--sep--")) := by
  have tail : ∀ x, LinesFit x → LinesFit (x ++ b!"\r\n--sep--") := fun x hx => fits_sep hx (fits_short (by decide))
  induction as generalizing files x with
  | nil => exact tail x hx
  | cons a as ih =>
    cases files with
    | nil => exact tail x hx
    | cons f fs =>
      have h1 := ih (fun a h => ha a (by simp [h])) fs (fun c h => hf c (by simp [h])) (fileText f) (fits_short (fileText_short fun c h => hf c (by simp [h])))
      obtain ⟨ha1, ha2⟩ := ha a (by simp)
      have e : x ++ (attText (a :: as) (f :: fs) ++ b!"\r\n--sep--") =
          x ++ 13 :: 10 :: (((b!"--sep" :: Props.partHeader a ++ [[]]).map (· ++ b!"\r\n")).flatten ++ (fileText f ++ (attText as fs ++ b!"\r\n--sep--"))) := by
        rw [attText, attachmentHeader_eq, Props.attachmentHead_eq]
        simp
      rw [e]
      refine fits_sep hx (fits_each ?_ h1)
      intro l hl
      simp only [List.cons_append, List.mem_cons, List.mem_append, List.not_mem_nil, or_false] at hl
      rcases hl with rfl | hl | rfl
      · decide
      · exact partHeader_short ha1 ha2 l hl
      · decide

theorem bodyText_fits {m : Message} (hm : TextFits m) {files : List (Option Bytes)} (hf : FilesShort files) : LinesFit (bodyText m files) := by
  have hmime := hm.mime
  have part : ∀ t, LinesFit t → LinesFit (bodyPart m.mime m.body ++ t) := by
    intro t ht
    have e : bodyPart m.mime m.body ++ t = b!"--sep" ++ 13 :: 10 :: ((b!"Content-Type: " ++ m.mime ++ b!"; charset=UTF-8") ++ 13 :: 10 :: ([] ++ 13 :: 10 :: (m.body ++ 13 :: 10 :: t))) := by
      simp [bodyPart]
    rw [e]
    refine fits_sep (fits_short (by decide)) (fits_sep (fits_short ?_) (fits_sep (fits_short (by decide)) (fits_sep hm.body ht)))
    simp only [List.length_append, List.length_cons, List.length_nil]
    omega
  unfold bodyText
  split
  · have := part [] (fits_short (by decide))
    rwa [List.append_nil] at this
  · exact part _ (attText_fits _ hm.attachments files hf [] (fits_short (by decide)))

theorem headerText_fits {m : Message} (hm : TextFits m) {t : Bytes} (ht : LinesFit t) : LinesFit (headerText m ++ t) := by
  have e : headerText m ++ t = ((((fields m).map fun f : Bytes × Bytes => f.1 ++ b!": " ++ f.2) ++ [[]]).map (· ++ b!"\r\n")).flatten ++ t := by
    have : fieldLine = fun f => f.1 ++ b!": " ++ f.2 ++ b!"\r\n" := rfl
    simp [headerText, this, Function.comp_def]
  rw [e]
  refine fits_each ?_ ht
  intro l hl
  simp only [List.mem_append, List.mem_map, List.mem_cons, List.not_mem_nil, or_false] at hl
  rcases hl with ⟨f, hf, rfl⟩ | rfl
  · have := hm.fields f hf
    unfold textLimit at this
    simp only [List.length_append, List.length_cons, List.length_nil]
    omega
  · decide

end Verif.Proofs
