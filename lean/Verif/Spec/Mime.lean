import Verif.Spec.Text
/-!
# Which MIME type belongs to which file extension (specification)
-/
namespace Verif.Spec
open Verif

/-- `e` is what follows the last dot of `f`, or all of `f` when it has no dot. -/
def IsExtensionOf (e f : Bytes) : Prop := 46 ∉ e ∧ (f = e ∨ ∃ a, f = a ++ 46 :: e)

/-- MIME types and the extensions (lower case) they belong to. -/
def mimeTypes : List (Bytes × List Bytes) := [
  (b!"image/png", [b!"png"]),
  (b!"image/jpeg", [b!"jpeg", b!"jpg", b!"jpe"]),
  (b!"image/gif", [b!"gif"]),
  (b!"image/tiff", [b!"tiff", b!"tif"]),
  (b!"image/x-icon", [b!"ico"]),
  (b!"application/xml", [b!"xml", b!"xsl"]),
  (b!"application/xhtml+xml", [b!"xhtml", b!"xht"]),
  (b!"application/pdf", [b!"pdf"]),
  (b!"application/javascript", [b!"js"]),
  (b!"text/css", [b!"css"]),
  (b!"text/csv", [b!"csv"]),
  (b!"text/html", [b!"html", b!"htm"]),
  (b!"text/plain", [b!"txt", b!"text", b!"conf", b!"def", b!"list", b!"log", b!"in"]),
  (b!"video/mpeg", [b!"mpeg", b!"mpg", b!"mpe", b!"m1v", b!"m2v"]),
  (b!"video/mp4", [b!"mp4", b!"mp4v", b!"mpg4"]),
  (b!"video/quicktime", [b!"qt", b!"mov"]),
  (b!"video/x-ms-wmv", [b!"wmv"]),
  (b!"video/x-msvideo", [b!"avi"]),
  (b!"video/x-flv", [b!"flv"]),
  (b!"video/webm", [b!"webm"]),
  (b!"audio/wav", [b!"wav"]),
  (b!"audio/mpeg", [b!"mp3"]),
  (b!"audio/ogg", [b!"oga"]),
  (b!"audio/opus", [b!"opus"]),
  (b!"audio/aac", [b!"aac"]),
  (b!"application/zip", [b!"zip"]),
  (b!"application/x-rar-compressed", [b!"rar"]),
  (b!"application/vnd.oasis.opendocument.text", [b!"odt"]),
  (b!"application/vnd.oasis.opendocument.spreadsheet", [b!"ods"]),
  (b!"application/vnd.oasis.opendocument.presentation", [b!"odp"]),
  (b!"application/vnd.oasis.opendocument.graphics", [b!"odg"]),
  (b!"application/vnd.ms-excel", [b!"xls", b!"xlm", b!"xla", b!"xlc", b!"xlt", b!"xlw"]),
  (b!"application/vnd.ms-excel.addin.macroenabled.12", [b!"xlam"]),
  (b!"application/vnd.ms-excel.sheet.binary.macroenabled.12", [b!"xlsb"]),
  (b!"application/vnd.ms-excel.sheet.macroenabled.12", [b!"xlsm"]),
  (b!"application/vnd.ms-excel.template.macroenabled.12", [b!"xltm"]),
  (b!"application/vnd.openxmlformats-officedocument.spreadsheetml.sheet", [b!"xlsx"]),
  (b!"application/vnd.openxmlformats-officedocument.spreadsheetml.template", [b!"xltx"]),
  (b!"application/vnd.ms-powerpoint", [b!"ppt", b!"pps", b!"pot"]),
  (b!"application/vnd.ms-powerpoint.addin.macroenabled.12", [b!"ppam"]),
  (b!"application/vnd.ms-powerpoint.presentation.macroenabled.12", [b!"pptm"]),
  (b!"application/vnd.ms-powerpoint.slide.macroenabled.12", [b!"sldm"]),
  (b!"application/vnd.ms-powerpoint.slideshow.macroenabled.12", [b!"ppsm"]),
  (b!"application/vnd.ms-powerpoint.template.macroenabled.12", [b!"potm"]),
  (b!"application/vnd.openxmlformats-officedocument.presentationml.presentation", [b!"pptx"]),
  (b!"application/vnd.openxmlformats-officedocument.presentationml.slide", [b!"sldx"]),
  (b!"application/vnd.openxmlformats-officedocument.presentationml.slideshow", [b!"ppsx"]),
  (b!"application/vnd.openxmlformats-officedocument.presentationml.template", [b!"potx"]),
  (b!"application/msword", [b!"doc", b!"dot"]),
  (b!"application/vnd.openxmlformats-officedocument.wordprocessingml.document", [b!"docx"]),
  (b!"application/vnd.openxmlformats-officedocument.wordprocessingml.template", [b!"dotx"]),
  (b!"application/vnd.mozilla.xul+xml", [b!"xul"])]

/-- `e` is an extension of type `t`, ignoring letter case. -/
def HasMimeType (e t : Bytes) : Prop := ∃ p ∈ mimeTypes, p.1 = t ∧ ∃ x ∈ p.2, EqIgnoringCase e x

instance (s t : Bytes) : Decidable (EqIgnoringCase s t) := inferInstanceAs (Decidable (_ ∧ _))

/-- What follows the last dot of a file name. -/
def extension (f : Bytes) : Bytes := (f.reverse.takeWhile fun c => decide (c ≠ 46)).reverse

/-- The type of a file by the table, or nothing. -/
def fileType (f : Bytes) : Bytes :=
  match mimeTypes.find? fun p => p.2.any fun x => decide (EqIgnoringCase (extension f) x) with
  | some p => p.1
  | none => []

end Verif.Spec
