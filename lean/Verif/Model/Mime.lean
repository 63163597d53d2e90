import Verif.Model.Values
/-!
# Model of `Attachment::getMimeType` and `Attachment::getBase64EncodedFile`
-/
namespace Verif.Model
open Verif

/-- `filename.substr(filename.find_last_of('.') + 1)`, attachment.cpp:157; without a dot `npos + 1` is 0, the whole name. -/
def extensionOf (f : Bytes) : Bytes := (f.reverse.takeWhile (· ≠ 46)).reverse

/-- The chain of comparisons, attachment.cpp:159-327, in order (generated from the text of the source). -/
def mimeTable : List (Bytes × Bytes) := [
  (b!"PNG", b!"image/png"),
  (b!"JPEG", b!"image/jpeg"),
  (b!"JPG", b!"image/jpeg"),
  (b!"JPE", b!"image/jpeg"),
  (b!"GIF", b!"image/gif"),
  (b!"TIFF", b!"image/tiff"),
  (b!"TIF", b!"image/tiff"),
  (b!"ICO", b!"image/x-icon"),
  (b!"XML", b!"application/xml"),
  (b!"XSL", b!"application/xml"),
  (b!"XHTML", b!"application/xhtml+xml"),
  (b!"XHT", b!"application/xhtml+xml"),
  (b!"PDF", b!"application/pdf"),
  (b!"JS", b!"application/javascript"),
  (b!"CSS", b!"text/css"),
  (b!"CSV", b!"text/csv"),
  (b!"HTML", b!"text/html"),
  (b!"HTM", b!"text/html"),
  (b!"TXT", b!"text/plain"),
  (b!"TEXT", b!"text/plain"),
  (b!"CONF", b!"text/plain"),
  (b!"DEF", b!"text/plain"),
  (b!"LIST", b!"text/plain"),
  (b!"LOG", b!"text/plain"),
  (b!"IN", b!"text/plain"),
  (b!"MPEG", b!"video/mpeg"),
  (b!"MPG", b!"video/mpeg"),
  (b!"MPE", b!"video/mpeg"),
  (b!"M1V", b!"video/mpeg"),
  (b!"M2V", b!"video/mpeg"),
  (b!"MP4", b!"video/mp4"),
  (b!"MP4V", b!"video/mp4"),
  (b!"MPG4", b!"video/mp4"),
  (b!"QT", b!"video/quicktime"),
  (b!"MOV", b!"video/quicktime"),
  (b!"WMV", b!"video/x-ms-wmv"),
  (b!"AVI", b!"video/x-msvideo"),
  (b!"FLV", b!"video/x-flv"),
  (b!"WEBM", b!"video/webm"),
  (b!"WAV", b!"audio/wav"),
  (b!"MP3", b!"audio/mpeg"),
  (b!"OGA", b!"audio/ogg"),
  (b!"OPUS", b!"audio/opus"),
  (b!"AAC", b!"audio/aac"),
  (b!"ZIP", b!"application/zip"),
  (b!"RAR", b!"application/x-rar-compressed"),
  (b!"ODT", b!"application/vnd.oasis.opendocument.text"),
  (b!"ODS", b!"application/vnd.oasis.opendocument.spreadsheet"),
  (b!"ODP", b!"application/vnd.oasis.opendocument.presentation"),
  (b!"ODG", b!"application/vnd.oasis.opendocument.graphics"),
  (b!"XLS", b!"application/vnd.ms-excel"),
  (b!"XLM", b!"application/vnd.ms-excel"),
  (b!"XLA", b!"application/vnd.ms-excel"),
  (b!"XLC", b!"application/vnd.ms-excel"),
  (b!"XLT", b!"application/vnd.ms-excel"),
  (b!"XLW", b!"application/vnd.ms-excel"),
  (b!"XLAM", b!"application/vnd.ms-excel.addin.macroenabled.12"),
  (b!"XLSB", b!"application/vnd.ms-excel.sheet.binary.macroenabled.12"),
  (b!"XLSM", b!"application/vnd.ms-excel.sheet.macroenabled.12"),
  (b!"XLTM", b!"application/vnd.ms-excel.template.macroenabled.12"),
  (b!"XLSX", b!"application/vnd.openxmlformats-officedocument.spreadsheetml.sheet"),
  (b!"XLTX", b!"application/vnd.openxmlformats-officedocument.spreadsheetml.template"),
  (b!"PPT", b!"application/vnd.ms-powerpoint"),
  (b!"PPS", b!"application/vnd.ms-powerpoint"),
  (b!"POT", b!"application/vnd.ms-powerpoint"),
  (b!"PPAM", b!"application/vnd.ms-powerpoint.addin.macroenabled.12"),
  (b!"PPTM", b!"application/vnd.ms-powerpoint.presentation.macroenabled.12"),
  (b!"SLDM", b!"application/vnd.ms-powerpoint.slide.macroenabled.12"),
  (b!"PPSM", b!"application/vnd.ms-powerpoint.slideshow.macroenabled.12"),
  (b!"POTM", b!"application/vnd.ms-powerpoint.template.macroenabled.12"),
  (b!"PPTX", b!"application/vnd.openxmlformats-officedocument.presentationml.presentation"),
  (b!"SLDX", b!"application/vnd.openxmlformats-officedocument.presentationml.slide"),
  (b!"PPSX", b!"application/vnd.openxmlformats-officedocument.presentationml.slideshow"),
  (b!"POTX", b!"application/vnd.openxmlformats-officedocument.presentationml.template"),
  (b!"DOC", b!"application/msword"),
  (b!"DOT", b!"application/msword"),
  (b!"DOCX", b!"application/vnd.openxmlformats-officedocument.wordprocessingml.document"),
  (b!"DOTX", b!"application/vnd.openxmlformats-officedocument.wordprocessingml.template"),
  (b!"XUL", b!"application/vnd.mozilla.xul+xml")]

/-- First row of the table whose extension is equal. -/
def mimeLookup (e : Bytes) : List (Bytes × Bytes) → Bytes
  | [] => []
  | (k, t) :: rest => if e = k then t else mimeLookup e rest

/-- `Attachment::getMimeType`, attachment.cpp:155-330. -/
def Attachment.mimeType (a : Attachment) : Bytes := mimeLookup (toUpper (extensionOf a.filename)) mimeTable

end Verif.Model
