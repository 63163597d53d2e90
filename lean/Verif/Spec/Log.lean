import Verif.Spec.Text
/-!
# Specification of the communication log
-/
namespace Verif.Spec
open Verif

/-- A text with its line breaks (CRLF) made visible as the four characters `\r\n`. -/
def showBreaks (s : Bytes) : Bytes := List.intercalate b!"\\r\\n" (lines s)

/-- Reading back: the four characters `\r\n` are a line break. -/
def readBreaks : Bytes → Bytes
  | 92 :: 114 :: 92 :: 110 :: rest => 13 :: 10 :: readBreaks rest
  | c :: rest => c :: readBreaks rest
  | [] => []

/-- One entry of the log: a new line, who speaks, a colon and the text; what the client says is shown without line breaks. -/
def logEntry (item who : Bytes) : Bytes :=
  b!"\n" ++ who ++ b!": " ++ (if who = b!"c" then showBreaks item else item)

end Verif.Spec
