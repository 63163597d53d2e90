import Verif.Spec.Delivery
/-!
# Which files are read
-/
namespace Verif.Spec
open Verif Verif.Model

/-- The names of the files opened for reading, in this order. -/
def filesRead (h : Hist) : List Bytes :=
  h.filterMap fun
    | .readFile n _ => some n
    | _ => none

/-- The names of the files attached to a message, in this order. -/
def attachedFiles (m : Message) : List Bytes := (elems m.attachments).map (·.filename)

theorem filesRead_append (a b : Hist) : filesRead (a ++ b) = filesRead a ++ filesRead b := by
  simp [filesRead, List.filterMap_append]

end Verif.Spec
