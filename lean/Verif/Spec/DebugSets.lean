import Verif.Spec.Code128
import Verif.Spec.DebugText

/-!
# The code sets in the text of a Code 128 barcode

Nothing here mentions the model of the code.
-/

set_option autoImplicit false

namespace Spec

/-- The code set in which each of the symbol characters after the start character is read. -/
def code128Sets (set : CodeSet) : List Nat → List CodeSet
  | [] => []
  | v :: vs => set :: code128Sets (code128Next set v) vs

/-- The letter of a code set. -/
def codeSetName : CodeSet → String
  | .A => "A"
  | .B => "B"
  | .C => "C"

/-- The words with which a symbol character of code set `set` is listed. -/
def codeSetWords (set : CodeSet) : List (List Char) := ["Unit".toList, "kind".toList, (codeSetName set).toList, "index".toList]

end Spec
