import Verif.Spec.EveryReading

/-!
# Light bars on dark paper

Nothing here mentions the model of the code.
-/

set_option autoImplicit false

namespace Spec

/-- Dark and light exchanged. -/
def negative (line : List Nat) : List Nat := line.map (fun m => 1 - m)

/-- Everything that can be read from a line by a reader that also tries the negative. -/
def eitherPolarity (line : List Nat) : List (Symbology × List Char) := everyReading line ++ everyReading (negative line)

end Spec
