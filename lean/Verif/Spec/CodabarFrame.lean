import Verif.Spec.Codabar
import Verif.Spec.CodabarOwn

/-!
# Codabar data between start and stop letters

The standard frames the data with two of the letters `A` to `D`, which must not occur inside. Nothing here mentions the model
of the code.
-/

set_option autoImplicit false

namespace Spec

/-- The start and stop letters. -/
def codabarLetters : List Char := "ABCD".toList

/-- The data of a framed text. -/
def codabarData : List Char → Option (List Char)
  | [] => none
  | a :: rest =>
    match rest.getLast? with
    | none => none
    | some z =>
      if a ∈ codabarLetters ∧ z ∈ codabarLetters ∧ ∀ c ∈ rest.dropLast, c ∉ codabarLetters then some rest.dropLast else none

example : codabarData "A40156B".toList = some "40156".toList ∧ codabarData "40156".toList = none ∧
    codabarData "A401C56B".toList = none ∧ codabarData "A".toList = none := by decide

/-- A scanner that insists on the frame and gives the data. -/
def scanCodabarData (ms : List Nat) : Option (List Char) := (scanCodabar ms).bind codabarData

end Spec
