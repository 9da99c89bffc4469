import Verif.Spec.Code128Message

/-!
# Writing ASCII text in the notation of the library
-/

set_option autoImplicit false

namespace Spec

/-- One ASCII character, set B being selected before and after it: control characters are written in set A, DEL as `÷`. -/
def asciiInB (c : Char) : List Char :=
  if c.toNat < 32 then ['À', c, 'Ɓ'] else if c.toNat = 127 then ['÷'] else [c]

/-- An ASCII text as data for `Code128::new`. -/
def asciiAsCode128 (t : List Char) : List Char := 'Ɓ' :: t.flatMap asciiInB

end Spec
