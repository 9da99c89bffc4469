/-!
# Weights of the GS1 check digit
-/

set_option autoImplicit false

namespace Spec

/-- Weight of a digit of an article number with `r` digits to its right (GS1 General Specifications 7.9). -/
def gs1Weight (r : Nat) : Int := if r % 2 = 0 then 1 else 3

end Spec
