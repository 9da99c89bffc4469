import Verif.Spec.Svg

/-!
# Moving pictures
-/

set_option autoImplicit false

namespace Spec

/-- A rectangle moved to the right. -/
def moveRect (d : Nat) (r : SvgRect) : SvgRect := { r with x := r.x + d }

end Spec
