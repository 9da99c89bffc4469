/-!
# One wrong module
-/

set_option autoImplicit false

namespace Spec

/-- The row with the module at position `i` changed from dark to light or from light to dark. -/
def speck (i : Nat) (ms : List Nat) : List Nat := ms.set i (1 - ms.getD i 0)

end Spec
