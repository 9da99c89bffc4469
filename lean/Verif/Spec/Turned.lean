import Verif.Spec.Elements

/-!
# A symbol seen from the other side
-/

set_option autoImplicit false

namespace Spec

/-- The row read from its right end; light modules before the first bar are quiet zone. -/
def turned (ms : List Nat) : List Nat := ms.reverse.dropWhile (fun m => m == 0)

end Spec
