/-!
# Cyclically weighted sums (Code 93, Code 11)
-/

set_option autoImplicit false

namespace Spec

/-- Weighted sum: the weights run `1, 2, …, n, 1, 2, …`, the first being `j % n + 1`. -/
def cyclicSum (n j : Nat) : List Nat → Nat
  | [] => 0
  | d :: ds => (j % n + 1) * d + cyclicSum n (j + 1) ds

end Spec
