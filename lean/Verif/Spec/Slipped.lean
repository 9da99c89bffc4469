/-!
# Modules lost or too many
-/

set_option autoImplicit false

namespace Spec

/-- `ms'` is the row `ms` without one of its modules; seen from `ms'`, `ms` has one module too many. -/
def OneMissing (ms ms' : List Nat) : Prop := ∃ a x b, ms = a ++ x :: b ∧ ms' = a ++ b

/-- The lengths of the two rows differ, by at most `k` modules: some modules are missing, some have been added, and not as many
as are missing. -/
def Slipped (k : Nat) (ms ms' : List Nat) : Prop := ms.length ≠ ms'.length ∧ ms.length ≤ ms'.length + k ∧ ms'.length ≤ ms.length + k

end Spec
