/-!
# The same error in two numbers
-/

set_option autoImplicit false

namespace Spec

/-- `a` was read as `a'` and `c` as `c'`: place by place, both changes are the same modulo `m`. -/
def SameError (m : Nat) (a a' c c' : List Nat) : Prop :=
  a'.length = a.length ∧ c.length = a.length ∧ c'.length = a.length ∧
    ∀ i < a.length, (a.getD i 0 + c'.getD i 0) % m = (a'.getD i 0 + c.getD i 0) % m

instance (m : Nat) (a a' c c' : List Nat) : Decidable (SameError m a a' c c') := by unfold SameError; infer_instance

example : SameError 10 [1, 2, 9] [1, 5, 1] [0, 8, 4] [0, 1, 6] ∧ ¬ SameError 10 [1, 2] [1, 5] [0, 8] [0, 2] := by decide

end Spec
