import Verif.Spec.Shape

/-!
# Counting dark modules

Nothing here mentions the model of the code.
-/

set_option autoImplicit false

namespace Spec

/-- The number of dark modules. -/
def darkModules (ms : List Nat) : Nat := ms.count 1

/-- The second row has as many modules as the first, and an odd number of them are wrong. -/
def OddlyWrong (ms ms' : List Nat) : Prop := ∃ n, n % 2 = 1 ∧ DifferIn n ms ms'

example : OddlyWrong [1, 0, 1, 1] [0, 1, 0, 1] ∧ darkModules [1, 0, 1, 1] = 3 := ⟨⟨3, by decide, by decide, by decide⟩, by decide⟩

end Spec
