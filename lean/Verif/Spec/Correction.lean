import Verif.Spec.Counting

/-!
# One wrong character

Nothing here mentions the model of the code.
-/

set_option autoImplicit false

namespace Spec

/-- Two different sequences of the same length that agree except in one place. -/
def OneWrong {α : Type} (s t : List α) : Prop := t ≠ s ∧ ∃ i, AgreeOff [i] s t

end Spec
