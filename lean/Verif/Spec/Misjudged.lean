import Verif.Spec.Elements

/-!
# One element of the wrong width
-/

set_option autoImplicit false

namespace Spec

/-- `ms'` has the bars and spaces of `ms` except that the one at position `i` is `w` modules wide, which it was not. -/
def Misjudged (i w : Nat) (ms ms' : List Nat) : Prop :=
  ∃ es, elements ms = some es ∧ i < es.length ∧ es[i]? ≠ some w ∧ elements ms' = some (es.set i w)

/-- A Codabar text as the standard wants it: one of `A` to `D` at either end and none between. -/
def CodabarFramed (t : List Char) : Prop :=
  ∃ a m b, t = a :: (m ++ [b]) ∧ a ∈ ['A', 'B', 'C', 'D'] ∧ b ∈ ['A', 'B', 'C', 'D'] ∧ ∀ c ∈ m, c ∉ ['A', 'B', 'C', 'D']

end Spec
