import Verif.Spec.Elements

/-!
# Lost bars and filled spaces
-/

set_option autoImplicit false

namespace Spec

/-- One element takes the colour of its neighbours: a bar is not printed, or a space is filled. With the two elements beside it it
becomes one element. A bar at either end disappears into the margin together with the space next to it. -/
inductive Swallowed : List Nat → List Nat → Prop
  | inside (l r : List Nat) (a b c : Nat) : Swallowed (l ++ a :: b :: c :: r) (l ++ (a + b + c) :: r)
  | first (r : List Nat) (a b : Nat) : Swallowed (a :: b :: r) r
  | last (l : List Nat) (a b : Nat) : Swallowed (l ++ [a, b]) l

/-- `n` elements, one after the other. -/
inductive SwallowedTimes : Nat → List Nat → List Nat → Prop
  | zero (es : List Nat) : SwallowedTimes 0 es es
  | succ (n : Nat) (es es' es'' : List Nat) : Swallowed es es' → SwallowedTimes n es' es'' → SwallowedTimes (n + 1) es es''

/-- `ms'` is what is seen of the row `ms` when `n` of its bars or spaces have been lost. -/
def Lost (n : Nat) (ms ms' : List Nat) : Prop :=
  ∃ es es', elements ms = some es ∧ elements ms' = some es' ∧ SwallowedTimes n es es'

end Spec
