/-!
# Weights of the places of a text with two check characters

Nothing here mentions the model of the code.
-/

set_option autoImplicit false

namespace Spec

/-- Code 93 and Code 11 end in two check characters. A text is right if two weighted sums of the values of all its characters
vanish modulo 47 or 11. These are the two weights of a character that has `j` characters to its right: the last character counts
only in the second sum, with `-1`; the one before counts with `-1` in the first and `1` in the second; then the weights of the
first sum run from 1 to `n` again and again, those of the second on from 2 to `n'` and again from 1 to `n'`. -/
def placeWeights (n n' : Nat) : Nat → Int × Int
  | 0 => (0, -1)
  | 1 => (-1, 1)
  | j + 2 => ((j % n + 1 : Nat), ((j + 1) % n' + 1 : Nat))

/-- Two places where one wrong character can hide another: their weights are proportional modulo `M`. -/
def CanHide (M n n' i k : Nat) : Prop :=
  ((placeWeights n n' i).1 * (placeWeights n n' k).2 - (placeWeights n n' k).1 * (placeWeights n n' i).2) % M = 0

instance (M n n' i k : Nat) : Decidable (CanHide M n n' i k) := by unfold CanHide; infer_instance

end Spec
