/-!
# Numbers written with leading zeros
-/

set_option autoImplicit false

namespace Spec

/-- The last `w` decimal digits of `n`. -/
def numeral : Nat → Nat → List Char
  | 0, _ => []
  | w + 1, n => numeral w (n / 10) ++ [Char.ofNat (48 + n % 10)]

/-- The number that digits denote. -/
def number (ds : List Nat) : Nat := ds.foldl (fun n d => 10 * n + d) 0

/-- The last `j` digits of `n` are nines, and no more. -/
def EndsInNines (n j : Nat) : Prop := (n + 1) % 10 ^ j = 0 ∧ (n + 1) % 10 ^ (j + 1) ≠ 0

instance (n j : Nat) : Decidable (EndsInNines n j) := by unfold EndsInNines; infer_instance

example : numeral 5 407 = "00407".toList ∧ number [0, 0, 4, 0, 7] = 407 ∧ EndsInNines 20399 2 := by decide

end Spec
