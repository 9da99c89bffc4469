import Verif.Spec.Beam

/-!
# Several symbols in one line

A label often bears several symbols side by side. A reader cuts the line it sees wherever there is enough white and reads
the pieces. Nothing here mentions the model of the code.
-/

set_option autoImplicit false

namespace Spec

/-- Cut a line at every gap of at least `n` light cells: `cur` is the piece at hand and `z` light cells have followed it. -/
def piecesFrom (n : Nat) : List Nat → Nat → List Nat → List (List Nat)
  | [], _, [] => []
  | c :: cur, _, [] => [c :: cur]
  | cur, z, 0 :: ms => piecesFrom n cur (z + 1) ms
  | [], _, (m + 1) :: ms => piecesFrom n [m + 1] 0 ms
  | c :: cur, z, (m + 1) :: ms =>
    if n ≤ z then (c :: cur) :: piecesFrom n [m + 1] 0 ms
    else piecesFrom n (c :: cur ++ List.replicate z 0 ++ [m + 1]) 0 ms

/-- The pieces of a line between gaps of at least `n` light cells, without the light cells around them. -/
def pieces (n : Nat) (line : List Nat) : List (List Nat) := piecesFrom n [] 0 line

example : pieces 3 [0, 1, 0, 0, 1, 0, 0, 0, 1, 1, 0, 0, 0, 0] = [[1, 0, 0, 1], [1, 1]] := by decide

/-- One symbol on a label: the light cells before it, the cells per module and its modules. -/
structure Printed where
  gap : Nat
  width : Nat
  row : List Nat

/-- A line with several symbols, and `r` light cells at the end. -/
def labelLine (r : Nat) : List Printed → List Nat
  | [] => List.replicate r 0
  | p :: ps => List.replicate p.gap 0 ++ stretch p.width p.row ++ labelLine r ps

end Spec
