import Verif.Spec.Ean

/-!
# Reading EAN/UPC rows with a table of patterns

What a program does that has nothing but the published tables: cut the row into cells of seven modules and look each of them
up. Nothing here mentions the model of the code.
-/

set_option autoImplicit false

namespace Spec

/-- A pattern of a table: the set, then the digit. -/
def tableEntry (table : List (List (List Nat))) (set d : Nat) : List Nat := (table.getD set []).getD d []

/-- The set and the digit of a cell: the first place of the table where its pattern stands. -/
def lookUp (table : List (List (List Nat))) (cell : List Nat) : Option (Nat × Nat) :=
  (table.findIdx? (fun t => t.contains cell)).bind (fun set => (position (table.getD set []) cell).map (fun d => (set, d)))

/-- `n` cells of seven modules, beginning at module `start`. -/
def cellsFrom (start n : Nat) (ms : List Nat) : List (List Nat) :=
  (List.range n).map (fun i => (ms.drop (start + 7 * i)).take 7)

example : cellsFrom 1 2 [9, 1, 2, 3, 4, 5, 6, 7, 8, 8, 8, 8, 8, 8, 0, 9] = [[1, 2, 3, 4, 5, 6, 7], [8, 8, 8, 8, 8, 8, 0]] := by
  decide

/-- The modules of elements of the given widths, the first of colour `c`. -/
def modulesOf : Nat → List Nat → List Nat
  | _, [] => []
  | c, w :: ws => List.replicate w c ++ modulesOf (1 - c) ws

end Spec
