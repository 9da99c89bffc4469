import Verif.Spec.HandScan

/-!
# Ink spread

Ink runs: every bar is printed some cells too wide at the cost of the following space, or some cells too narrow. A reader that
measures bars and spaces separately takes half the sum of the narrowest bar and the narrowest space as the module width.
Nothing here mentions the model of the code.
-/

set_option autoImplicit false

namespace Spec

/-- The ink of every dark cell runs `g` cells to the right; `k` cells are still to be wetted. -/
def smearFrom (g : Nat) : Nat → List Nat → List Nat
  | k, [] => List.replicate k 1
  | _, 1 :: r => 1 :: smearFrom g g r
  | 0, _ :: r => 0 :: smearFrom g 0 r
  | k + 1, _ :: r => 1 :: smearFrom g k r

/-- A line printed with too much ink. -/
def smear (g : Nat) (line : List Nat) : List Nat := smearFrom g 0 line

/-- The paper of every light cell shows through in the `g` cells to the right; `k` cells are still to be bleached. -/
def fadeFrom (g : Nat) : Nat → List Nat → List Nat
  | _, [] => []
  | 0, 1 :: r => 1 :: fadeFrom g 0 r
  | k + 1, 1 :: r => 0 :: fadeFrom g k r
  | _, _ :: r => 0 :: fadeFrom g g r

/-- A line printed with too little ink, on light paper. -/
def fade (g : Nat) (line : List Nat) : List Nat := fadeFrom g g line

/-- Undo the spread: the modules of a line, given that both a bar and a space of one module occur. -/
def unspread (line : List Nat) : Option (List Nat) :=
  let rs := runs line
  let bar := narrowest ((rs.filter (fun r => r.1 == 1)).map Prod.snd)
  let space := narrowest ((rs.filter (fun r => r.1 == 0)).map Prod.snd)
  let x := (bar + space) / 2
  let extra := fun r : Nat × Nat => if r.1 = 1 then r.2 - bar else r.2 - space
  if 0 < x ∧ (bar + space) % 2 = 0 ∧ rs.all (fun r => extra r % x == 0) then
    some (rs.flatMap (fun r => List.replicate (extra r / x + 1) r.1))
  else none

/-- Read a line from the left; if that fails, from the right. -/
def spreadScan {α : Type} (scan : List Nat → Option α) (line : List Nat) : Option α :=
  match (unspread (strip line)).bind scan with
  | some t => some t
  | none => (unspread (strip line.reverse)).bind scan

end Spec
