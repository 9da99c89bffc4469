import Verif.Spec.Parity
import Verif.Spec.Svg

/-!
# How much of a picture is dark

Nothing here mentions the model of the code.
-/

set_option autoImplicit false

namespace Spec

/-- The number of places of a picture, `w` wide and `h` high, that look so. -/
def dots (w h : Nat) (looks : Nat → Nat → Bool) : Nat :=
  ((List.range h).map (fun y => (List.range w).countP (fun x => looks x y))).sum

/-- The areas of some rectangles together. -/
def areas (rs : List SvgRect) : Nat := (rs.map (fun r => r.width * r.height)).sum

/-- At least a third of the modules are dark, and at least a quarter light. -/
def Balanced (ms : List Nat) : Prop := ms.length ≤ 3 * darkModules ms ∧ 4 * darkModules ms ≤ 3 * ms.length

example : dots 3 2 (fun x y => x == 1 || y == 0) = 4 := by decide
example : ¬ Balanced [1, 1, 1, 1, 0] := by unfold Balanced; decide
example : ¬ Balanced [0, 0, 0, 1] := by unfold Balanced; decide
example : Balanced [1, 0, 1, 1] := by unfold Balanced; decide

end Spec
