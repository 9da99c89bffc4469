import Verif.Spec.Noise

/-!
# Blurred pictures

A picture that is out of focus shows at every place the mean of the colours around it. The mean is taken over a list of samples,
in which a pixel may occur several times, to weigh it. A reader compares it with the two colours of the picture.
-/

set_option autoImplicit false

namespace Spec

/-- The sum of some colours, channel by channel. -/
def sumColours : List (Nat × Nat × Nat × Nat) → Nat × Nat × Nat × Nat
  | [] => (0, 0, 0, 0)
  | c :: cs =>
    let s := sumColours cs
    (c.1 + s.1, c.2.1 + s.2.1, c.2.2.1 + s.2.2.1, c.2.2.2 + s.2.2.2)

/-- Is the mean of the colours nearer to `bar` than to `space`? (All are multiplied by the number of the colours.) -/
def meanNearer (bar space : Nat × Nat × Nat × Nat) (cs : List (Nat × Nat × Nat × Nat)) : Bool :=
  let n := cs.length
  nearerTo (n * bar.1, n * bar.2.1, n * bar.2.2.1, n * bar.2.2.2) (n * space.1, n * space.2.1, n * space.2.2.1, n * space.2.2.2)
    (sumColours cs)

example : meanNearer (0, 0, 0, 255) (255, 255, 255, 255) [(0, 0, 0, 255), (0, 0, 0, 255), (255, 255, 255, 255)] = true ∧
    meanNearer (0, 0, 0, 255) (255, 255, 255, 255) [(0, 0, 0, 255), (255, 255, 255, 255)] = false := by decide

/-- The colour at a place of a sheet of paper on which a picture is printed: line `j` of the picture, `u` cells from its start;
elsewhere that of the paper. -/
def sheetAt {α : Type} (paper : α) (lines : List (List α)) (j u : Int) : α :=
  if 0 ≤ j ∧ 0 ≤ u then ((lines[j.toNat]?).getD []).getD u.toNat paper else paper

example : sheetAt 7 [[1, 2], [3, 4]] 1 0 = 3 ∧ sheetAt 7 [[1, 2], [3, 4]] 1 2 = 7 ∧ sheetAt 7 [[1, 2], [3, 4]] (-1) 0 = 7 := by decide

/-- All places of a window: `h` lines from `j` on, `w` cells from `u` on. -/
def window (j : Int) (h : Nat) (u : Int) (w : Nat) : List (Int × Int) :=
  (List.range h).flatMap (fun k : Nat => (List.range w).map (fun l : Nat => (j + k, u + l)))

example : window 0 2 (-1) 2 = [(0, -1), (0, 0), (1, -1), (1, 0)] := by decide

/-- Is the place in a line of the picture, in module `i`? -/
def inModule (height x i : Nat) (s : Int × Int) : Bool :=
  decide (0 ≤ s.1 ∧ s.1 < height ∧ (i * x : Nat) ≤ s.2 ∧ s.2 < ((i + 1) * x : Nat))

end Spec
