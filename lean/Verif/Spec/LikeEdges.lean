import Verif.Spec.Speed
import Verif.Spec.Code93
import Verif.Spec.Code128
import Verif.Spec.Ean

/-!
# Reading by the distances between like edges

Ink that runs makes bars wider and spaces narrower, but moves all left edges of the bars by the same amount, and all right
edges. The reference decode algorithms of ISO/IEC 15417 and 15420 therefore measure from one edge to the next of the same kind:
a bar and the space behind it together, a space and the bar behind it together.
-/

set_option autoImplicit false

namespace Spec

/-- What is measured of the widths `ws`, the first one being a bar: `x` for one module; every bar has `t` more (less if `t` is
negative), every space so much less, and every element is wrong by at most `d` besides. -/
def Inked (x d : Nat) (t : Int) : List Nat → List Nat → Prop
  | [], [] => True
  | w :: ws, p :: ps => (((w * x : Nat) : Int) + t ≤ p + d ∧ (p : Int) ≤ (w * x : Nat) + t + d) ∧ Inked x d (-t) ws ps
  | _, _ => False

/-- `es'` is what is measured of the widths `es`. Every part has its own scale, its own amount of ink (as far as `ok` allows)
and errors of less than a sixteenth of its module. -/
def UnevenInk (ok : Nat → Int → Prop) : Layout → List Nat → List Nat → Prop
  | [], es, es' => es = [] ∧ es' = []
  | (k, _) :: st, es, es' =>
    (∃ x d t, 16 * d < x ∧ ok x t ∧ Inked x d t (es.take k) (es'.take k)) ∧ UnevenInk ok st (es.drop k) (es'.drop k)

/-- The distances between like edges. -/
def likeEdges (g : List Nat) : List Nat := List.zipWith (· + ·) g (g.drop 1)

/-- The same in modules, rounded, if the whole part is `n` modules. -/
def likeEdgesIn (n : Nat) (g : List Nat) : List Nat := (likeEdges g).map (fun e => (2 * e * n + g.sum) / (2 * g.sum))

example : likeEdges [2, 1, 2, 2, 2, 2] = [3, 3, 4, 4, 4] := by decide
/-- The same character with bars twice as wide as they should be. -/
example : likeEdgesIn 11 [40, 1, 41, 20, 40, 19] = [3, 3, 4, 4, 4] := by decide

/-- A character of six elements by its distances alone; the bar at the end of the symbol is `last`. -/
def sixByEdges (chart : List (List Nat)) (last : Nat) (n : Nat) (g : List Nat) : List Nat :=
  if g.length = 6 then (chart.find? (fun ws => likeEdges ws == likeEdgesIn n g)).getD [] else [last]

/-- A digit of EAN or UPC by its distances and, as 1 and 7 have the same and so have 2 and 8, by its first and third element
together; guards are known. -/
def digitByEdges (n : Nat) (g : List Nat) : List Nat :=
  if g.length = 4 then
    ((eanWidths ++ eanWidths.map List.reverse).find? (fun ws => likeEdges ws == likeEdgesIn n g &&
      decide (n * (g.getD 0 0 + g.getD 2 0) < (ws.getD 0 0 + ws.getD 2 0 + 1) * g.sum ∧
        (ws.getD 0 0 + ws.getD 2 0) * g.sum < n * (g.getD 0 0 + g.getD 2 0) + g.sum))).getD []
  else List.replicate g.length 1

/-- Code 128: the stop pattern is a character of six elements and the last bar. -/
def code128Edges : Nat → List Nat → List Nat := sixByEdges (code128Chart ++ [code128Stop.take 6]) 2
def code128Parts (n : Nat) : Layout := List.replicate ((n - 1) / 6) (6, 11) ++ [(1, 2)]

/-- Code 93. -/
def code93Edges : Nat → List Nat → List Nat := sixByEdges (code93Chart.map Prod.snd) 1

/-- The modules `ms` can be read by `f` however the ink runs: the reader sees the modules as they are. -/
def ReadsByEdges (ok : Nat → Int → Prop) (f : Nat → List Nat → List Nat) (layout : Nat → Layout) (ms : List Nat) : Prop :=
  ∀ es line es', elements ms = some es → elements line = some es' → UnevenInk ok (layout es.length) es es' →
    ∀ (α : Type) (scan : List Nat → Option α),
      (elements line).bind (fun e => scan (alternating 1 (readSteady f (layout e.length) e))) = scan ms

/-- Any amount of ink. -/
def anyInk (_ : Nat) (_ : Int) : Prop := True

/-- At most a quarter of a module. -/
def quarterInk (x : Nat) (t : Int) : Prop := 4 * t.natAbs ≤ x

end Spec
