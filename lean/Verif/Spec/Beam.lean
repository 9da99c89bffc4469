import Verif.Spec.HandScan
import Verif.Spec.AsciiArt

/-!
# A beam that crosses a picture anyhow

The beam of a hand-held reader is seldom parallel to the edge of the picture; it may even shake. Nothing here mentions the
model of the code.
-/

set_option autoImplicit false

namespace Spec

/-- What a beam sees on its way across a picture that is `n` cells wide, taking `k` samples in every cell. Sample `i` lies at
`path i` along the bars. A straight slanted beam has a linear `path`; several samples per cell belong to a sharp reader or a
flat angle. -/
def beam {α : Type} (n k : Nat) (cell : Nat → Nat → α) (path : Nat → Nat) : List α :=
  (List.range (n * k)).map (fun i => cell (i / k) (path i))

example : beam 3 2 (fun x y => 10 * x + y) (fun i => i / 3) = [0, 0, 10, 11, 21, 21] := by decide

/-- A line of samples on light paper, dark ones being 1. -/
def paperLine (q : Nat) (line : List Bool) (r : Nat) : List Nat :=
  List.replicate q 0 ++ line.map (fun dark => if dark then 1 else 0) ++ List.replicate r 0

/-- The reader gets `t` from the line, from either end. -/
def ReadsBoth {α : Type} (scan : List Nat → Option α) (line : List Nat) (t : α) : Prop :=
  handScan scan line = some t ∧ handScan scan line.reverse = some t

/-- The character in a column of a line of a text. -/
def charAt (text : List Char) (column line : Nat) : Option Char :=
  ((splitLines text)[line]?).bind (fun l => l[column]?)

example : charAt "ab\ncd".toList 1 1 = some 'd' ∧ charAt "ab\ncd".toList 2 0 = none := by decide +kernel

end Spec
