import Verif.Spec.Measure

/-!
# A hand-held reader

It sees one line across the bars, from either end, at any magnification, with any quiet zones, and knows only what kind of
symbol to expect. Nothing here mentions the model of the code.
-/

set_option autoImplicit false

namespace Spec

/-- A line without the light cells before its first and behind its last bar. -/
def strip (line : List Nat) : List Nat :=
  ((line.dropWhile (fun m => m == 0)).reverse.dropWhile (fun m => m == 0)).reverse

/-- Find the module width and read the modules. -/
def readLine {α : Type} (scan : List Nat → Option α) (line : List Nat) : Option α :=
  (measureRow (strip line)).bind (fun r => scan r.2)

/-- Read from the left; if that fails, from the right. -/
def handScan {α : Type} (scan : List Nat → Option α) (line : List Nat) : Option α :=
  match readLine scan line with
  | some t => some t
  | none => readLine scan line.reverse

/-- A row on light paper: `q` light cells, every module `x` cells wide, `r` light cells. -/
def onPaper (q x r : Nat) (ms : List Nat) : List Nat := List.replicate q 0 ++ stretch x ms ++ List.replicate r 0

end Spec
