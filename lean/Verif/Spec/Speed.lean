import Verif.Spec.Measure

/-!
# A beam of changing speed

A pen drawn across the bars by hand is faster here and slower there, and no edge is where it should be. A reader copes by
measuring each character against its own length: it knows how many elements and how many modules make one character.
-/

set_option autoImplicit false

namespace Spec

/-- What the pen measures of the widths `es`: `x` for one module, but for an error of at most `d` in every element. -/
def Close (x d : Nat) : List Nat → List Nat → Prop
  | [], [] => True
  | w :: ws, p :: ps => (w * x ≤ p + d ∧ p ≤ w * x + d) ∧ Close x d ws ps
  | _, _ => False

/-- The layout of a symbol: how many elements and how many modules there are in its first part, its second part, … -/
abbrev Layout := List (Nat × Nat)

/-- `es'` is what the pen measures of the widths `es`. Every part has its own speed, and no element of the part is wrong by an
eighth of its module. -/
def Unsteady : Layout → List Nat → List Nat → Prop
  | [], es, es' => es = [] ∧ es' = []
  | (k, _) :: st, es, es' =>
    (∃ x d, 8 * d < x ∧ Close x d (es.take k) (es'.take k)) ∧ Unsteady st (es.drop k) (es'.drop k)

/-- The elements of one part in modules, rounded, if the whole part is `n` modules. -/
def inModules (n : Nat) (g : List Nat) : List Nat := g.map (fun p => (2 * p * n + g.sum) / (2 * g.sum))

example : inModules 7 [31, 20, 11, 10] = [3, 2, 1, 1] := by decide

/-- The widest element. -/
def broadest (g : List Nat) : Nat := g.foldr max 0

/-- The elements of one part by themselves: those nearer to the narrowest are narrow, those nearer to the widest are wide. -/
def inTwoWidths (g : List Nat) : List Nat := g.map (fun p => if 2 * p < narrowest g + broadest g then 1 else 2)

example : inTwoWidths [11, 22, 10, 9, 19, 10] = [1, 2, 1, 1, 2, 1] := by decide

/-- All elements, part by part; `f n` tells the widths in a part of `n` modules. -/
def readSteady (f : Nat → List Nat → List Nat) : Layout → List Nat → List Nat
  | [], _ => []
  | (k, n) :: st, es => f n (es.take k) ++ readSteady f st (es.drop k)

/-- Modules of alternating elements of colour `c`, `1 - c`, `c`, … -/
def alternating : Nat → List Nat → List Nat
  | _, [] => []
  | c, w :: ws => List.replicate w c ++ alternating (1 - c) ws

/-- Read a line that was taken at changing speed. The layout depends on the number of elements only. -/
def steadyScan {α : Type} (layout : Nat → Layout) (scan : List Nat → Option α) (line : List Nat) : Option α :=
  (elements line).bind (fun es => scan (alternating 1 (readSteady inModules (layout es.length) es)))

/-- The same for codes of two widths, whose characters differ in length. -/
def twoWidthScan {α : Type} (layout : Nat → Layout) (scan : List Nat → Option α) (line : List Nat) : Option α :=
  (elements line).bind (fun es => scan (alternating 1 (readSteady (fun _ => inTwoWidths) (layout es.length) es)))

/-- EAN-13, UPC-A and EAN-8, with `d` digits in each half. -/
def retailLayout (d : Nat) (_ : Nat) : Layout :=
  (3, 3) :: (List.replicate d (4, 7) ++ (5, 5) :: (List.replicate d (4, 7) ++ [(3, 3)]))

/-- Add-ons. -/
def addOnLayout (n : Nat) : Layout := (3, 4) :: (4, 7) :: List.replicate ((n - 7) / 6) (6, 9)

/-- Code 39: a character and the gap behind it; no gap behind the last one. -/
def code39Layout (n : Nat) : Layout := List.replicate ((n - 9) / 10) (10, 13) ++ [(9, 12)]

/-- Code 93. -/
def code93Layout (n : Nat) : Layout := List.replicate ((n - 1) / 6) (6, 9) ++ [(1, 1)]

/-- Code 128. -/
def code128Layout (n : Nat) : Layout := List.replicate ((n - 7) / 6) (6, 11) ++ [(7, 13)]

/-- Standard two of five. -/
def stfLayout (n : Nat) : Layout := (6, 8) :: (List.replicate ((n - 12) / 10) (10, 14) ++ [(6, 8)])

/-- Interleaved two of five: pairs of digits. -/
def itfLayout (n : Nat) : Layout := (4, 4) :: (List.replicate ((n - 7) / 10) (10, 18) ++ [(3, 4)])

/-- Code 11: the number of modules of a character (here 0) is not known. -/
def code11Layout (n : Nat) : Layout := List.replicate ((n - 5) / 6) (6, 0) ++ [(5, 0)]

/-- Codabar. -/
def codabarLayout (n : Nat) : Layout := List.replicate ((n - 7) / 8) (8, 0) ++ [(7, 0)]

/-- The modules `ms` can be read at changing speed, whatever the reader: it sees the modules as they are. -/
def ReadsUnsteady (layout : Nat → Layout) (ms : List Nat) : Prop :=
  ∀ es line es', elements ms = some es → elements line = some es' → Unsteady (layout es.length) es es' →
    ∀ (α : Type) (scan : List Nat → Option α), steadyScan layout scan line = scan ms

/-- The same by two widths. -/
def ReadsTwoWidths (layout : Nat → Layout) (ms : List Nat) : Prop :=
  ∀ es line es', elements ms = some es → elements line = some es' → Unsteady (layout es.length) es es' →
    ∀ (α : Type) (scan : List Nat → Option α), twoWidthScan layout scan line = scan ms

end Spec
