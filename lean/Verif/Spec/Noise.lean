/-!
# Reading noisy pictures

A camera, a lossy image format or dirt changes the colours of pixels. A reader that knows the two colours of the picture takes
every pixel for the nearer one, and may let all pixels of a module vote.
-/

set_option autoImplicit false

namespace Spec

/-- How far apart two colours are, given by their bytes: the sum over the channels. -/
def colourDistance (c d : Nat × Nat × Nat × Nat) : Nat :=
  (c.1 - d.1) + (d.1 - c.1) + ((c.2.1 - d.2.1) + (d.2.1 - c.2.1)) + ((c.2.2.1 - d.2.2.1) + (d.2.2.1 - c.2.2.1)) +
    ((c.2.2.2 - d.2.2.2) + (d.2.2.2 - c.2.2.2))

/-- Is the colour nearer to the first one than to the second one? -/
def nearerTo (bar space c : Nat × Nat × Nat × Nat) : Bool := decide (colourDistance c bar < colourDistance c space)

/-- The cells of module `i`, in all lines, if modules are `x` cells wide. -/
def moduleCells {α : Type} (x i : Nat) (lines : List (List α)) : List α := lines.flatMap (fun l => (l.drop (i * x)).take x)

/-- A module is a bar if more than half of its cells say so. -/
def vote (cells : List Bool) : Nat := if cells.length < 2 * cells.count true then 1 else 0

/-- Read `n` modules by letting all cells of each of them vote. -/
def voteRow (n x : Nat) (lines : List (List Bool)) : List Nat := (List.range n).map (fun i => vote (moduleCells x i lines))

end Spec
