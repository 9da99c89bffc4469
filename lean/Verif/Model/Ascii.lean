import Verif.Model.Basic

set_option autoImplicit false

namespace Barcoders.Ascii

/-- `src/generators/ascii.rs` lines 15-21: `struct ASCII`. -/
structure ASCII where
  height : Nat
  xdim : Nat
  deriving DecidableEq, Repr

/-- `src/generators/ascii.rs` line 24: `CHARS`. -/
def CHARS : List Char := [' ', '#']

/-- `src/generators/ascii.rs` lines 34-39: `ASCII::new` (also `Default::default`, lines 26-30). -/
def new : ASCII := { height := 10, xdim := 1 }

/-- `src/generators/ascii.rs` lines 41-46: `generate_row`. -/
def generateRow (g : ASCII) (barcode : List Nat) : Outcome (List Char) := do
  let cells ← mapO (fun d => do
    let c ← idx CHARS d
    .ok (List.replicate g.xdim c)) barcode
  .ok cells.flatten

/-- The loop of `generate`, `src/generators/ascii.rs` lines 53-59, over the remaining line numbers. -/
def pushRows (height : Nat) (row : List Char) (output : List Char) (i : Nat) : List Char :=
  if i < height - 1 then output ++ row ++ ['\n'] else output ++ row

/-- `src/generators/ascii.rs` lines 49-62: `generate`. -/
def generate (g : ASCII) (barcode : List Nat) : Outcome (List Char) := do
  let row ← generateRow g barcode
  .ok ((List.range g.height).foldl (pushRows g.height row) [])

end Barcoders.Ascii
