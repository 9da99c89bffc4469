import Verif.Model.Helpers

set_option autoImplicit false

namespace Barcoders.Codabar
open Barcoders.Helpers

/-- `src/sym/codabar.rs` lines 16-37: `enum Unit`. -/
inductive Unit where
  | Zero
  | One
  | Two
  | Three
  | Four
  | Five
  | Six
  | Seven
  | Eight
  | Nine
  | Dash
  | Dollar
  | Colon
  | Slash
  | Point
  | Plus
  | A
  | B
  | C
  | D
  deriving DecidableEq, Repr

/-- `src/sym/codabar.rs` lines 40-63: `Unit::lookup`. -/
def Unit.lookup : Unit → List Nat
  | .Zero => [1, 0, 1, 0, 1, 0, 0, 1, 1]
  | .One => [1, 0, 1, 0, 1, 1, 0, 0, 1]
  | .Two => [1, 0, 1, 0, 0, 1, 0, 1, 1]
  | .Three => [1, 1, 0, 0, 1, 0, 1, 0, 1]
  | .Four => [1, 0, 1, 1, 0, 1, 0, 0, 1]
  | .Five => [1, 1, 0, 1, 0, 1, 0, 0, 1]
  | .Six => [1, 0, 0, 1, 0, 1, 0, 1, 1]
  | .Seven => [1, 0, 0, 1, 0, 1, 1, 0, 1]
  | .Eight => [1, 0, 0, 1, 1, 0, 1, 0, 1]
  | .Nine => [1, 1, 0, 1, 0, 0, 1, 0, 1]
  | .Dash => [1, 0, 1, 0, 0, 1, 1, 0, 1]
  | .Dollar => [1, 0, 1, 1, 0, 0, 1, 0, 1]
  | .Colon => [1, 1, 0, 1, 0, 1, 1, 0, 1, 1]
  | .Slash => [1, 1, 0, 1, 1, 0, 1, 0, 1, 1]
  | .Point => [1, 1, 0, 1, 1, 0, 1, 1, 0, 1]
  | .Plus => [1, 0, 1, 1, 0, 0, 1, 1, 0, 0, 1, 1]
  | .A => [1, 0, 1, 1, 0, 0, 1, 0, 0, 1]
  | .B => [1, 0, 1, 0, 0, 1, 0, 0, 1, 1]
  | .C => [1, 0, 0, 1, 0, 0, 1, 0, 1, 1]
  | .D => [1, 0, 1, 0, 0, 1, 1, 0, 0, 1]

/-- `src/sym/codabar.rs` lines 65-89: `Unit::from_char`. -/
def Unit.fromChar (c : Char) : Option Unit :=
  match c with
  | '0' => some .Zero
  | '1' => some .One
  | '2' => some .Two
  | '3' => some .Three
  | '4' => some .Four
  | '5' => some .Five
  | '6' => some .Six
  | '7' => some .Seven
  | '8' => some .Eight
  | '9' => some .Nine
  | '-' => some .Dash
  | '$' => some .Dollar
  | '/' => some .Slash
  | ':' => some .Colon
  | '.' => some .Point
  | '+' => some .Plus
  | 'A' => some .A
  | 'B' => some .B
  | 'C' => some .C
  | 'D' => some .D
  | _ => none

/-- `src/sym/codabar.rs` line 94: `struct Codabar(Vec<Unit>)` (the field is private). -/
structure Codabar where
  units : List Unit
  deriving DecidableEq, Repr

/-- `src/sym/codabar.rs` lines 131-136: `valid_chars`. -/
def validChars : List Char :=
  ['0', '1', '2', '3', '4', '5', '6', '7', '8', '9', '-', '/', '.', ':', '+', '$', 'A',
    'B', 'C', 'D']

/-- `src/sym/codabar.rs` lines 126-136: `valid_len` is `1..256`. -/
def parseData (data : List Char) : Outcome (List Char) := parse validChars 1 256 data

/-- `src/sym/codabar.rs` lines 99-104: `Codabar::new`. -/
def new (data : List Char) : Outcome Codabar := do
  let d ← parseData data
  let units ← mapO (fun c => unwrap (Unit.fromChar c)) d
  .ok ⟨units⟩

/-- The loop body of `encode`, `src/sym/codabar.rs` lines 111-117, for a barcode of `len` units (`len ≥ 1` inside the
loop, so `len - 1` does not underflow). -/
def encodeStep (len : Nat) (enc : List Nat) (p : Nat × Unit) : List Nat :=
  if p.1 < len - 1 then enc ++ p.2.lookup ++ [0] else enc ++ p.2.lookup

/-- `src/sym/codabar.rs` lines 108-120: `encode`. -/
def encode (x : Codabar) : List Nat :=
  (enumerate x.units).foldl (encodeStep x.units.length) []

end Barcoders.Codabar
