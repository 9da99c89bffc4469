import Verif.Model.Basic

set_option autoImplicit false

namespace Barcoders.Json

/-- `src/generators/json.rs` lines 20-25: `struct JSON`. -/
structure JSON where
  height : Nat
  xdim : Nat
  deriving DecidableEq, Repr

/-- `src/generators/json.rs` lines 35-40: `JSON::new` (also `Default::default`, lines 27-31). -/
def new : JSON := { height := 10, xdim := 1 }

/-- The closure of the fold, `src/generators/json.rs` lines 44-51. -/
def bitStep (acc : List Char) (b : Nat) : List Char :=
  acc ++ (match b with
    | 0 => ['0']
    | _ => ['1']) ++ [',']

/-- `src/generators/json.rs` lines 43-62: `generate`. `String::pop` on an empty string does nothing. -/
def generate (g : JSON) (barcode : List Nat) : Outcome (List Char) :=
  let bits := (barcode.foldl bitStep []).dropLast
  .ok ("{\"height\":".toList ++ showNat g.height ++ ",\"xdim\":".toList ++ showNat g.xdim ++
    ",\"encoding\":[".toList ++ bits ++ "]}".toList)

end Barcoders.Json
