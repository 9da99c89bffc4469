import Verif.Model.Basic

set_option autoImplicit false

namespace Barcoders

/-- `src/sym.rs` lines 38-55: `Parse::parse`, for a symbology with the given `valid_chars()` and `valid_len()`
(`lo..hi`, compared inclusively at both ends). The length is `data.len() as u32`: bytes, truncated. -/
def parse (validChars : List Char) (lo hi : Nat) (data : List Char) : Outcome (List Char) :=
  let dataLen := asU32 (strLen data)
  if dataLen < lo ∨ dataLen > hi then .err .length
  else
    match data.find? (fun c => !(validChars.any (fun vc => vc == c))) with
    | some _ => .err .character
    | none => .ok data

namespace Helpers

/-- `src/sym/helpers.rs` lines 12-14: `join_slices`. -/
def joinSlices (slices : List (List Nat)) : List Nat := slices.flatMap id

/-- `src/sym/helpers.rs` lines 17-22: `join_iters`. -/
def joinIters (iters : List (List Nat)) : List Nat := iters.flatMap id

/-- The body of the loop in `modulo_10_checksum`, `src/sym/helpers.rs` lines 29-34; the state is `(odds, evens)`. -/
def mod10Step (b : Build) (st : Nat × Nat) (p : Nat × Nat) : Outcome (Nat × Nat) :=
  if p.1 % 2 = 1 then do
    let odds ← u8 b (st.1 + p.2)
    .ok (odds, st.2)
  else do
    let evens ← u8 b (st.2 + p.2)
    .ok (st.1, evens)

/-- `src/sym/helpers.rs` lines 25-48: `modulo_10_checksum`, all in `u8`. -/
def modulo10Checksum (b : Build) (data : List Nat) (evenStart : Bool) : Outcome Nat := do
  let (odds, evens) ← foldO (mod10Step b) (0, 0) (enumerate data)
  let odds' ← if evenStart then u8 b (odds * 3) else .ok odds
  let evens' ← if evenStart then .ok evens else u8 b (evens * 3)
  let sum ← u8 b (odds' + evens')
  -- `10 - (sum % 10)` cannot underflow
  let n := 10 - sum % 10
  .ok (if n = 10 then 0 else n)

/-- The `valid_chars()` of the digit-only symbologies: `(0..10).map(|i| char::from_digit(i, 10).unwrap())`,
e.g. `src/sym/ean13.rs` line 196. -/
def digitChars : List Char := (List.range 10).filterMap fromDigit

/-- `d.chars().map(|c| c.to_digit(10).expect("Unknown character") as u8).collect()`,
e.g. `src/sym/ean13.rs` lines 102-105. -/
def toDigits (d : List Char) : Outcome (List Nat) := mapO (fun c => unwrap (toDigit c)) d

end Helpers
end Barcoders
