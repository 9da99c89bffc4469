import Verif.Model.Ean13

set_option autoImplicit false

namespace Barcoders.EanSupp
open Barcoders.Helpers
open Barcoders.Ean13 (ENCODINGS)

/-- `src/sym/ean_supp.rs` line 16: `LEFT_GUARD`. -/
def LEFT_GUARD : List Nat := [1, 0, 1, 1]

/-- `src/sym/ean_supp.rs` lines 19-30: `EAN5_PARITY`. -/
def EAN5_PARITY : List (List Nat) := [
    [1, 1, 0, 0, 0],
    [1, 0, 1, 0, 0],
    [1, 0, 0, 1, 0],
    [1, 0, 0, 0, 1],
    [0, 1, 1, 0, 0],
    [0, 0, 1, 1, 0],
    [0, 0, 0, 1, 1],
    [0, 1, 0, 1, 0],
    [0, 1, 0, 0, 1],
    [0, 0, 1, 0, 1]
]

/-- `src/sym/ean_supp.rs` lines 33-38: `EAN2_PARITY`. -/
def EAN2_PARITY : List (List Nat) := [
    [0, 0, 0, 0, 0],
    [0, 1, 0, 0, 0],
    [1, 0, 0, 0, 0],
    [1, 1, 0, 0, 0]
]

/-- `src/sym/ean_supp.rs` lines 42-47: `enum EANSUPP` (variants are public, so any `Vec<u8>` can be wrapped). -/
inductive EANSUPP where
  | EAN2 (d : List Nat)
  | EAN5 (d : List Nat)
  deriving DecidableEq, Repr

/-- `src/sym/ean_supp.rs` lines 142-149: `valid_len` is `2..5`, `valid_chars` the decimal digits. -/
def parseData (data : List Char) : Outcome (List Char) := parse digitChars 2 5 data

/-- `src/sym/ean_supp.rs` lines 54-67: `EANSUPP::new`. -/
def new (data : List Char) : Outcome EANSUPP := do
  let d ← parseData data
  let digits ← toDigits d
  if digits.length = 2 then .ok (.EAN2 digits)
  else if digits.length = 5 then .ok (.EAN5 digits)
  else .err .length

/-- `src/sym/ean_supp.rs` lines 69-73: `raw_data`. -/
def rawData : EANSUPP → List Nat
  | .EAN2 d => d
  | .EAN5 d => d

/-- `src/sym/ean_supp.rs` lines 75-77: `char_encoding`. -/
def charEncoding (side d : Nat) : Outcome (List Nat) := do
  let t ← idx ENCODINGS side
  idx t d

/-- The body of the loop in `checksum_digit`, `src/sym/ean_supp.rs` lines 86-91; the state is `(odds, evens)`. -/
def checksumStep (b : Build) (st : Nat × Nat) (p : Nat × Nat) : Outcome (Nat × Nat) :=
  if p.1 % 2 = 1 then do
    let evens ← u8 b (st.2 + p.2)
    .ok (st.1, evens)
  else do
    let odds ← u8 b (st.1 + p.2)
    .ok (odds, st.2)

/-- `src/sym/ean_supp.rs` lines 81-97: `checksum_digit`, all in `u8`. -/
def checksumDigit (b : Build) (x : EANSUPP) : Outcome Nat := do
  let (odds, evens) ← foldO (checksumStep b) (0, 0) (enumerate (rawData x))
  let o3 ← u8 b (odds * 3)
  let e9 ← u8 b (evens * 9)
  let sum ← u8 b (o3 + e9)
  .ok (if sum % 10 = 10 then 0 else sum % 10)

/-- `src/sym/ean_supp.rs` lines 99-110: `parity`. -/
def parity (b : Build) (x : EANSUPP) : Outcome (List Nat) :=
  match x with
  | .EAN2 d => do
    let d0 ← idx d 0
    let t ← u8 b (d0 * 10)
    let d1 ← idx d 1
    let v ← u8 b (t + d1)
    idx EAN2_PARITY (v % 4)
  | .EAN5 _ => do
    let check ← checksumDigit b x
    idx EAN5_PARITY check

/-- The second loop of `payload`, `src/sym/ean_supp.rs` lines 121-128. -/
def payloadStep (p : List Nat) (e : Nat × List Nat) : List Nat :=
  if e.1 > 0 then p ++ [0] ++ [1] ++ e.2 else p ++ e.2

/-- `src/sym/ean_supp.rs` lines 112-131: `payload`. -/
def payload (b : Build) (x : EANSUPP) : Outcome (List Nat) := do
  let ps ← parity b x
  let slices ← mapO (fun (d, s) => charEncoding s d) ((rawData x).zip ps)
  .ok ((enumerate slices).foldl payloadStep [])

/-- `src/sym/ean_supp.rs` lines 135-137: `encode`. -/
def encode (b : Build) (x : EANSUPP) : Outcome (List Nat) := do
  let p ← payload b x
  .ok (joinSlices [LEFT_GUARD, p])

end Barcoders.EanSupp
