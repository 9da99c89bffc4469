import Verif.Model.Helpers

set_option autoImplicit false

namespace Barcoders.Ean13
open Barcoders.Helpers

/-- `src/sym/ean13.rs` lines 24-61: `ENCODINGS` (left A, left B, right). -/
def ENCODINGS : List (List (List Nat)) := [
    [
        [0, 0, 0, 1, 1, 0, 1],
        [0, 0, 1, 1, 0, 0, 1],
        [0, 0, 1, 0, 0, 1, 1],
        [0, 1, 1, 1, 1, 0, 1],
        [0, 1, 0, 0, 0, 1, 1],
        [0, 1, 1, 0, 0, 0, 1],
        [0, 1, 0, 1, 1, 1, 1],
        [0, 1, 1, 1, 0, 1, 1],
        [0, 1, 1, 0, 1, 1, 1],
        [0, 0, 0, 1, 0, 1, 1]
    ],
    [
        [0, 1, 0, 0, 1, 1, 1],
        [0, 1, 1, 0, 0, 1, 1],
        [0, 0, 1, 1, 0, 1, 1],
        [0, 1, 0, 0, 0, 0, 1],
        [0, 0, 1, 1, 1, 0, 1],
        [0, 1, 1, 1, 0, 0, 1],
        [0, 0, 0, 0, 1, 0, 1],
        [0, 0, 1, 0, 0, 0, 1],
        [0, 0, 0, 1, 0, 0, 1],
        [0, 0, 1, 0, 1, 1, 1]
    ],
    [
        [1, 1, 1, 0, 0, 1, 0],
        [1, 1, 0, 0, 1, 1, 0],
        [1, 1, 0, 1, 1, 0, 0],
        [1, 0, 0, 0, 0, 1, 0],
        [1, 0, 1, 1, 1, 0, 0],
        [1, 0, 0, 1, 1, 1, 0],
        [1, 0, 1, 0, 0, 0, 0],
        [1, 0, 0, 0, 1, 0, 0],
        [1, 0, 0, 1, 0, 0, 0],
        [1, 1, 1, 0, 1, 0, 0]
    ]
]

/-- `src/sym/ean13.rs` lines 65-76: `PARITY`. -/
def PARITY : List (List Nat) := [
    [0, 0, 0, 0, 0],
    [0, 1, 0, 1, 1],
    [0, 1, 1, 0, 1],
    [0, 1, 1, 1, 0],
    [1, 0, 0, 1, 1],
    [1, 1, 0, 0, 1],
    [1, 1, 1, 0, 0],
    [1, 0, 1, 0, 1],
    [1, 0, 1, 1, 0],
    [1, 1, 0, 1, 0]
]

/-- `src/sym/ean13.rs` line 79: `LEFT_GUARD`. -/
def LEFT_GUARD : List Nat := [1, 0, 1]
/-- `src/sym/ean13.rs` line 81: `MIDDLE_GUARD`. -/
def MIDDLE_GUARD : List Nat := [0, 1, 0, 1, 0]
/-- `src/sym/ean13.rs` line 83: `RIGHT_GUARD`. -/
def RIGHT_GUARD : List Nat := [1, 0, 1]

/-- `src/sym/ean13.rs` line 87: `struct EAN13(Vec<u8>)` (the field is private). -/
structure EAN13 where
  digits : List Nat
  deriving DecidableEq, Repr

/-- `src/sym/ean13.rs` lines 190-197: `valid_len` is `12..13`, `valid_chars` the decimal digits. -/
def parseData (data : List Char) : Outcome (List Char) := parse digitChars 12 13 data

/-- `src/sym/ean13.rs` lines 118-120: `checksum_digit`. -/
def checksumDigit (b : Build) (x : EAN13) : Outcome Nat := modulo10Checksum b x.digits true

/-- `src/sym/ean13.rs` lines 100-115: `EAN13::new`. -/
def new (b : Build) (data : List Char) : Outcome EAN13 := do
  let d ← parseData data
  let digits ← toDigits d
  let first ← slice digits 0 12
  let ean13 : EAN13 := ⟨first⟩
  if digits.length = 13 then do
    let c ← checksumDigit b ean13
    let l ← idx digits 12
    if c ≠ l then .err .checksum else .ok ean13
  else .ok ean13

/-- `src/sym/ean13.rs` lines 134-136: `char_encoding`. -/
def charEncoding (side d : Nat) : Outcome (List Nat) := do
  let t ← idx ENCODINGS side
  idx t d

/-- `src/sym/ean13.rs` lines 122-124: `number_system_digit`. -/
def numberSystemDigit (x : EAN13) : Outcome Nat := idx x.digits 1

/-- `src/sym/ean13.rs` lines 126-128: `number_system_encoding`. -/
def numberSystemEncoding (x : EAN13) : Outcome (List Nat) := do
  let d ← numberSystemDigit x
  charEncoding 0 d

/-- `src/sym/ean13.rs` lines 130-132: `checksum_encoding`. -/
def checksumEncoding (b : Build) (x : EAN13) : Outcome (List Nat) := do
  let c ← checksumDigit b x
  charEncoding 2 c

/-- `src/sym/ean13.rs` lines 138-140: `left_digits`. -/
def leftDigits (x : EAN13) : Outcome (List Nat) := slice x.digits 2 7

/-- `src/sym/ean13.rs` lines 142-144: `right_digits`. -/
def rightDigits (x : EAN13) : Outcome (List Nat) := sliceFrom x.digits 7

/-- `src/sym/ean13.rs` lines 146-148: `parity_mapping`. -/
def parityMapping (x : EAN13) : Outcome (List Nat) := do
  let d ← idx x.digits 0
  idx PARITY d

/-- `src/sym/ean13.rs` lines 150-159: `left_payload`. -/
def leftPayload (x : EAN13) : Outcome (List Nat) := do
  let ds ← leftDigits x
  let ps ← parityMapping x
  let slices ← mapO (fun (d, s) => charEncoding s d) (ds.zip ps)
  .ok (joinIters slices)

/-- `src/sym/ean13.rs` lines 161-169: `right_payload`. -/
def rightPayload (x : EAN13) : Outcome (List Nat) := do
  let ds ← rightDigits x
  let slices ← mapO (fun d => charEncoding 2 d) ds
  .ok (joinIters slices)

/-- `src/sym/ean13.rs` lines 173-185: `encode`. -/
def encode (b : Build) (x : EAN13) : Outcome (List Nat) := do
  let ns ← numberSystemEncoding x
  let lp ← leftPayload x
  let rp ← rightPayload x
  let ck ← checksumEncoding b x
  .ok (joinSlices [LEFT_GUARD, ns, lp, MIDDLE_GUARD, rp, ck, RIGHT_GUARD])

end Barcoders.Ean13
