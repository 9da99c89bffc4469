import Verif.Model.Helpers

set_option autoImplicit false

namespace Barcoders.Upca
open Barcoders.Helpers

/-- `src/sym/upca.rs` lines 20-45: `ENCODINGS` (left, right). The constant `PARITY` (lines 49-60) is
never used and is not modelled. -/
def ENCODINGS : List (List (List Nat)) := [
    [
        [0, 0, 0, 1, 1, 0, 1],
        [0, 0, 1, 1, 0, 0, 1],
        [0, 0, 1, 0, 0, 1, 1],
        [0, 1, 1, 1, 1, 0, 1],
        [0, 1, 0, 0, 0, 1, 1],
        [0, 1, 1, 0, 0, 0, 1],
        [0, 1, 0, 1, 1, 1, 1],
        [0, 1, 1, 1, 0, 1, 1],
        [0, 1, 1, 0, 1, 1, 1],
        [0, 0, 0, 1, 0, 1, 1]
    ],
    [
        [1, 1, 1, 0, 0, 1, 0],
        [1, 1, 0, 0, 1, 1, 0],
        [1, 1, 0, 1, 1, 0, 0],
        [1, 0, 0, 0, 0, 1, 0],
        [1, 0, 1, 1, 1, 0, 0],
        [1, 0, 0, 1, 1, 1, 0],
        [1, 0, 1, 0, 0, 0, 0],
        [1, 0, 0, 0, 1, 0, 0],
        [1, 0, 0, 1, 0, 0, 0],
        [1, 1, 1, 0, 1, 0, 0]
    ]
]

/-- `src/sym/upca.rs` line 63: `LEFT_GUARD`. -/
def LEFT_GUARD : List Nat := [1, 0, 1]
/-- `src/sym/upca.rs` line 65: `MIDDLE_GUARD`. -/
def MIDDLE_GUARD : List Nat := [0, 1, 0, 1, 0]
/-- `src/sym/upca.rs` line 67: `RIGHT_GUARD`. -/
def RIGHT_GUARD : List Nat := [1, 0, 1]

/-- `src/sym/upca.rs` line 71: `struct UPCA(Vec<u8>)` (the field is private). -/
structure UPCA where
  digits : List Nat
  deriving DecidableEq, Repr

/-- `src/sym/upca.rs` lines 152-159: `valid_len` is `11..12`, `valid_chars` the decimal digits. -/
def parseData (data : List Char) : Outcome (List Char) := parse digitChars 11 12 data

/-- `src/sym/upca.rs` lines 94-96: `checksum_digit`. -/
def checksumDigit (b : Build) (x : UPCA) : Outcome Nat := modulo10Checksum b x.digits false

/-- `src/sym/upca.rs` lines 76-91: `UPCA::new`. -/
def new (b : Build) (data : List Char) : Outcome UPCA := do
  let d ← parseData data
  let digits ← toDigits d
  let first ← slice digits 0 11
  let upca : UPCA := ⟨first⟩
  if digits.length = 12 then do
    let c ← checksumDigit b upca
    let l ← idx digits 11
    if c ≠ l then .err .checksum else .ok upca
  else .ok upca

/-- `src/sym/upca.rs` lines 102-104: `char_encoding`. -/
def charEncoding (side d : Nat) : Outcome (List Nat) := do
  let t ← idx ENCODINGS side
  idx t d

/-- `src/sym/upca.rs` lines 98-100: `checksum_encoding`. -/
def checksumEncoding (b : Build) (x : UPCA) : Outcome (List Nat) := do
  let c ← checksumDigit b x
  charEncoding 1 c

/-- `src/sym/upca.rs` lines 106-108: `left_digits`. -/
def leftDigits (x : UPCA) : Outcome (List Nat) := slice x.digits 0 6

/-- `src/sym/upca.rs` lines 110-112: `right_digits`. -/
def rightDigits (x : UPCA) : Outcome (List Nat) := sliceFrom x.digits 6

/-- `src/sym/upca.rs` lines 114-122: `left_payload`. -/
def leftPayload (x : UPCA) : Outcome (List Nat) := do
  let ds ← leftDigits x
  let slices ← mapO (fun d => charEncoding 0 d) ds
  .ok (joinIters slices)

/-- `src/sym/upca.rs` lines 124-132: `right_payload`. -/
def rightPayload (x : UPCA) : Outcome (List Nat) := do
  let ds ← rightDigits x
  let slices ← mapO (fun d => charEncoding 1 d) ds
  .ok (joinIters slices)

/-- `src/sym/upca.rs` lines 136-147: `encode`. -/
def encode (b : Build) (x : UPCA) : Outcome (List Nat) := do
  let lp ← leftPayload x
  let rp ← rightPayload x
  let ck ← checksumEncoding b x
  .ok (joinSlices [LEFT_GUARD, lp, MIDDLE_GUARD, rp, ck, RIGHT_GUARD])

end Barcoders.Upca
