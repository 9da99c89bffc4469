import Verif.Model.Ean13

set_option autoImplicit false

namespace Barcoders.Ean8
open Barcoders.Helpers
open Barcoders.Ean13 (ENCODINGS LEFT_GUARD MIDDLE_GUARD RIGHT_GUARD)

/-- `src/sym/ean8.rs` line 15: `struct EAN8(Vec<u8>)` (the field is private). -/
structure EAN8 where
  digits : List Nat
  deriving DecidableEq, Repr

/-- `src/sym/ean8.rs` lines 111-118: `valid_len` is `7..8`, `valid_chars` the decimal digits. -/
def parseData (data : List Char) : Outcome (List Char) := parse digitChars 7 8 data

/-- `src/sym/ean8.rs` lines 38-40: `checksum_digit`. -/
def checksumDigit (b : Build) (x : EAN8) : Outcome Nat := modulo10Checksum b x.digits false

/-- `src/sym/ean8.rs` lines 20-35: `EAN8::new`. -/
def new (b : Build) (data : List Char) : Outcome EAN8 := do
  let d ← parseData data
  let digits ← toDigits d
  let first ← slice digits 0 7
  let ean8 : EAN8 := ⟨first⟩
  if digits.length = 8 then do
    let c ← checksumDigit b ean8
    let l ← idx digits 7
    if c ≠ l then .err .checksum else .ok ean8
  else .ok ean8

/-- `src/sym/ean8.rs` lines 60-62: `char_encoding`. -/
def charEncoding (side d : Nat) : Outcome (List Nat) := do
  let t ← idx ENCODINGS side
  idx t d

/-- `src/sym/ean8.rs` lines 42-44: `number_system_digits`. -/
def numberSystemDigits (x : EAN8) : Outcome (List Nat) := slice x.digits 0 2

/-- `src/sym/ean8.rs` lines 46-54: `number_system_encoding` (loop with an accumulator). -/
def numberSystemEncoding (x : EAN8) : Outcome (List Nat) := do
  let ds ← numberSystemDigits x
  foldO (fun ns d => do
    let e ← charEncoding 0 d
    .ok (ns ++ e)) [] ds

/-- `src/sym/ean8.rs` lines 56-58: `checksum_encoding`. -/
def checksumEncoding (b : Build) (x : EAN8) : Outcome (List Nat) := do
  let c ← checksumDigit b x
  charEncoding 2 c

/-- `src/sym/ean8.rs` lines 64-66: `left_digits`. -/
def leftDigits (x : EAN8) : Outcome (List Nat) := slice x.digits 2 4

/-- `src/sym/ean8.rs` lines 68-70: `right_digits`. -/
def rightDigits (x : EAN8) : Outcome (List Nat) := sliceFrom x.digits 4

/-- `src/sym/ean8.rs` lines 72-80: `left_payload`. -/
def leftPayload (x : EAN8) : Outcome (List Nat) := do
  let ds ← leftDigits x
  let slices ← mapO (fun d => charEncoding 0 d) ds
  .ok (joinIters slices)

/-- `src/sym/ean8.rs` lines 82-90: `right_payload`. -/
def rightPayload (x : EAN8) : Outcome (List Nat) := do
  let ds ← rightDigits x
  let slices ← mapO (fun d => charEncoding 2 d) ds
  .ok (joinIters slices)

/-- `src/sym/ean8.rs` lines 94-106: `encode`. -/
def encode (b : Build) (x : EAN8) : Outcome (List Nat) := do
  let ns ← numberSystemEncoding x
  let lp ← leftPayload x
  let rp ← rightPayload x
  let ck ← checksumEncoding b x
  .ok (joinSlices [LEFT_GUARD, ns, lp, MIDDLE_GUARD, rp, ck, RIGHT_GUARD])

end Barcoders.Ean8
