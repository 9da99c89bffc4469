import Verif.Model.Helpers

set_option autoImplicit false

namespace Barcoders.TF
open Barcoders.Helpers

/-- `src/sym/tf.rs` lines 18-23: `WIDTHS`. -/
def WIDTHS : List (List Char) := [
  ['N', 'N', 'W', 'W', 'N'],
  ['W', 'N', 'N', 'N', 'W'],
  ['N', 'W', 'N', 'N', 'W'],
  ['W', 'W', 'N', 'N', 'N'],
  ['N', 'N', 'W', 'N', 'W'],
  ['W', 'N', 'W', 'N', 'N'],
  ['N', 'W', 'W', 'N', 'N'],
  ['N', 'N', 'N', 'W', 'W'],
  ['W', 'N', 'N', 'W', 'N'],
  ['N', 'W', 'N', 'W', 'N']
]

/-- `src/sym/tf.rs` line 25: `ITF_START`. -/
def ITF_START : List Nat := [1, 0, 1, 0]
/-- `src/sym/tf.rs` line 26: `ITF_STOP`. -/
def ITF_STOP : List Nat := [1, 1, 0, 1]
/-- `src/sym/tf.rs` line 27: `STF_START`. -/
def STF_START : List Nat := [1, 1, 0, 1, 1, 0, 1, 0]
/-- `src/sym/tf.rs` line 28: `STF_STOP`. -/
def STF_STOP : List Nat := [1, 1, 0, 1, 0, 1, 1, 0]

/-- `src/sym/tf.rs` lines 32-37: `enum TF` (variants are public, so any `Vec<u8>` can be wrapped). -/
inductive TF where
  | Standard (d : List Nat)
  | Interleaved (d : List Nat)
  deriving DecidableEq, Repr

/-- `src/sym/tf.rs` lines 152-159: `valid_len` is `1..256`, `valid_chars` the decimal digits. -/
def parseData (data : List Char) : Outcome (List Char) := parse digitChars 1 256 data

/-- `src/sym/tf.rs` lines 45-60: `TF::interleaved`. -/
def interleaved (b : Build) (data : List Char) : Outcome TF := do
  let d ← parseData data
  let digits ← toDigits d
  if digits.length % 2 = 1 then do
    let checkDigit ← modulo10Checksum b digits false
    .ok (.Interleaved (digits ++ [checkDigit]))
  else .ok (.Interleaved digits)

/-- `src/sym/tf.rs` lines 65-73: `TF::standard`. -/
def standard (data : List Char) : Outcome TF := do
  let d ← parseData data
  let digits ← toDigits d
  .ok (.Standard digits)

/-- `src/sym/tf.rs` lines 75-79: `raw_data`. -/
def rawData : TF → List Nat
  | .Standard d => d
  | .Interleaved d => d

/-- The inner loop of `interleave`, `src/sym/tf.rs` lines 87-92: one element of width code `c` and colour `i`. -/
def element (c : Char) (i : Nat) : List Nat :=
  match c with
  | 'W' => [i, i, i]
  | _ => [i]

/-- `src/sym/tf.rs` lines 81-96: `interleave`. -/
def interleave (bars spaces : Nat) : Outcome (List Nat) := do
  let bwidths ← idx WIDTHS bars
  let swidths ← idx WIDTHS spaces
  .ok ((bwidths.zip swidths).foldl (fun encoding (b, s) => encoding ++ element b 1 ++ element s 0) [])

/-- `src/sym/tf.rs` lines 111-113: `char_widths`. -/
def charWidths (d : Nat) : Outcome (List Char) := idx WIDTHS d

/-- `src/sym/tf.rs` lines 98-109: `char_encoding`. -/
def charEncoding (d : Nat) : Outcome (List Nat) := do
  let ws ← charWidths d
  .ok (joinIters (ws.map (fun c => match c with
    | 'W' => [1, 1, 1, 0]
    | _ => [1, 0])))

/-- `src/sym/tf.rs` lines 115-123: `stf_payload`. -/
def stfPayload (x : TF) : Outcome (List Nat) :=
  foldO (fun encodings d => do
    let e ← charEncoding d
    .ok (encodings ++ e)) [] (rawData x)

/-- `.chunks(2)` (core): pairs, and a last chunk of one if the length is odd. -/
def chunks2 : List Nat → List (List Nat)
  | [] => []
  | [a] => [[a]]
  | a :: b :: r => [a, b] :: chunks2 r

/-- `src/sym/tf.rs` lines 125-133: `itf_payload`. -/
def itfPayload (x : TF) : Outcome (List Nat) := do
  let weaves ← mapO (fun c => do
    let c0 ← idx c 0
    let c1 ← idx c 1
    interleave c0 c1) (chunks2 (rawData x))
  .ok (joinIters weaves)

/-- `src/sym/tf.rs` lines 137-146: `encode`. -/
def encode (x : TF) : Outcome (List Nat) :=
  match x with
  | .Standard _ => do
    let p ← stfPayload x
    .ok (joinSlices [STF_START, p, STF_STOP])
  | .Interleaved _ => do
    let p ← itfPayload x
    .ok (joinSlices [ITF_START, p, ITF_STOP])

end Barcoders.TF
