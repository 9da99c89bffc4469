import Verif.Model.Helpers

set_option autoImplicit false

namespace Barcoders.Code39
open Barcoders.Helpers

/-- `src/sym/code39.rs` lines 15-59: `CHARS`. -/
def CHARS : List (Char × List Nat) := [
    ('0', [1, 0, 1, 0, 0, 1, 1, 0, 1, 1, 0, 1]),
    ('1', [1, 1, 0, 1, 0, 0, 1, 0, 1, 0, 1, 1]),
    ('2', [1, 0, 1, 1, 0, 0, 1, 0, 1, 0, 1, 1]),
    ('3', [1, 1, 0, 1, 1, 0, 0, 1, 0, 1, 0, 1]),
    ('4', [1, 0, 1, 0, 0, 1, 1, 0, 1, 0, 1, 1]),
    ('5', [1, 1, 0, 1, 0, 0, 1, 1, 0, 1, 0, 1]),
    ('6', [1, 0, 1, 1, 0, 0, 1, 1, 0, 1, 0, 1]),
    ('7', [1, 0, 1, 0, 0, 1, 0, 1, 1, 0, 1, 1]),
    ('8', [1, 1, 0, 1, 0, 0, 1, 0, 1, 1, 0, 1]),
    ('9', [1, 0, 1, 1, 0, 0, 1, 0, 1, 1, 0, 1]),
    ('A', [1, 1, 0, 1, 0, 1, 0, 0, 1, 0, 1, 1]),
    ('B', [1, 0, 1, 1, 0, 1, 0, 0, 1, 0, 1, 1]),
    ('C', [1, 1, 0, 1, 1, 0, 1, 0, 0, 1, 0, 1]),
    ('D', [1, 0, 1, 0, 1, 1, 0, 0, 1, 0, 1, 1]),
    ('E', [1, 1, 0, 1, 0, 1, 1, 0, 0, 1, 0, 1]),
    ('F', [1, 0, 1, 1, 0, 1, 1, 0, 0, 1, 0, 1]),
    ('G', [1, 0, 1, 0, 1, 0, 0, 1, 1, 0, 1, 1]),
    ('H', [1, 1, 0, 1, 0, 1, 0, 0, 1, 1, 0, 1]),
    ('I', [1, 0, 1, 1, 0, 1, 0, 0, 1, 1, 0, 1]),
    ('J', [1, 0, 1, 0, 1, 1, 0, 0, 1, 1, 0, 1]),
    ('K', [1, 1, 0, 1, 0, 1, 0, 1, 0, 0, 1, 1]),
    ('L', [1, 0, 1, 1, 0, 1, 0, 1, 0, 0, 1, 1]),
    ('M', [1, 1, 0, 1, 1, 0, 1, 0, 1, 0, 0, 1]),
    ('N', [1, 0, 1, 0, 1, 1, 0, 1, 0, 0, 1, 1]),
    ('O', [1, 1, 0, 1, 0, 1, 1, 0, 1, 0, 0, 1]),
    ('P', [1, 0, 1, 1, 0, 1, 1, 0, 1, 0, 0, 1]),
    ('Q', [1, 0, 1, 0, 1, 0, 1, 1, 0, 0, 1, 1]),
    ('R', [1, 1, 0, 1, 0, 1, 0, 1, 1, 0, 0, 1]),
    ('S', [1, 0, 1, 1, 0, 1, 0, 1, 1, 0, 0, 1]),
    ('T', [1, 0, 1, 0, 1, 1, 0, 1, 1, 0, 0, 1]),
    ('U', [1, 1, 0, 0, 1, 0, 1, 0, 1, 0, 1, 1]),
    ('V', [1, 0, 0, 1, 1, 0, 1, 0, 1, 0, 1, 1]),
    ('W', [1, 1, 0, 0, 1, 1, 0, 1, 0, 1, 0, 1]),
    ('X', [1, 0, 0, 1, 0, 1, 1, 0, 1, 0, 1, 1]),
    ('Y', [1, 1, 0, 0, 1, 0, 1, 1, 0, 1, 0, 1]),
    ('Z', [1, 0, 0, 1, 1, 0, 1, 1, 0, 1, 0, 1]),
    ('-', [1, 0, 0, 1, 0, 1, 0, 1, 1, 0, 1, 1]),
    ('.', [1, 1, 0, 0, 1, 0, 1, 0, 1, 1, 0, 1]),
    (' ', [1, 0, 0, 1, 1, 0, 1, 0, 1, 1, 0, 1]),
    ('$', [1, 0, 0, 1, 0, 0, 1, 0, 0, 1, 0, 1]),
    ('/', [1, 0, 0, 1, 0, 0, 1, 0, 1, 0, 0, 1]),
    ('+', [1, 0, 0, 1, 0, 1, 0, 0, 1, 0, 0, 1]),
    ('%', [1, 0, 1, 0, 0, 1, 0, 0, 1, 0, 0, 1])
]

/-- `src/sym/code39.rs` line 62: `GUARD`. -/
def GUARD : List Nat := [1, 0, 0, 1, 0, 1, 1, 0, 1, 1, 0, 1]

/-- `src/sym/code39.rs` lines 66-70: `struct Code39` (`data` private, `checksum` public). -/
structure Code39 where
  data : List Char
  checksum : Bool
  deriving DecidableEq, Repr

/-- `src/sym/code39.rs` lines 146-153: `valid_len` is `1..256`, `valid_chars` the characters of the table. -/
def parseData (data : List Char) : Outcome (List Char) := parse (CHARS.map Prod.fst) 1 256 data

/-- `src/sym/code39.rs` lines 73-78: `init`. -/
def init (data : List Char) (checksum : Bool) : Outcome Code39 := do
  let d ← parseData data
  .ok ⟨d, checksum⟩

/-- `src/sym/code39.rs` lines 82-84: `Code39::new`. -/
def new (data : List Char) : Outcome Code39 := init data false

/-- `src/sym/code39.rs` lines 88-90: `Code39::with_checksum`. -/
def withChecksum (data : List Char) : Outcome Code39 := init data true

/-- The closure `get_char_pos`, `src/sym/code39.rs` line 94. -/
def getCharPos (c : Char) : Outcome Nat := unwrap (CHARS.findIdx? (fun t => t.1 == c))

/-- `src/sym/code39.rs` lines 93-99: `checksum_char`. The `usize` sum is unbounded here. -/
def checksumChar (x : Code39) : Outcome (Option Char) := do
  let indices ← mapO getCharPos x.data
  let index := indices.sum % CHARS.length
  .ok (CHARS[index]?.map Prod.fst)

/-- `src/sym/code39.rs` lines 108-113: `char_encoding`. -/
def charEncoding (c : Char) : Outcome (List Nat) :=
  match CHARS.find? (fun ch => ch.1 == c) with
  | some (_, enc) => .ok enc
  | none => .panic .unwrap

/-- `src/sym/code39.rs` lines 101-106: `checksum_encoding`. -/
def checksumEncoding (x : Code39) : Outcome (List Nat) := do
  match ← checksumChar x with
  | some c => charEncoding c
  | none => .panic .unwrap

/-- `src/sym/code39.rs` lines 117-120: `push_encoding`. -/
def pushEncoding (into from_ : List Nat) : List Nat := into ++ from_ ++ [0]

/-- `src/sym/code39.rs` lines 122-134: `payload`. -/
def payload (x : Code39) : Outcome (List Nat) := do
  let enc ← foldO (fun enc c => do
    let e ← charEncoding c
    .ok (pushEncoding enc e)) [0] x.data
  if x.checksum then do
    let e ← checksumEncoding x
    .ok (pushEncoding enc e)
  else .ok enc

/-- `src/sym/code39.rs` lines 138-142: `encode`. -/
def encode (x : Code39) : Outcome (List Nat) := do
  let p ← payload x
  .ok (joinSlices [GUARD, p, GUARD])

end Barcoders.Code39
