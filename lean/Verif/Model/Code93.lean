import Verif.Model.Helpers

set_option autoImplicit false

namespace Barcoders.Code93
open Barcoders.Helpers

/-- `src/sym/code93.rs` lines 18-66: `CHARS`. -/
def CHARS : List (Char × List Nat) := [
    ('0', [1, 0, 0, 0, 1, 0, 1, 0, 0]),
    ('1', [1, 0, 1, 0, 0, 1, 0, 0, 0]),
    ('2', [1, 0, 1, 0, 0, 0, 1, 0, 0]),
    ('3', [1, 0, 1, 0, 0, 0, 0, 1, 0]),
    ('4', [1, 0, 0, 1, 0, 1, 0, 0, 0]),
    ('5', [1, 0, 0, 1, 0, 0, 1, 0, 0]),
    ('6', [1, 0, 0, 1, 0, 0, 0, 1, 0]),
    ('7', [1, 0, 1, 0, 1, 0, 0, 0, 0]),
    ('8', [1, 0, 0, 0, 1, 0, 0, 1, 0]),
    ('9', [1, 0, 0, 0, 0, 1, 0, 1, 0]),
    ('A', [1, 1, 0, 1, 0, 1, 0, 0, 0]),
    ('B', [1, 1, 0, 1, 0, 0, 1, 0, 0]),
    ('C', [1, 1, 0, 1, 0, 0, 0, 1, 0]),
    ('D', [1, 1, 0, 0, 1, 0, 1, 0, 0]),
    ('E', [1, 1, 0, 0, 1, 0, 0, 1, 0]),
    ('F', [1, 1, 0, 0, 0, 1, 0, 1, 0]),
    ('G', [1, 0, 1, 1, 0, 1, 0, 0, 0]),
    ('H', [1, 0, 1, 1, 0, 0, 1, 0, 0]),
    ('I', [1, 0, 1, 1, 0, 0, 0, 1, 0]),
    ('J', [1, 0, 0, 1, 1, 0, 1, 0, 0]),
    ('K', [1, 0, 0, 0, 1, 1, 0, 1, 0]),
    ('L', [1, 0, 1, 0, 1, 1, 0, 0, 0]),
    ('M', [1, 0, 1, 0, 0, 1, 1, 0, 0]),
    ('N', [1, 0, 1, 0, 0, 0, 1, 1, 0]),
    ('O', [1, 0, 0, 1, 0, 1, 1, 0, 0]),
    ('P', [1, 0, 0, 0, 1, 0, 1, 1, 0]),
    ('Q', [1, 1, 0, 1, 1, 0, 1, 0, 0]),
    ('R', [1, 1, 0, 1, 1, 0, 0, 1, 0]),
    ('S', [1, 1, 0, 1, 0, 1, 1, 0, 0]),
    ('T', [1, 1, 0, 1, 0, 0, 1, 1, 0]),
    ('U', [1, 1, 0, 0, 1, 0, 1, 1, 0]),
    ('V', [1, 1, 0, 0, 1, 1, 0, 1, 0]),
    ('W', [1, 0, 1, 1, 0, 1, 1, 0, 0]),
    ('X', [1, 0, 1, 1, 0, 0, 1, 1, 0]),
    ('Y', [1, 0, 0, 1, 1, 0, 1, 1, 0]),
    ('Z', [1, 0, 0, 1, 1, 1, 0, 1, 0]),
    ('-', [1, 0, 0, 1, 0, 1, 1, 1, 0]),
    ('.', [1, 1, 1, 0, 1, 0, 1, 0, 0]),
    (' ', [1, 1, 1, 0, 1, 0, 0, 1, 0]),
    ('$', [1, 1, 1, 0, 0, 1, 0, 1, 0]),
    ('/', [1, 0, 1, 1, 0, 1, 1, 1, 0]),
    ('+', [1, 0, 1, 1, 1, 0, 1, 1, 0]),
    ('%', [1, 1, 0, 1, 0, 1, 1, 1, 0]),
    ('(', [1, 0, 0, 1, 0, 0, 1, 1, 0]),
    (')', [1, 1, 1, 0, 1, 1, 0, 1, 0]),
    ('[', [1, 1, 1, 0, 1, 0, 1, 1, 0]),
    (']', [1, 0, 0, 1, 1, 0, 0, 1, 0])
]

/-- `src/sym/code93.rs` line 69: `GUARD`. -/
def GUARD : List Nat := [1, 0, 1, 0, 1, 1, 1, 1, 0]
/-- `src/sym/code93.rs` line 70: `TERMINATOR`. -/
def TERMINATOR : List Nat := [1]

/-- `src/sym/code93.rs` line 74: `struct Code93(Vec<char>)` (the field is private). -/
structure Code93 where
  data : List Char
  deriving DecidableEq, Repr

/-- `src/sym/code93.rs` lines 153-161: `valid_len` is `1..256`, `valid_chars` the characters of the table. -/
def parseData (data : List Char) : Outcome (List Char) := parse (CHARS.map Prod.fst) 1 256 data

/-- `src/sym/code93.rs` lines 79-81: `Code93::new`. -/
def new (data : List Char) : Outcome Code93 := do
  let d ← parseData data
  .ok ⟨d⟩

/-- `src/sym/code93.rs` lines 83-88: `char_encoding`. -/
def charEncoding (c : Char) : Outcome (List Nat) :=
  match CHARS.find? (fun ch => ch.1 == c) with
  | some (_, enc) => .ok enc
  | none => .panic .unwrap

/-- The closure `get_char_pos`, `src/sym/code93.rs` line 92. -/
def getCharPos (c : Char) : Outcome Nat := unwrap (CHARS.findIdx? (fun t => t.1 == c))

/-- The closure `weight`, `src/sym/code93.rs` lines 93-96 (`i` is always below `len`). -/
def weight (len threshold i : Nat) : Nat :=
  let n := (len - i) % threshold
  if n = 0 then threshold else n

/-- `src/sym/code93.rs` lines 91-103: `checksum_char`. The `usize` sum is unbounded here. The lazy `map` and the
`fold` are run one after the other; the only effect of the closures is a possible panic. -/
def checksumChar (data : List Char) (threshold : Nat) : Outcome (Option Char) := do
  let positions ← mapO getCharPos data
  let index := (enumerate positions).foldl (fun acc p => acc + weight data.length threshold p.1 * p.2) 0
  .ok (CHARS[index % CHARS.length]?.map Prod.fst)

/-- `src/sym/code93.rs` lines 106-108: `c_checksum_char`. -/
def cChecksumChar (x : Code93) : Outcome (Option Char) := checksumChar x.data 20

/-- `src/sym/code93.rs` lines 111-116: `k_checksum_char`. -/
def kChecksumChar (x : Code93) (c : Char) : Outcome (Option Char) := checksumChar (x.data ++ [c]) 15

/-- `src/sym/code93.rs` lines 118-120: `push_encoding`. -/
def pushEncoding (into from_ : List Nat) : List Nat := into ++ from_

/-- `src/sym/code93.rs` lines 122-138: `payload`. -/
def payload (x : Code93) : Outcome (List Nat) := do
  let c ← unwrap (← cChecksumChar x)
  let k ← unwrap (← kChecksumChar x c)
  let enc ← foldO (fun enc c => do
    let e ← charEncoding c
    .ok (pushEncoding enc e)) [] x.data
  let ce ← charEncoding c
  let ke ← charEncoding k
  .ok (pushEncoding (pushEncoding enc ce) ke)

/-- `src/sym/code93.rs` lines 142-147: `encode`. -/
def encode (x : Code93) : Outcome (List Nat) := do
  let p ← payload x
  .ok (joinSlices [GUARD, p, GUARD, TERMINATOR])

end Barcoders.Code93
