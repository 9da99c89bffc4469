import Verif.Model.Helpers

set_option autoImplicit false

namespace Barcoders.Code11
open Barcoders.Helpers

/-- `src/sym/code11.rs` lines 16-28: `CHARS`. -/
def CHARS : List (Char × List Nat) := [
    ('0', [1, 0, 1, 0, 1, 1]),
    ('1', [1, 1, 0, 1, 0, 1, 1]),
    ('2', [1, 0, 0, 1, 0, 1, 1]),
    ('3', [1, 1, 0, 0, 1, 0, 1]),
    ('4', [1, 0, 1, 1, 0, 1, 1]),
    ('5', [1, 1, 0, 1, 1, 0, 1]),
    ('6', [1, 0, 0, 1, 1, 0, 1]),
    ('7', [1, 0, 1, 0, 0, 1, 1]),
    ('8', [1, 1, 0, 1, 0, 0, 1]),
    ('9', [1, 1, 0, 1, 0, 1]),
    ('-', [1, 0, 1, 1, 0, 1])
]

/-- `src/sym/code11.rs` line 31: `GUARD`. -/
def GUARD : List Nat := [1, 0, 1, 1, 0, 0, 1]
/-- `src/sym/code11.rs` line 32: `SEPARATOR`. -/
def SEPARATOR : List Nat := [0]

/-- `src/sym/code11.rs` line 36: `struct Code11(Vec<char>)` (the field is private). -/
structure Code11 where
  data : List Char
  deriving DecidableEq, Repr

/-- `src/sym/code11.rs` lines 127-135: `valid_len` is `1..256`, `valid_chars` the characters of the table. -/
def parseData (data : List Char) : Outcome (List Char) := parse (CHARS.map Prod.fst) 1 256 data

/-- `src/sym/code11.rs` lines 44-46: `Code11::new`. -/
def new (data : List Char) : Outcome Code11 := do
  let d ← parseData data
  .ok ⟨d⟩

/-- `src/sym/code11.rs` lines 48-53: `char_encoding`. -/
def charEncoding (c : Char) : Outcome (List Nat) :=
  match CHARS.find? (fun ch => ch.1 == c) with
  | some (_, enc) => .ok enc
  | none => .panic .unwrap

/-- The closure `get_char_pos`, `src/sym/code11.rs` line 57. -/
def getCharPos (c : Char) : Outcome Nat := unwrap (CHARS.findIdx? (fun t => t.1 == c))

/-- The closure `weight`, `src/sym/code11.rs` lines 58-61. -/
def weight (threshold i : Nat) : Nat :=
  let n := i % threshold
  if n = 0 then threshold else n

/-- `src/sym/code11.rs` lines 56-73: `checksum_char`. The `usize` sum is unbounded here. The lazy `map` and the
`fold` are run one after the other; the only effect of the closures is a possible panic. -/
def checksumChar (data : List Char) (threshold : Nat) : Outcome (Option Char) := do
  let positions ← mapO getCharPos data
  let index := (enumerate positions.reverse).foldl (fun acc p => acc + weight threshold (p.1 + 1) * p.2) 0
  .ok (CHARS[index % CHARS.length]?.map Prod.fst)

/-- `src/sym/code11.rs` lines 76-78: `c_checksum_char`. -/
def cChecksumChar (x : Code11) : Outcome (Option Char) := checksumChar x.data 10

/-- `src/sym/code11.rs` lines 81-86: `k_checksum_char`. -/
def kChecksumChar (x : Code11) (c : Char) : Outcome (Option Char) := checksumChar (x.data ++ [c]) 9

/-- `src/sym/code11.rs` lines 88-91: `push_encoding`. -/
def pushEncoding (into from_ : List Nat) : List Nat := into ++ from_ ++ SEPARATOR

/-- `src/sym/code11.rs` lines 93-113: `payload`. -/
def payload (x : Code11) : Outcome (List Nat) := do
  let c ← unwrap (← cChecksumChar x)
  let enc ← foldO (fun enc c => do
    let e ← charEncoding c
    .ok (pushEncoding enc e)) [] x.data
  let ce ← charEncoding c
  let enc := pushEncoding enc ce
  if x.data.length > 10 then do
    let k ← unwrap (← kChecksumChar x c)
    let ke ← charEncoding k
    .ok (pushEncoding enc ke)
  else .ok enc

/-- `src/sym/code11.rs` lines 117-121: `encode`. -/
def encode (x : Code11) : Outcome (List Nat) := do
  let p ← payload x
  .ok (joinSlices [GUARD, SEPARATOR, p, GUARD])

end Barcoders.Code11
