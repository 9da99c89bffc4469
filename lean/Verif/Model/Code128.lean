import Verif.Model.Helpers

set_option autoImplicit false

namespace Barcoders.Code128
open Barcoders.Helpers

/-- `src/sym/code128.rs` lines 86-217: `CHARS`. The three strings of a row (one per character set) are
lists of characters, in a triple instead of an array. -/
def CHARS : List ((List Char × List Char × List Char) × List Nat) := [
  (([' '], [' '], ['0', '0']), [1, 1, 0, 1, 1, 0, 0, 1, 1, 0, 0]),
  ((['!'], ['!'], ['0', '1']), [1, 1, 0, 0, 1, 1, 0, 1, 1, 0, 0]),
  ((['"'], ['"'], ['0', '2']), [1, 1, 0, 0, 1, 1, 0, 0, 1, 1, 0]),
  ((['#'], ['#'], ['0', '3']), [1, 0, 0, 1, 0, 0, 1, 1, 0, 0, 0]),
  ((['$'], ['$'], ['0', '4']), [1, 0, 0, 1, 0, 0, 0, 1, 1, 0, 0]),
  ((['%'], ['%'], ['0', '5']), [1, 0, 0, 0, 1, 0, 0, 1, 1, 0, 0]),
  ((['&'], ['&'], ['0', '6']), [1, 0, 0, 1, 1, 0, 0, 1, 0, 0, 0]),
  ((['\''], ['\''], ['0', '7']), [1, 0, 0, 1, 1, 0, 0, 0, 1, 0, 0]),
  ((['('], ['('], ['0', '8']), [1, 0, 0, 0, 1, 1, 0, 0, 1, 0, 0]),
  (([')'], [')'], ['0', '9']), [1, 1, 0, 0, 1, 0, 0, 1, 0, 0, 0]),
  ((['*'], ['*'], ['1', '0']), [1, 1, 0, 0, 1, 0, 0, 0, 1, 0, 0]),
  ((['+'], ['+'], ['1', '1']), [1, 1, 0, 0, 0, 1, 0, 0, 1, 0, 0]),
  (([','], [','], ['1', '2']), [1, 0, 1, 1, 0, 0, 1, 1, 1, 0, 0]),
  ((['-'], ['-'], ['1', '3']), [1, 0, 0, 1, 1, 0, 1, 1, 1, 0, 0]),
  ((['.'], ['.'], ['1', '4']), [1, 0, 0, 1, 1, 0, 0, 1, 1, 1, 0]),
  ((['/'], ['/'], ['1', '5']), [1, 0, 1, 1, 1, 0, 0, 1, 1, 0, 0]),
  ((['0'], ['0'], ['1', '6']), [1, 0, 0, 1, 1, 1, 0, 1, 1, 0, 0]),
  ((['1'], ['1'], ['1', '7']), [1, 0, 0, 1, 1, 1, 0, 0, 1, 1, 0]),
  ((['2'], ['2'], ['1', '8']), [1, 1, 0, 0, 1, 1, 1, 0, 0, 1, 0]),
  ((['3'], ['3'], ['1', '9']), [1, 1, 0, 0, 1, 0, 1, 1, 1, 0, 0]),
  ((['4'], ['4'], ['2', '0']), [1, 1, 0, 0, 1, 0, 0, 1, 1, 1, 0]),
  ((['5'], ['5'], ['2', '1']), [1, 1, 0, 1, 1, 1, 0, 0, 1, 0, 0]),
  ((['6'], ['6'], ['2', '2']), [1, 1, 0, 0, 1, 1, 1, 0, 1, 0, 0]),
  ((['7'], ['7'], ['2', '3']), [1, 1, 1, 0, 1, 1, 0, 1, 1, 1, 0]),
  ((['8'], ['8'], ['2', '4']), [1, 1, 1, 0, 1, 0, 0, 1, 1, 0, 0]),
  ((['9'], ['9'], ['2', '5']), [1, 1, 1, 0, 0, 1, 0, 1, 1, 0, 0]),
  (([':'], [':'], ['2', '6']), [1, 1, 1, 0, 0, 1, 0, 0, 1, 1, 0]),
  (([';'], [';'], ['2', '7']), [1, 1, 1, 0, 1, 1, 0, 0, 1, 0, 0]),
  ((['<'], ['<'], ['2', '8']), [1, 1, 1, 0, 0, 1, 1, 0, 1, 0, 0]),
  ((['='], ['='], ['2', '9']), [1, 1, 1, 0, 0, 1, 1, 0, 0, 1, 0]),
  ((['>'], ['>'], ['3', '0']), [1, 1, 0, 1, 1, 0, 1, 1, 0, 0, 0]),
  ((['?'], ['?'], ['3', '1']), [1, 1, 0, 1, 1, 0, 0, 0, 1, 1, 0]),
  ((['@'], ['@'], ['3', '2']), [1, 1, 0, 0, 0, 1, 1, 0, 1, 1, 0]),
  ((['A'], ['A'], ['3', '3']), [1, 0, 1, 0, 0, 0, 1, 1, 0, 0, 0]),
  ((['B'], ['B'], ['3', '4']), [1, 0, 0, 0, 1, 0, 1, 1, 0, 0, 0]),
  ((['C'], ['C'], ['3', '5']), [1, 0, 0, 0, 1, 0, 0, 0, 1, 1, 0]),
  ((['D'], ['D'], ['3', '6']), [1, 0, 1, 1, 0, 0, 0, 1, 0, 0, 0]),
  ((['E'], ['E'], ['3', '7']), [1, 0, 0, 0, 1, 1, 0, 1, 0, 0, 0]),
  ((['F'], ['F'], ['3', '8']), [1, 0, 0, 0, 1, 1, 0, 0, 0, 1, 0]),
  ((['G'], ['G'], ['3', '9']), [1, 1, 0, 1, 0, 0, 0, 1, 0, 0, 0]),
  ((['H'], ['H'], ['4', '0']), [1, 1, 0, 0, 0, 1, 0, 1, 0, 0, 0]),
  ((['I'], ['I'], ['4', '1']), [1, 1, 0, 0, 0, 1, 0, 0, 0, 1, 0]),
  ((['J'], ['J'], ['4', '2']), [1, 0, 1, 1, 0, 1, 1, 1, 0, 0, 0]),
  ((['K'], ['K'], ['4', '3']), [1, 0, 1, 1, 0, 0, 0, 1, 1, 1, 0]),
  ((['L'], ['L'], ['4', '4']), [1, 0, 0, 0, 1, 1, 0, 1, 1, 1, 0]),
  ((['M'], ['M'], ['4', '5']), [1, 0, 1, 1, 1, 0, 1, 1, 0, 0, 0]),
  ((['N'], ['N'], ['4', '6']), [1, 0, 1, 1, 1, 0, 0, 0, 1, 1, 0]),
  ((['O'], ['O'], ['4', '7']), [1, 0, 0, 0, 1, 1, 1, 0, 1, 1, 0]),
  ((['P'], ['P'], ['4', '8']), [1, 1, 1, 0, 1, 1, 1, 0, 1, 1, 0]),
  ((['Q'], ['Q'], ['4', '9']), [1, 1, 0, 1, 0, 0, 0, 1, 1, 1, 0]),
  ((['R'], ['R'], ['5', '0']), [1, 1, 0, 0, 0, 1, 0, 1, 1, 1, 0]),
  ((['S'], ['S'], ['5', '1']), [1, 1, 0, 1, 1, 1, 0, 1, 0, 0, 0]),
  ((['T'], ['T'], ['5', '2']), [1, 1, 0, 1, 1, 1, 0, 0, 0, 1, 0]),
  ((['U'], ['U'], ['5', '3']), [1, 1, 0, 1, 1, 1, 0, 1, 1, 1, 0]),
  ((['V'], ['V'], ['5', '4']), [1, 1, 1, 0, 1, 0, 1, 1, 0, 0, 0]),
  ((['W'], ['W'], ['5', '5']), [1, 1, 1, 0, 1, 0, 0, 0, 1, 1, 0]),
  ((['X'], ['X'], ['5', '6']), [1, 1, 1, 0, 0, 0, 1, 0, 1, 1, 0]),
  ((['Y'], ['Y'], ['5', '7']), [1, 1, 1, 0, 1, 1, 0, 1, 0, 0, 0]),
  ((['Z'], ['Z'], ['5', '8']), [1, 1, 1, 0, 1, 1, 0, 0, 0, 1, 0]),
  ((['['], ['['], ['5', '9']), [1, 1, 1, 0, 0, 0, 1, 1, 0, 1, 0]),
  ((['\\'], ['\\'], ['6', '0']), [1, 1, 1, 0, 1, 1, 1, 1, 0, 1, 0]),
  (([']'], [']'], ['6', '1']), [1, 1, 0, 0, 1, 0, 0, 0, 0, 1, 0]),
  ((['^'], ['^'], ['6', '2']), [1, 1, 1, 1, 0, 0, 0, 1, 0, 1, 0]),
  ((['_'], ['_'], ['6', '3']), [1, 0, 1, 0, 0, 1, 1, 0, 0, 0, 0]),
  ((['\u0000'], ['`'], ['6', '4']), [1, 0, 1, 0, 0, 0, 0, 1, 1, 0, 0]),
  ((['\u0001'], ['a'], ['6', '5']), [1, 0, 0, 1, 0, 1, 1, 0, 0, 0, 0]),
  ((['\u0002'], ['b'], ['6', '6']), [1, 0, 0, 1, 0, 0, 0, 0, 1, 1, 0]),
  ((['\u0003'], ['c'], ['6', '7']), [1, 0, 0, 0, 0, 1, 0, 1, 1, 0, 0]),
  ((['\u0004'], ['d'], ['6', '8']), [1, 0, 0, 0, 0, 1, 0, 0, 1, 1, 0]),
  ((['\u0005'], ['e'], ['6', '9']), [1, 0, 1, 1, 0, 0, 1, 0, 0, 0, 0]),
  ((['\u0006'], ['f'], ['7', '0']), [1, 0, 1, 1, 0, 0, 0, 0, 1, 0, 0]),
  ((['\u0007'], ['g'], ['7', '1']), [1, 0, 0, 1, 1, 0, 1, 0, 0, 0, 0]),
  ((['\u0008'], ['h'], ['7', '2']), [1, 0, 0, 1, 1, 0, 0, 0, 0, 1, 0]),
  ((['\u0009'], ['i'], ['7', '3']), [1, 0, 0, 0, 0, 1, 1, 0, 1, 0, 0]),
  ((['\u000a'], ['j'], ['7', '4']), [1, 0, 0, 0, 0, 1, 1, 0, 0, 1, 0]),
  ((['\u000b'], ['k'], ['7', '5']), [1, 1, 0, 0, 0, 0, 1, 0, 0, 1, 0]),
  ((['\u000c'], ['l'], ['7', '6']), [1, 1, 0, 0, 1, 0, 1, 0, 0, 0, 0]),
  ((['\u000d'], ['m'], ['7', '7']), [1, 1, 1, 1, 0, 1, 1, 1, 0, 1, 0]),
  ((['\u000e'], ['n'], ['7', '8']), [1, 1, 0, 0, 0, 0, 1, 0, 1, 0, 0]),
  ((['\u000f'], ['o'], ['7', '9']), [1, 0, 0, 0, 1, 1, 1, 1, 0, 1, 0]),
  ((['\u0010'], ['p'], ['8', '0']), [1, 0, 1, 0, 0, 1, 1, 1, 1, 0, 0]),
  ((['\u0011'], ['q'], ['8', '1']), [1, 0, 0, 1, 0, 1, 1, 1, 1, 0, 0]),
  ((['\u0012'], ['r'], ['8', '2']), [1, 0, 0, 1, 0, 0, 1, 1, 1, 1, 0]),
  ((['\u0013'], ['s'], ['8', '3']), [1, 0, 1, 1, 1, 1, 0, 0, 1, 0, 0]),
  ((['\u0014'], ['t'], ['8', '4']), [1, 0, 0, 1, 1, 1, 1, 0, 1, 0, 0]),
  ((['\u0015'], ['u'], ['8', '5']), [1, 0, 0, 1, 1, 1, 1, 0, 0, 1, 0]),
  ((['\u0016'], ['v'], ['8', '6']), [1, 1, 1, 1, 0, 1, 0, 0, 1, 0, 0]),
  ((['\u0017'], ['w'], ['8', '7']), [1, 1, 1, 1, 0, 0, 1, 0, 1, 0, 0]),
  ((['\u0018'], ['x'], ['8', '8']), [1, 1, 1, 1, 0, 0, 1, 0, 0, 1, 0]),
  ((['\u0019'], ['y'], ['8', '9']), [1, 1, 0, 1, 1, 0, 1, 1, 1, 1, 0]),
  ((['\u001a'], ['z'], ['9', '0']), [1, 1, 0, 1, 1, 1, 1, 0, 1, 1, 0]),
  ((['\u001b'], ['{'], ['9', '1']), [1, 1, 1, 1, 0, 1, 1, 0, 1, 1, 0]),
  ((['\u001c'], ['|'], ['9', '2']), [1, 0, 1, 0, 1, 1, 1, 1, 0, 0, 0]),
  ((['\u001d'], ['}'], ['9', '3']), [1, 0, 1, 0, 0, 0, 1, 1, 1, 1, 0]),
  ((['\u001e'], ['~'], ['9', '4']), [1, 0, 0, 0, 1, 0, 1, 1, 1, 1, 0]),
  ((['\u001f'], ['\u00f7'], ['9', '5']), [1, 0, 1, 1, 1, 1, 0, 1, 0, 0, 0]),
  ((['\u017b'], ['\u017b'], ['9', '6']), [1, 0, 1, 1, 1, 1, 0, 0, 0, 1, 0]),
  ((['\u017a'], ['\u017a'], ['9', '7']), [1, 1, 1, 1, 0, 1, 0, 1, 0, 0, 0]),
  ((['\u017d'], ['\u017d'], ['9', '8']), [1, 1, 1, 1, 0, 1, 0, 0, 0, 1, 0]),
  ((['Ć'], ['Ć'], ['9', '9']), [1, 0, 1, 1, 1, 0, 1, 1, 1, 1, 0]),
  ((['Ɓ'], ['\u017c'], ['Ɓ']), [1, 0, 1, 1, 1, 1, 0, 1, 1, 1, 0]),
  ((['\u017c'], ['À'], ['À']), [1, 1, 1, 0, 1, 0, 1, 1, 1, 1, 0]),
  ((['\u0179'], ['\u0179'], ['\u0179']), [1, 1, 1, 1, 0, 1, 0, 1, 1, 1, 0]),
  ((['S', 'T', 'A', 'R', 'T', '-', 'À'], ['S', 'T', 'A', 'R', 'T', '-', 'À'], ['S', 'T', 'A', 'R', 'T', '-', 'À']), [1, 1, 0, 1, 0, 0, 0, 0, 1, 0, 0]),
  ((['S', 'T', 'A', 'R', 'T', '-', 'Ɓ'], ['S', 'T', 'A', 'R', 'T', '-', 'Ɓ'], ['S', 'T', 'A', 'R', 'T', '-', 'Ɓ']), [1, 1, 0, 1, 0, 0, 1, 0, 0, 0, 0]),
  ((['S', 'T', 'A', 'R', 'T', '-', 'Ć'], ['S', 'T', 'A', 'R', 'T', '-', 'Ć'], ['S', 'T', 'A', 'R', 'T', '-', 'Ć']), [1, 1, 0, 1, 0, 0, 1, 1, 1, 0, 0])]

/-- `src/sym/code128.rs` line 220: `STOP`. -/
def STOP : List Nat := [1, 1, 0, 0, 0, 1, 1, 1, 0, 1, 0]
/-- `src/sym/code128.rs` line 223: `TERM`. -/
def TERM : List Nat := [1, 1]

/-- `src/sym/code128.rs` lines 68-73: `enum UnitKind`. -/
inductive UnitKind where
  | A
  | B
  | C
  deriving DecidableEq, Repr

/-- `src/sym/code128.rs` lines 62-66: `struct Unit`. -/
structure Unit where
  kind : UnitKind
  index : Nat
  deriving DecidableEq, Repr

/-- `src/sym/code128.rs` lines 77-83: `enum CharacterSet`. -/
inductive CharacterSet where
  | A
  | B
  | C
  | none
  deriving DecidableEq, Repr

/-- `src/sym/code128.rs` line 240: `struct Code128(Vec<Unit>)` (the field is private). -/
structure Code128 where
  units : List Unit
  deriving DecidableEq, Repr

/-- `src/sym/code128.rs` lines 249-256: `CharacterSet::from_char`. -/
def CharacterSet.fromChar (c : Char) : Outcome CharacterSet :=
  if c = 'À' then .ok .A
  else if c = 'Ɓ' then .ok .B
  else if c = 'Ć' then .ok .C
  else .err .character

/-- `src/sym/code128.rs` lines 258-266: `CharacterSet::unit`. -/
def CharacterSet.unit (s : CharacterSet) (n : Nat) : Outcome Unit :=
  match s with
  | .A => .ok ⟨.A, n⟩
  | .B => .ok ⟨.B, n⟩
  | .C => .ok ⟨.C, n⟩
  | .none => .err .character

/-- `src/sym/code128.rs` lines 268-275 and the use `c.0[p]` of the result on line 280: selects the column of the
set. `CharacterSet::None` is an error. -/
def CharacterSet.column (s : CharacterSet) :
    Outcome ((List Char × List Char × List Char) → List Char) :=
  match s with
  | .A => .ok (fun t => t.1)
  | .B => .ok (fun t => t.2.1)
  | .C => .ok (fun t => t.2.2)
  | .none => .err .character

/-- `src/sym/code128.rs` lines 277-284: `CharacterSet::lookup`. -/
def CharacterSet.lookup (set : CharacterSet) (s : List Char) : Outcome Unit := do
  let p ← set.column
  match CHARS.findIdx? (fun c => p c.1 == s) with
  | some i => set.unit i
  | Option.none => .err .character

/-- The variables of the loop in `Code128::parse`, `src/sym/code128.rs` lines 301-303. -/
structure PState where
  units : List Unit
  charSet : CharacterSet
  carry : Option Char
  deriving DecidableEq, Repr

/-- The literal text of `format!("START-{}", ch)`, `src/sym/code128.rs` line 310. -/
def startName (ch : Char) : List Char := ['S', 'T', 'A', 'R', 'T', '-', ch]

/-- The loop body of `Code128::parse`, `src/sym/code128.rs` lines 306-337. -/
def parseStep (st : PState) (ch : Char) : Outcome PState :=
  if (ch = 'À' ∨ ch = 'Ɓ' ∨ ch = 'Ć') ∧ st.units.isEmpty then do
    let charSet ← CharacterSet.fromChar ch
    let u ← charSet.lookup (startName ch)
    .ok { st with units := st.units ++ [u], charSet := charSet }
  else if ch = 'À' ∨ ch = 'Ɓ' ∨ ch = 'Ć' then
    if st.charSet = .C ∧ st.carry.isSome then .err .character
    else do
      let u ← st.charSet.lookup [ch]
      let charSet ← CharacterSet.fromChar ch
      .ok { st with units := st.units ++ [u], charSet := charSet }
  else if isAsciiDigit ch ∧ st.charSet = .C then
    match st.carry with
    | Option.none => .ok { st with carry := some ch }
    | some n => do
      let u ← st.charSet.lookup [n, ch]
      .ok { st with units := st.units ++ [u], carry := Option.none }
  else do
    let u ← st.charSet.lookup [ch]
    .ok { st with units := st.units ++ [u] }

/-- `src/sym/code128.rs` lines 300-344: `Code128::parse`. -/
def parseUnits (chars : List Char) : Outcome (List Unit) := do
  let st ← foldO parseStep ⟨[], .none, Option.none⟩ chars
  match st.carry with
  | some _ => .err .character
  | Option.none => .ok st.units

/-- `src/sym/code128.rs` lines 290-297: `Code128::new`. -/
def new (data : List Char) : Outcome Code128 :=
  if strLen data < 2 then .err .length
  else do
    let units ← parseUnits data
    .ok ⟨units⟩

/-- The closure of the fold, `src/sym/code128.rs` line 352: `t + (u.index() as i32 * cmp::max(1, i))` in `i32`.
`u.index() as i32` is exact (an index is below 106). -/
def checksumStep (b : Build) (t : Int) (p : Unit × Int) : Outcome Int := do
  let prod ← i32 b (asI32 p.1.index * max 1 p.2)
  i32 b (t + prod)

/-- `0..n as i32` (`src/sym/code128.rs` line 351): empty if the cast is not positive. -/
def rangeI32 (n : Nat) : List Int := (List.range (asI32 n).toNat).map Int.ofNat

/-- `src/sym/code128.rs` lines 347-355: `checksum_value`. Rust's `%` truncates, hence `Int.tmod`. -/
def checksumValue (b : Build) (x : Code128) : Outcome Nat := do
  let sum ← foldO (checksumStep b) 0 (x.units.zip (rangeI32 x.units.length))
  .ok (asU8 (sum.tmod 103))

/-- `src/sym/code128.rs` lines 365-367: `unit_encoding`. -/
def unitEncoding (u : Unit) : Outcome (List Nat) := do
  let row ← idx CHARS u.index
  .ok row.2

/-- `src/sym/code128.rs` lines 357-363: `checksum_encoding`. -/
def checksumEncoding (b : Build) (x : Code128) : Outcome (List Nat) := do
  let v ← checksumValue b x
  unitEncoding ⟨.A, v⟩

/-- `src/sym/code128.rs` lines 369-373: `payload`. -/
def payload (x : Code128) : Outcome (List Nat) := do
  let slices ← mapO unitEncoding x.units
  .ok (joinIters slices)

/-- `src/sym/code128.rs` lines 377-386: `encode`. -/
def encode (b : Build) (x : Code128) : Outcome (List Nat) := do
  let p ← payload x
  let c ← checksumEncoding b x
  .ok (joinSlices [p, c, STOP, TERM])

end Barcoders.Code128
