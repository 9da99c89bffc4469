import Verif.Spec.TwoOfFive

/-!
# Code 128 (ISO/IEC 15417)

Symbols are written in the notation of the library's documentation: `À`, `Ɓ`, `Ć` for the code sets (as start or as switch),
`Ź`, `ź`, `Ż`, `ż` for FNC1 to FNC4, `Ž` for SHIFT and `÷` for DEL.
-/

set_option autoImplicit false

namespace Spec

/-- The three code sets. -/
inductive CodeSet where
  | A
  | B
  | C
  deriving DecidableEq, Repr

def fnc1 : Char := '\u0179'
def fnc2 : Char := '\u017a'
def fnc3 : Char := '\u017b'
def fnc4 : Char := '\u017c'
def shiftChar : Char := '\u017d'
def delChar : Char := '\u00f7'

/-- The character that selects a code set. -/
def CodeSet.char : CodeSet → Char
  | .A => 'À'
  | .B => 'Ɓ'
  | .C => 'Ć'

/-- The start symbol of a code set. -/
def CodeSet.start : CodeSet → Nat
  | .A => 103
  | .B => 104
  | .C => 105

/-- Element widths of the symbols 0 to 105 (ISO/IEC 15417, table 1). -/
def code128Chart : List (List Nat) := [
  [2, 1, 2, 2, 2, 2], [2, 2, 2, 1, 2, 2], [2, 2, 2, 2, 2, 1], [1, 2, 1, 2, 2, 3], [1, 2, 1, 3, 2, 2], [1, 3, 1, 2, 2, 2],
  [1, 2, 2, 2, 1, 3], [1, 2, 2, 3, 1, 2], [1, 3, 2, 2, 1, 2], [2, 2, 1, 2, 1, 3], [2, 2, 1, 3, 1, 2], [2, 3, 1, 2, 1, 2],
  [1, 1, 2, 2, 3, 2], [1, 2, 2, 1, 3, 2], [1, 2, 2, 2, 3, 1], [1, 1, 3, 2, 2, 2], [1, 2, 3, 1, 2, 2], [1, 2, 3, 2, 2, 1],
  [2, 2, 3, 2, 1, 1], [2, 2, 1, 1, 3, 2], [2, 2, 1, 2, 3, 1], [2, 1, 3, 2, 1, 2], [2, 2, 3, 1, 1, 2], [3, 1, 2, 1, 3, 1],
  [3, 1, 1, 2, 2, 2], [3, 2, 1, 1, 2, 2], [3, 2, 1, 2, 2, 1], [3, 1, 2, 2, 1, 2], [3, 2, 2, 1, 1, 2], [3, 2, 2, 2, 1, 1],
  [2, 1, 2, 1, 2, 3], [2, 1, 2, 3, 2, 1], [2, 3, 2, 1, 2, 1], [1, 1, 1, 3, 2, 3], [1, 3, 1, 1, 2, 3], [1, 3, 1, 3, 2, 1],
  [1, 1, 2, 3, 1, 3], [1, 3, 2, 1, 1, 3], [1, 3, 2, 3, 1, 1], [2, 1, 1, 3, 1, 3], [2, 3, 1, 1, 1, 3], [2, 3, 1, 3, 1, 1],
  [1, 1, 2, 1, 3, 3], [1, 1, 2, 3, 3, 1], [1, 3, 2, 1, 3, 1], [1, 1, 3, 1, 2, 3], [1, 1, 3, 3, 2, 1], [1, 3, 3, 1, 2, 1],
  [3, 1, 3, 1, 2, 1], [2, 1, 1, 3, 3, 1], [2, 3, 1, 1, 3, 1], [2, 1, 3, 1, 1, 3], [2, 1, 3, 3, 1, 1], [2, 1, 3, 1, 3, 1],
  [3, 1, 1, 1, 2, 3], [3, 1, 1, 3, 2, 1], [3, 3, 1, 1, 2, 1], [3, 1, 2, 1, 1, 3], [3, 1, 2, 3, 1, 1], [3, 3, 2, 1, 1, 1],
  [3, 1, 4, 1, 1, 1], [2, 2, 1, 4, 1, 1], [4, 3, 1, 1, 1, 1], [1, 1, 1, 2, 2, 4], [1, 1, 1, 4, 2, 2], [1, 2, 1, 1, 2, 4],
  [1, 2, 1, 4, 2, 1], [1, 4, 1, 1, 2, 2], [1, 4, 1, 2, 2, 1], [1, 1, 2, 2, 1, 4], [1, 1, 2, 4, 1, 2], [1, 2, 2, 1, 1, 4],
  [1, 2, 2, 4, 1, 1], [1, 4, 2, 1, 1, 2], [1, 4, 2, 2, 1, 1], [2, 4, 1, 2, 1, 1], [2, 2, 1, 1, 1, 4], [4, 1, 3, 1, 1, 1],
  [2, 4, 1, 1, 1, 2], [1, 3, 4, 1, 1, 1], [1, 1, 1, 2, 4, 2], [1, 2, 1, 1, 4, 2], [1, 2, 1, 2, 4, 1], [1, 1, 4, 2, 1, 2],
  [1, 2, 4, 1, 1, 2], [1, 2, 4, 2, 1, 1], [4, 1, 1, 2, 1, 2], [4, 2, 1, 1, 1, 2], [4, 2, 1, 2, 1, 1], [2, 1, 2, 1, 4, 1],
  [2, 1, 4, 1, 2, 1], [4, 1, 2, 1, 2, 1], [1, 1, 1, 1, 4, 3], [1, 1, 1, 3, 4, 1], [1, 3, 1, 1, 4, 1], [1, 1, 4, 1, 1, 3],
  [1, 1, 4, 3, 1, 1], [4, 1, 1, 1, 1, 3], [4, 1, 1, 3, 1, 1], [1, 1, 3, 1, 4, 1], [1, 1, 4, 1, 3, 1], [3, 1, 1, 1, 4, 1],
  [4, 1, 1, 1, 3, 1], [2, 1, 1, 4, 1, 2], [2, 1, 1, 2, 1, 4], [2, 1, 1, 2, 3, 2]]

/-- Element widths of the stop pattern. -/
def code128Stop : List Nat := [2, 3, 3, 1, 1, 1, 2]

/-- What symbol `v` (below 103) means in a code set. -/
def code128Text (set : CodeSet) (v : Nat) : Option (List Char) :=
  match set with
  | .C =>
    if v < 100 then some [Char.ofNat (48 + v / 10), Char.ofNat (48 + v % 10)]
    else if v = 100 then some [CodeSet.B.char]
    else if v = 101 then some [CodeSet.A.char]
    else if v = 102 then some [fnc1]
    else none
  | .A =>
    if v < 64 then some [Char.ofNat (v + 32)]
    else if v < 96 then some [Char.ofNat (v - 64)]
    else if v = 96 then some [fnc3]
    else if v = 97 then some [fnc2]
    else if v = 98 then some [shiftChar]
    else if v = 99 then some [CodeSet.C.char]
    else if v = 100 then some [CodeSet.B.char]
    else if v = 101 then some [fnc4]
    else if v = 102 then some [fnc1]
    else none
  | .B =>
    if v < 95 then some [Char.ofNat (v + 32)]
    else if v = 95 then some [delChar]
    else if v = 96 then some [fnc3]
    else if v = 97 then some [fnc2]
    else if v = 98 then some [shiftChar]
    else if v = 99 then some [CodeSet.C.char]
    else if v = 100 then some [fnc4]
    else if v = 101 then some [CodeSet.A.char]
    else if v = 102 then some [fnc1]
    else none

/-- The code set after symbol `v`. -/
def code128Next (set : CodeSet) (v : Nat) : CodeSet :=
  if v = 99 ∧ set ≠ .C then .C
  else if v = 100 ∧ set ≠ .B then .B
  else if v = 101 ∧ set ≠ .A then .A
  else set

/-- The text of a sequence of symbols. -/
def code128Decode (set : CodeSet) : List Nat → Option (List Char)
  | [] => some []
  | v :: vs => do
    let t ← code128Text set v
    let r ← code128Decode (code128Next set v) vs
    some (t ++ r)

/-- `k·v₁ + (k+1)·v₂ + …` -/
def positionSum (k : Nat) : List Nat → Nat
  | [] => 0
  | v :: vs => k * v + positionSum (k + 1) vs

/-- The check sum of a start symbol and data symbols, before reduction. -/
def code128Sum (start : Nat) (data : List Nat) : Nat := start + positionSum 1 data

/-- Read all symbols of a picture: start, data and check symbols, without the stop pattern. -/
def readCode128 (ms : List Nat) : Option (List Nat) := do
  let es ← elements ms
  let es ← expectEnd code128Stop es
  readAll 6 code128Chart.idxOf? es

/-- Verify and remove the check symbol; the result is the start and the data symbols. -/
def verifyCode128 (vs : List Nat) : Option (Nat × List Nat) :=
  match vs with
  | [] => none
  | start :: rest =>
    match rest.getLast? with
    | none => none
    | some c => if c = code128Sum start rest.dropLast % 103 then some (start, rest.dropLast) else none

/-- Which set a start symbol selects. -/
def code128Start (v : Nat) : Option CodeSet :=
  if v = 103 then some .A else if v = 104 then some .B else if v = 105 then some .C else none

/-- The Code 128 reader, writing what it sees in the notation above. -/
def scanCode128 (ms : List Nat) : Option (List Char) := do
  let vs ← readCode128 ms
  let (start, data) ← verifyCode128 vs
  let set ← code128Start start
  let t ← code128Decode set data
  some (set.char :: t)

/-! ## Well-formed data -/

/-- The single characters (other than set switches) of each code set. -/
def code128Single : CodeSet → Char → Prop
  | .A, c => c.toNat < 96 ∨ c = fnc1 ∨ c = fnc2 ∨ c = fnc3 ∨ c = fnc4 ∨ c = shiftChar
  | .B, c => (32 ≤ c.toNat ∧ c.toNat < 127) ∨ c = delChar ∨ c = fnc1 ∨ c = fnc2 ∨ c = fnc3 ∨ c = fnc4 ∨ c = shiftChar
  | .C, c => c = fnc1

instance (set : CodeSet) (c : Char) : Decidable (code128Single set c) := by
  cases set <;> unfold code128Single <;> infer_instance

/-- Well-formed data after a code set has been selected. `n = 0` is the ordinary pair; the library also accepts FNC1
characters between the two digits. -/
inductive Code128Data : CodeSet → List Char → Prop
  | nil (set : CodeSet) : Code128Data set []
  | single (set : CodeSet) (c : Char) (s : List Char) : code128Single set c → Code128Data set s → Code128Data set (c :: s)
  | pair (d e : Char) (n : Nat) (s : List Char) : d.isDigit → e.isDigit → Code128Data .C s →
      Code128Data .C (d :: (List.replicate n fnc1 ++ e :: s))
  | switch (set set' : CodeSet) (s : List Char) : set ≠ set' → Code128Data set' s → Code128Data set (set'.char :: s)

/-- Well-formed data in which the digits of set C come in adjacent pairs. -/
inductive Code128Strict : CodeSet → List Char → Prop
  | nil (set : CodeSet) : Code128Strict set []
  | single (set : CodeSet) (c : Char) (s : List Char) : code128Single set c → Code128Strict set s →
      Code128Strict set (c :: s)
  | pair (d e : Char) (s : List Char) : d.isDigit → e.isDigit → Code128Strict .C s → Code128Strict .C (d :: e :: s)
  | switch (set set' : CodeSet) (s : List Char) : set ≠ set' → Code128Strict set' s →
      Code128Strict set (set'.char :: s)

/-- The whole string: a code-set character, then data of that set. -/
def Code128WellFormed (s : List Char) : Prop := ∃ (set : CodeSet) (r : List Char), s = set.char :: r ∧ Code128Data set r

/-- The same with adjacent digit pairs. -/
def Code128StrictForm (s : List Char) : Prop := ∃ (set : CodeSet) (r : List Char), s = set.char :: r ∧ Code128Strict set r

/-- Move a digit of set C that waits for its partner behind the FNC1 characters in between. -/
def regroup (set : CodeSet) (pending : Option Char) : List Char → List Char
  | [] => pending.toList
  | c :: s =>
    if c = 'À' then pending.toList ++ c :: regroup .A none s
    else if c = 'Ɓ' then pending.toList ++ c :: regroup .B none s
    else if c = 'Ć' then pending.toList ++ c :: regroup .C none s
    else if set = .C ∧ c.isDigit then
      match pending with
      | none => regroup .C (some c) s
      | some d => d :: c :: regroup .C none s
    else c :: regroup set pending s

/-- The whole string regrouped. -/
def code128Regroup : List Char → List Char
  | 'À' :: r => 'À' :: regroup .A none r
  | 'Ɓ' :: r => 'Ɓ' :: regroup .B none r
  | 'Ć' :: r => 'Ć' :: regroup .C none r
  | s => s

/-- Number of digits written while set C is selected: two of them make one symbol, any other character is one symbol. -/
def setCDigits (set : CodeSet) : List Char → Nat
  | [] => 0
  | c :: s =>
    if c = 'À' then setCDigits .A s
    else if c = 'Ɓ' then setCDigits .B s
    else if c = 'Ć' then setCDigits .C s
    else if set = .C ∧ c.isDigit then 1 + setCDigits set s
    else setCDigits set s

end Spec
