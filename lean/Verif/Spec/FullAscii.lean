import Verif.Spec.Elements

/-!
# Full ASCII mode of Code 39 and Code 93

A shift character and a letter stand for one ASCII character (ISO/IEC 16388 annex A, AIM USS-93). Code 39 uses the data
characters `$ % / +` as shifts; Code 93 has four characters of its own, which the library writes `( ) [ ]`.
-/

set_option autoImplicit false

namespace Spec

/-- The four shifts in the order `$ % / +`. -/
structure Shifts where
  dollar : Char
  percent : Char
  slash : Char
  plus : Char

def code39Shifts : Shifts := ⟨'$', '%', '/', '+'⟩
def code93Shifts : Shifts := ⟨'(', ')', '[', ']'⟩

/-- What the letters `A` to `Z` mean after `%`. -/
def afterPercent : List Nat :=
  [27, 28, 29, 30, 31, 59, 60, 61, 62, 63, 91, 92, 93, 94, 95, 123, 124, 125, 126, 127, 0, 64, 96, 127, 127, 127]

/-- What the letters `A` to `O` and `Z` mean after `/`. -/
def afterSlash (k : Nat) : Option Nat := if k < 15 then some (33 + k) else if k = 25 then some 58 else none

/-- A shift and the following character. -/
def fullAsciiPair (sh : Shifts) (s c : Char) : Option Char :=
  let k := c.toNat - 65
  if c.toNat < 65 ∨ 90 < c.toNat then none
  else if s = sh.dollar then some (Char.ofNat (k + 1))
  else if s = sh.percent then (afterPercent[k]?).map Char.ofNat
  else if s = sh.slash then (afterSlash k).map Char.ofNat
  else some (Char.ofNat (k + 97))

/-- The text a scanner in full ASCII mode makes of the characters of a symbol. -/
def fullAscii (sh : Shifts) : List Char → Option (List Char)
  | [] => some []
  | [c] => if c ∈ [sh.dollar, sh.percent, sh.slash, sh.plus] then none else some [c]
  | c :: d :: r =>
    if c ∈ [sh.dollar, sh.percent, sh.slash, sh.plus] then
      (fullAsciiPair sh c d).bind fun a => (fullAscii sh r).map (a :: ·)
    else (fullAscii sh (d :: r)).map (c :: ·)

/-- How to write one ASCII character: as itself if it is in the alphabet and no shift, otherwise as the first pair that means
it. -/
def writeAscii (alphabet : List Char) (sh : Shifts) (c : Char) : List Char :=
  if c ∈ alphabet ∧ c ∉ [sh.dollar, sh.percent, sh.slash, sh.plus] then [c]
  else
    (([sh.dollar, sh.percent, sh.slash, sh.plus].flatMap fun s => "ABCDEFGHIJKLMNOPQRSTUVWXYZ".toList.map fun l => [s, l]).find?
      fun p => match p with
        | [s, l] => fullAsciiPair sh s l == some c
        | _ => false).getD []

end Spec
