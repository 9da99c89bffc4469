import Verif.Spec.Elements
import Verif.Spec.Cyclic

/-!
# Code 93 (AIM USS-93), on element widths
-/

set_option autoImplicit false

namespace Spec

/-- Characters in the order of their check values. The four shift characters `($) (%) (/) (+)` of the standard are
written `( ) [ ]`. -/
def code93Alphabet : List Char := "0123456789ABCDEFGHIJKLMNOPQRSTUVWXYZ-. $/+%()[]".toList

/-- Element widths (bar, space, bar, space, bar, space) in that order. -/
def code93Widths : List Nat :=
  [131112, 111213, 111312, 111411, 121113, 121212, 121311, 111114, 131211, 141111, 211113, 211212, 211311, 221112,
   221211, 231111, 112113, 112212, 112311, 122112, 132111, 111123, 111222, 111321, 121122, 131121, 212112, 212211,
   211122, 211221, 221121, 222111, 112122, 112221, 122121, 123111, 121131, 311112, 311211, 321111, 112131, 113121,
   211131, 121221, 312111, 311121, 122211]

/-- The decimal digits of a number. -/
def digitList (n : Nat) : List Nat := (Nat.toDigits 10 n).map (fun c => c.toNat - 48)

/-- All characters with their widths, and the start/stop character `*`. -/
def code93Chart : List (Char × List Nat) :=
  code93Alphabet.zip (code93Widths.map digitList) ++ [('*', digitList 111141)]

/-- Read one character. -/
def readCode93Char (w : List Nat) : Option Char := (code93Chart.find? (fun p => p.2 == w)).map Prod.fst

/-- Check value of a character. -/
def code93Value (c : Char) : Nat := code93Alphabet.idxOf c

/-- The modulo-47 check character of a text, with weights `1 … n` repeating from the right. -/
def code93Check (n : Nat) (s : List Char) : Char :=
  code93Alphabet.getD (cyclicSum n 0 (s.map code93Value).reverse % 47) ' '

/-- The characters between start and stop, check characters included. -/
def readCode93 (ms : List Nat) : Option (List Char) := do
  let es ← elements ms
  let body ← if es.getLast? = some 1 then some es.dropLast else none
  let cs ← readAll 6 readCode93Char body
  if cs.length ≥ 2 ∧ cs.head? = some '*' ∧ cs.getLast? = some '*' ∧ '*' ∉ cs.tail.dropLast then some cs.tail.dropLast
  else none

/-- Verify and strip C (weights up to 20) and K (weights up to 15, C included). -/
def verifyCode93 (cs : List Char) : Option (List Char) :=
  let data := cs.dropLast.dropLast
  if cs.length ≥ 2 ∧ cs = data ++ [code93Check 20 data, code93Check 15 (data ++ [code93Check 20 data])] then some data
  else none

/-- The Code 93 scanner. -/
def scanCode93 (ms : List Nat) : Option (List Char) := (readCode93 ms).bind verifyCode93

end Spec
