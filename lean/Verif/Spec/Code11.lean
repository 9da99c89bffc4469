import Verif.Spec.Elements
import Verif.Spec.Cyclic

/-!
# Code 11 (USD-8), on element widths

Narrow elements are one module wide, wide elements two, the gap between characters one.
-/

set_option autoImplicit false

namespace Spec

/-- Data characters in the order of their check values. -/
def code11Alphabet : List Char := "0123456789-".toList

/-- Narrow (`N`) and wide (`W`) elements: bar, space, bar, space, bar. -/
def code11Patterns : List String :=
  ["NNNNW", "WNNNW", "NWNNW", "WWNNN", "NNWNW", "WNWNN", "NWWNN", "NNNWW", "WNNWN", "WNNNN", "NNWNN"]

/-- All characters with their widths, and the start/stop character `*`. -/
def code11Chart : List (Char × List Nat) :=
  (code11Alphabet.zip code11Patterns ++ [('*', "NNWWN")]).map
    (fun p => (p.1, p.2.toList.map (fun c => if c = 'W' then 2 else 1)))

/-- Read five elements and the gap that follows them. -/
def readCode11Char (w : List Nat) : Option Char :=
  if w.drop 5 = [1] then (code11Chart.find? (fun p => p.2 == w.take 5)).map Prod.fst else none

/-- The characters between start and stop, check characters included. -/
def readCode11 (ms : List Nat) : Option (List Char) := do
  let es ← elements ms
  let cs ← readAll 6 readCode11Char (es ++ [1])
  if cs.length ≥ 2 ∧ cs.head? = some '*' ∧ cs.getLast? = some '*' ∧ '*' ∉ cs.tail.dropLast then some cs.tail.dropLast
  else none

/-- Check value of a character. -/
def code11Value (c : Char) : Nat := code11Alphabet.idxOf c

/-- The modulo-11 check character of a text, with weights `1 … n` repeating from the right. -/
def code11Check (n : Nat) (s : List Char) : Char :=
  code11Alphabet.getD (cyclicSum n 0 (s.map code11Value).reverse % 11) ' '

/-- Verify and strip the check characters: C (weights up to 10) for up to ten data characters; C and K (weights up to 9,
C included) for more. -/
def verifyCode11 (cs : List Char) : Option (List Char) :=
  if 1 ≤ cs.length ∧ cs.length ≤ 11 then
    let data := cs.dropLast
    if cs = data ++ [code11Check 10 data] then some data else none
  else if 13 ≤ cs.length then
    let data := cs.dropLast.dropLast
    if cs = data ++ [code11Check 10 data, code11Check 9 (data ++ [code11Check 10 data])] then some data else none
  else none

/-- The Code 11 scanner. -/
def scanCode11 (ms : List Nat) : Option (List Char) := (readCode11 ms).bind verifyCode11

end Spec
