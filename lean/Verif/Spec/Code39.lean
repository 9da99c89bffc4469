import Verif.Spec.Elements

/-!
# Code 39 (ISO/IEC 16388), on element widths

Narrow elements are one module wide, wide elements two, the gap between characters one.
-/

set_option autoImplicit false

namespace Spec

/-- The 43 data characters in the order of their check values. -/
def code39Alphabet : List Char := "0123456789ABCDEFGHIJKLMNOPQRSTUVWXYZ-. $/+%".toList

/-- Wide bars of the ten columns of the code chart (`W` wide, `N` narrow): a two-out-of-five code. -/
def code39Bars : List String :=
  ["WNNNW", "NWNNW", "WWNNN", "NNWNW", "WNWNN", "NWWNN", "NNNWW", "WNNWN", "NWNWN", "NNWWN"]

/-- Rows of the code chart: spaces, and the characters of the ten columns. -/
def code39Rows : List (String × String) :=
  [("NWNN", "1234567890"), ("NNWN", "ABCDEFGHIJ"), ("NNNW", "KLMNOPQRST"), ("WNNN", "UVWXYZ-. *")]

/-- The four characters with narrow bars only, and their spaces. -/
def code39Specials : List (Char × String) := [('$', "WWWN"), ('/', "WWNW"), ('+', "WNWW"), ('%', "NWWW")]

/-- Module width of an element. -/
def wn (c : Char) : Nat := if c = 'W' then 2 else 1

/-- Alternate bars and spaces. -/
def interleaved : List Char → List Char → List Char
  | b :: bs, s :: ss => b :: s :: interleaved bs ss
  | bs, _ => bs

/-- The code chart: nine element widths for each of the 44 characters (43 and the start/stop character `*`). -/
def code39Chart : List (Char × List Nat) :=
  code39Rows.flatMap (fun r => (r.2.toList.zip code39Bars).map
    (fun p => (p.1, (interleaved p.2.toList r.1.toList).map wn))) ++
  code39Specials.map (fun p => (p.1, (interleaved "NNNNN".toList p.2.toList).map wn))

/-- Read nine elements and the gap that follows them. -/
def readCode39Char (w : List Nat) : Option Char :=
  if w.drop 9 = [1] then (code39Chart.find? (fun p => p.2 == w.take 9)).map Prod.fst else none

/-- The text between the two `*`. -/
def betweenStars (cs : List Char) : Option (List Char) :=
  if cs.length ≥ 2 ∧ cs.head? = some '*' ∧ cs.getLast? = some '*' ∧ '*' ∉ cs.tail.dropLast then some cs.tail.dropLast
  else none

/-- The Code 39 scanner (no check character). -/
def scanCode39 (ms : List Nat) : Option (List Char) := do
  let es ← elements ms
  let cs ← readAll 10 readCode39Char (es ++ [1])
  betweenStars cs

/-- Check value of a character. -/
def code39Value (c : Char) : Nat := code39Alphabet.idxOf c

/-- The modulo-43 check character of a text. -/
def code39Check (s : List Char) : Char := code39Alphabet.getD ((s.map code39Value).sum % 43) ' '

/-- The scanner that verifies and strips the modulo-43 check character. -/
def scanCode39Checked (ms : List Nat) : Option (List Char) := do
  let cs ← scanCode39 ms
  if cs ≠ [] ∧ cs.getLast? = some (code39Check cs.dropLast) then some cs.dropLast else none

end Spec
