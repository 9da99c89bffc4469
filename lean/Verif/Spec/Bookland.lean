import Verif.Spec.Gs1

/-!
# Book and serial numbers in EAN-13

A ten-character ISBN (ISO 2108:1992) has nine digits, an ISSN (ISO 3297) seven; a check character follows, `X` standing for
ten. With weights falling to 1 at the check character the sum is a multiple of eleven. In an EAN-13 symbol the digits stand
behind 978 or 977; the check character is left out.
-/

set_option autoImplicit false

namespace Spec

/-- Value of a digit or of the check character `X`. -/
def bookValue (c : Char) : Nat := if c = 'X' then 10 else digitValue c

/-- `k·v₁ + (k-1)·v₂ + …` -/
def fallingSum : Nat → List Nat → Nat
  | _, [] => 0
  | k, v :: vs => k * v + fallingSum (k - 1) vs

/-- `n` digits and the right check character. -/
def BookNumber (n : Nat) (s : List Char) : Prop :=
  ∃ d c, s = d ++ [c] ∧ d.length = n ∧ AllDigits d ∧ (c.isDigit = true ∨ c = 'X') ∧
    fallingSum (n + 1) (s.map bookValue) % 11 = 0

/-- A ten-character ISBN. -/
def Isbn10 (s : List Char) : Prop := BookNumber 9 s

/-- An ISSN. -/
def Issn (s : List Char) : Prop := BookNumber 7 s

/-- Put the check character back: the one that makes the sum right. -/
def completeBook (ds : List Nat) : Option (List Char) :=
  let d := ds.map (fun v => Char.ofNat (48 + v))
  ("0123456789X".toList.find? (fun c => decide (fallingSum (ds.length + 1) ((d ++ [c]).map bookValue) % 11 = 0))).map
    (fun c => d ++ [c])

/-- The ISBN of a book by its article number. -/
def isbnOf (number : List Nat) : Option (List Char) :=
  if number.take 3 = [9, 7, 8] then completeBook ((number.drop 3).take 9) else none

/-- The ISSN of a journal by its article number. -/
def issnOf (number : List Nat) : Option (List Char) :=
  if number.take 3 = [9, 7, 7] then completeBook ((number.drop 3).take 7) else none

example : isbnOf [9, 7, 8, 0, 3, 0, 6, 4, 0, 6, 1, 5, 7] = some "0306406152".toList := by decide
example : isbnOf [9, 7, 8, 0, 8, 0, 4, 4, 2, 9, 5, 7, 3] = some "080442957X".toList := by decide
example : issnOf [9, 7, 7, 0, 3, 1, 7, 8, 4, 7, 0, 0, 1] = some "03178471".toList := by decide

end Spec
