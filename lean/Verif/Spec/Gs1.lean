/-!
# Text and the GS1 check digit
-/

set_option autoImplicit false

namespace Spec

/-- Length of a string in UTF-8 bytes. -/
def byteLen (s : List Char) : Nat := (String.ofList s).utf8ByteSize

/-- All characters are ASCII digits. -/
def AllDigits (s : List Char) : Prop := ∀ c ∈ s, c.isDigit = true

instance (s : List Char) : Decidable (AllDigits s) := inferInstanceAs (Decidable (∀ c ∈ s, _))

/-- Value of an ASCII digit. -/
def digitValue (c : Char) : Nat := c.toNat - '0'.toNat

/-- The digits of a digit string. -/
def digitsOf (s : List Char) : List Nat := s.map digitValue

/-- Weighted sum `w, 4-w, w, 4-w, …` from the left: with `w = 1` the weights are 1, 3, 1, 3, … -/
def altSum (w : Nat) : List Nat → Nat
  | [] => 0
  | d :: ds => w * d + altSum (4 - w) ds

/-- GS1 General Specifications 7.9: from the right of the complete number, the digits have weights 1, 3, 1, 3, …; the
number is valid if the sum is a multiple of ten. -/
def Gs1Valid (ds : List Nat) : Prop := altSum 1 ds.reverse % 10 = 0

instance (ds : List Nat) : Decidable (Gs1Valid ds) := inferInstanceAs (Decidable (_ = _))

/-- The check digit: what is missing to the next multiple of ten. -/
def gs1Digit (ds : List Nat) : Nat := (10 - altSum 3 ds.reverse % 10) % 10

/-- Decimal digits. -/
def Digits (ds : List Nat) : Prop := ∀ d ∈ ds, d < 10

end Spec
