import Verif.Spec.Elements
import Verif.Spec.Gs1

/-!
# EAN/UPC scanners (ISO/IEC 15420), on element widths
-/

set_option autoImplicit false

namespace Spec

/-- Element widths of the digits 0-9 in number set A (space, bar, space, bar). Number set C has the same widths with the
colours exchanged; number set B has the widths in reverse order. -/
def eanWidths : List (List Nat) :=
  [[3, 2, 1, 1], [2, 2, 2, 1], [2, 1, 2, 2], [1, 4, 1, 1], [1, 1, 3, 2],
   [1, 2, 3, 1], [1, 1, 1, 4], [1, 3, 1, 2], [1, 2, 1, 3], [3, 1, 1, 2]]

/-- Read a digit of set A (or of set C). -/
def readA (w : List Nat) : Option Nat := position eanWidths w

/-- Read a digit of set A or B; `true` means set B. -/
def readAB (w : List Nat) : Option (Bool × Nat) :=
  match position eanWidths w with
  | some d => some (false, d)
  | none => (position eanWidths w.reverse).map (fun d => (true, d))

/-- Sets of the six left digits for each leading digit; `true` means set B. -/
def ean13Sets : List (List Bool) :=
  [[false, false, false, false, false, false], [false, false, true, false, true, true],
   [false, false, true, true, false, true], [false, false, true, true, true, false],
   [false, true, false, false, true, true], [false, true, true, false, false, true],
   [false, true, true, true, false, false], [false, true, false, true, false, true],
   [false, true, false, true, true, false], [false, true, true, false, true, false]]

/-- EAN-13 from element widths: guards, six digits of set A/B, centre, six digits of set C, guard; the sets give the
leading digit; the check digit must be right. -/
def readEan13 (es : List Nat) : Option (List Nat) := do
  let es ← expect [1, 1, 1] es
  let (left, es) ← readN 4 readAB 6 es
  let es ← expect [1, 1, 1, 1, 1] es
  let (right, es) ← readN 4 readA 6 es
  let es ← expect [1, 1, 1] es
  let first ← ean13Sets.findIdx? (fun t => t == left.map Prod.fst)
  let ds := first :: (left.map Prod.snd ++ right)
  if es = [] ∧ Gs1Valid ds then some ds else none

/-- The EAN-13 scanner. -/
def scanEan13 (ms : List Nat) : Option (List Nat) := (elements ms).bind readEan13

/-- UPC-A or EAN-8 from element widths: `n` digits of set A, centre, `n` digits of set C. -/
def readHalves (n : Nat) (es : List Nat) : Option (List Nat) := do
  let es ← expect [1, 1, 1] es
  let (left, es) ← readN 4 readA n es
  let es ← expect [1, 1, 1, 1, 1] es
  let (right, es) ← readN 4 readA n es
  let es ← expect [1, 1, 1] es
  let ds := left ++ right
  if es = [] ∧ Gs1Valid ds then some ds else none

/-- The EAN-8 scanner. -/
def scanEan8 (ms : List Nat) : Option (List Nat) := (elements ms).bind (readHalves 4)

/-- The UPC-A scanner. -/
def scanUpca (ms : List Nat) : Option (List Nat) := (elements ms).bind (readHalves 6)

/-- A further digit of an add-on: separator (narrow space, narrow bar) and a digit of set A or B. -/
def readAddOnDigit (w : List Nat) : Option (Bool × Nat) := (expect [1, 1] w).bind readAB

/-- Set B positions of a five-digit add-on, by the value of its check sum. -/
def ean5Sets : List (List Bool) :=
  [[true, true, false, false, false], [true, false, true, false, false], [true, false, false, true, false],
   [true, false, false, false, true], [false, true, true, false, false], [false, false, true, true, false],
   [false, false, false, true, true], [false, true, false, true, false], [false, true, false, false, true],
   [false, false, true, false, true]]

/-- Set B positions of a two-digit add-on, by the value modulo 4. -/
def ean2Sets : List (List Bool) := [[false, false], [false, true], [true, false], [true, true]]

/-- Whether the sets of an add-on are those its digits require: value modulo 4 for two digits, weights 3, 9, 3, 9, 3 for
five. -/
def addOnOk (sets : List Bool) (ds : List Nat) : Bool :=
  match ds with
  | [a, b] => ean2Sets[(10 * a + b) % 4]? == some sets
  | [a, b, c, d, e] => ean5Sets[(3 * a + 9 * b + 3 * c + 9 * d + 3 * e) % 10]? == some sets
  | _ => false

/-- Add-on from element widths: guard 1,1,2, a digit, then further digits with separators. -/
def readAddOn (es : List Nat) : Option (List Nat) := do
  let es ← expect [1, 1, 2] es
  let (first, es) ← readN 4 readAB 1 es
  let more ← readAll 6 readAddOnDigit es
  let all := first ++ more
  let ds := all.map Prod.snd
  if addOnOk (all.map Prod.fst) ds then some ds else none

/-- The add-on scanner. -/
def scanAddOn (ms : List Nat) : Option (List Nat) := (elements ms).bind readAddOn

end Spec
