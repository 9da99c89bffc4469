import Verif.Spec.HandScan
import Verif.Spec.Code39
import Verif.Spec.Code93
import Verif.Spec.Code11
import Verif.Spec.CodabarFrame
import Verif.Spec.TwoOfFive
import Verif.Spec.Code128

/-!
# A reader that knows every symbology

It is not told what is printed on the paper. It tries the scanner of every symbology on the line, from both ends, and reports
all it can read. UPC-A is read as EAN-13, as retail scanners do. Nothing here mentions the model of the code.
-/

set_option autoImplicit false

namespace Spec

inductive Symbology
  | ean13 | ean8 | addOn | code39 | code93 | code11 | codabar | stf | itf | code128
  deriving DecidableEq, Repr

/-- Digits written as text. -/
def inDigits (ds : List Nat) : List Char := ds.map (fun d => Char.ofNat (48 + d))

/-- The Interleaved 2 of 5 scanner with the limit of the standard: no element is wider than three narrow ones. -/
def scanItfNarrow (ms : List Nat) : Option (List Nat) :=
  (elements ms).bind (fun es => if ∀ w ∈ es, w ≤ 3 then scanItf ms else none)

/-- The scanner of each symbology. Codabar data must stand between start and stop letters. -/
def scanAs : Symbology → List Nat → Option (List Char)
  | .ean13, ms => (scanEan13 ms).map inDigits
  | .ean8, ms => (scanEan8 ms).map inDigits
  | .addOn, ms => (scanAddOn ms).map inDigits
  | .code39, ms => scanCode39 ms
  | .code93, ms => scanCode93 ms
  | .code11, ms => scanCode11 ms
  | .codabar, ms => scanCodabarData ms
  | .stf, ms => (scanStf ms).map inDigits
  | .itf, ms => (scanItfNarrow ms).map inDigits
  | .code128, ms => scanCode128 ms

def allSymbologies : List Symbology :=
  [.ean13, .ean8, .addOn, .code39, .code93, .code11, .codabar, .stf, .itf, .code128]

/-- Everything that can be read from a line, from the left and from the right. -/
def everyReading (line : List Nat) : List (Symbology × List Char) :=
  allSymbologies.flatMap (fun y => ((readLine (scanAs y) line).toList ++ (readLine (scanAs y) line.reverse).toList).map
    (fun t => (y, t)))

/-- Whatever the module width and the quiet zones, and whichever way round the paper is held, `t` in symbology `y` is the only
thing that can be read from the row `ms`. -/
def OnlyReading (ms : List Nat) (y : Symbology) (t : List Char) : Prop :=
  ∀ q x r, 0 < x → everyReading (onPaper q x r ms) = [(y, t)] ∧ everyReading (onPaper q x r ms).reverse = [(y, t)]

end Spec
