import Verif.Spec.Elements

/-!
# Two-out-of-five codes (Standard/Industrial and Interleaved), on element widths

Only narrow and wide are distinguished: an element of one module is narrow, anything larger is wide.
-/

set_option autoImplicit false

namespace Spec

/-- Classify an element: narrow 1, wide 2. -/
def classify (w : Nat) : Nat := if w ≤ 1 then 1 else 2

/-- The digit of five elements: exactly two are wide, their weights 1, 2, 4, 7, 0 add up to the digit (eleven meaning
zero). -/
def twoOfFive (w : List Nat) : Option Nat :=
  if w.length = 5 ∧ w.count 2 = 2 then
    some (((w.zip [1, 2, 4, 7, 0]).map (fun p => if p.1 = 2 then p.2 else 0)).sum % 11)
  else none

/-- Every other element, starting with the first. -/
def everyOther : List Nat → List Nat
  | [] => []
  | [a] => [a]
  | a :: _ :: r => a :: everyOther r

/-- Ten elements of Interleaved 2 of 5: the bars carry the first digit, the spaces the second. -/
def readItfPair (w : List Nat) : Option (List Nat) := do
  let a ← twoOfFive (everyOther w)
  let b ← twoOfFive (everyOther w.tail)
  some [a, b]

/-- Remove a required suffix of element widths. -/
def expectEnd (p es : List Nat) : Option (List Nat) := (expect p.reverse es.reverse).map List.reverse

/-- The Interleaved 2 of 5 scanner: start is four narrow elements, stop is wide, narrow, narrow. -/
def scanItf (ms : List Nat) : Option (List Nat) := do
  let es ← elements ms
  let es ← expect [1, 1, 1, 1] (es.map classify)
  let es ← expectEnd [2, 1, 1] es
  let ps ← readAll 10 readItfPair es
  some ps.flatten

/-- Ten elements of Standard 2 of 5: the bars carry the digit, the spaces are narrow. -/
def readStfDigit (w : List Nat) : Option Nat :=
  if everyOther w.tail = [1, 1, 1, 1, 1] then twoOfFive (everyOther w) else none

/-- The Standard 2 of 5 scanner: start has bars wide, wide, narrow; stop has bars wide, narrow, wide. A space at the very
end belongs to the quiet zone. -/
def scanStf (ms : List Nat) : Option (List Nat) := do
  let es ← elements ms
  let es := (if es.length % 2 = 0 then es.dropLast else es).map classify
  let es ← expect [2, 1, 2, 1, 1, 1] es
  let es ← expectEnd [2, 1, 1, 1, 2] es
  readAll 10 readStfDigit es

end Spec
