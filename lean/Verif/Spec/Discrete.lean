import Verif.Spec.Code39
import Verif.Spec.Code11
import Verif.Spec.Codabar

/-!
# Discrete symbologies

A symbology is discrete if its characters stand by themselves, with spaces between them that carry no information. Such a
symbol may be set by a numbering machine or from type, one character at a time, and the spaces between the characters then
come out as they like. A reader for such labels does not look at the width of these spaces. Nothing here mentions the model of
the code.
-/

set_option autoImplicit false

namespace Spec

/-- The same bars and spaces, except that every `k`-th element (the space between two characters) may have another width. -/
structure SameButGaps (k : Nat) (es es' : List Nat) : Prop where
  length : es.length = es'.length
  same : ∀ i : Nat, i % k + 1 ≠ k → es[i]? = es'[i]?

/-- Read the first `n` elements of a group by a code chart, whatever follows them. -/
def looseChar (n : Nat) (chart : List (Char × List Nat)) (w : List Nat) : Option Char :=
  (chart.find? (fun p => p.2 == w.take n)).map Prod.fst

/-- The Code 39 scanner that ignores the width of the spaces between characters. -/
def looseCode39 (ms : List Nat) : Option (List Char) := do
  let es ← elements ms
  let cs ← readAll 10 (looseChar 9 code39Chart) (es ++ [1])
  betweenStars cs

/-- The Code 11 scanner that ignores the width of the spaces between characters, with its check characters. -/
def looseCode11 (ms : List Nat) : Option (List Char) := do
  let es ← elements ms
  let cs ← readAll 6 (looseChar 5 code11Chart) (es ++ [1])
  let t ← betweenStars cs
  verifyCode11 t

/-- The Codabar scanner that ignores the width of the spaces between characters. -/
def looseCodabar (ms : List Nat) : Option (List Char) := do
  let es ← elements ms
  readAll 8 (looseChar 7 codabarChart) (es ++ [1])

end Spec
