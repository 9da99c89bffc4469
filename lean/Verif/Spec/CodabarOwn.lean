import Verif.Spec.Codabar

/-!
# A Codabar variant: the chart this library draws

Not the standard's: `B` and `C` are exchanged and `+` has five wide elements. Only used to say that the drawn symbols are
at least readable by someone who knows about the three deviations.
-/

set_option autoImplicit false

namespace Spec

/-- The standard table with the changes of the library: `B` and `C` exchanged, `+` drawn with five wide elements. -/
def codabarOwnPatterns : List Nat :=
  [0x03, 0x06, 0x09, 0x60, 0x12, 0x42, 0x21, 0x24, 0x30, 0x48, 0x0c, 0x18, 0x45, 0x51, 0x54, 0x1F, 0x1A, 0x0B, 0x29, 0x0E]

/-- Read seven elements and the gap that follows them, by that table. -/
def readOwnCodabarChar (w : List Nat) : Option Char :=
  if w.drop 7 = [1] then
    ((codabarAlphabet.zip (codabarOwnPatterns.map codabarWidths)).find? (fun p => p.2 == w.take 7)).map Prod.fst
  else none

/-- A scanner using that table. -/
def scanOwnCodabar (ms : List Nat) : Option (List Char) := do
  let es ← elements ms
  readAll 8 readOwnCodabarChar (es ++ [1])

end Spec
