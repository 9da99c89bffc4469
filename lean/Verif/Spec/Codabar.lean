import Verif.Spec.Elements

/-!
# Codabar (ANSI/AIM BC3), on element widths

Each character is seven elements (bar, space, …, bar), written here as seven bits, most significant first, one for a wide
element. Narrow elements are one module wide, wide elements two, the gap between characters one.
-/

set_option autoImplicit false

namespace Spec

/-- Data and start/stop characters. -/
def codabarAlphabet : List Char := "0123456789-$:/.+ABCD".toList

/-- The seven-bit patterns, in that order. -/
def codabarPatterns : List Nat :=
  [0x03, 0x06, 0x09, 0x60, 0x12, 0x42, 0x21, 0x24, 0x30, 0x48, 0x0c, 0x18, 0x45, 0x51, 0x54, 0x15, 0x1A, 0x29, 0x0B, 0x0E]

/-- Element widths of a seven-bit pattern. -/
def codabarWidths (p : Nat) : List Nat := [64, 32, 16, 8, 4, 2, 1].map (fun m => p / m % 2 + 1)

/-- All characters with their widths. -/
def codabarChart : List (Char × List Nat) := codabarAlphabet.zip (codabarPatterns.map codabarWidths)

/-- Read seven elements and the gap that follows them. -/
def readCodabarChar (w : List Nat) : Option Char :=
  if w.drop 7 = [1] then (codabarChart.find? (fun p => p.2 == w.take 7)).map Prod.fst else none

/-- The Codabar scanner: all characters, start and stop included. -/
def scanCodabar (ms : List Nat) : Option (List Char) := do
  let es ← elements ms
  readAll 8 readCodabarChar (es ++ [1])

end Spec
