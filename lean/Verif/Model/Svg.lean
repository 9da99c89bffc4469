import Verif.Model.Basic

set_option autoImplicit false

namespace Barcoders.Svg

/-- `src/generators/svg.rs` lines 55-58: `struct Color` (`rgba: [u8; 4]`). -/
structure Color where
  r : Fin 256
  g : Fin 256
  b : Fin 256
  a : Fin 256
  deriving DecidableEq, Repr

/-- `src/generators/svg.rs` lines 67-69: `Color::black`. -/
def Color.black : Color := ⟨0, 0, 0, 255⟩

/-- `src/generators/svg.rs` lines 72-74: `Color::white`. -/
def Color.white : Color := ⟨255, 255, 255, 255⟩

/-- `src/generators/svg.rs` lines 44-50: `to_hex_digit`. -/
def toHexDigit (n : Nat) : Char :=
  if n < 10 then Char.ofNat (n + 48)
  else if n < 16 then Char.ofNat (n + 87)
  else '0'

/-- `src/generators/svg.rs` lines 36-42: `format_hex`. -/
def formatHex (n : Nat) : List Char := [toHexDigit (n / 16), toHexDigit (n % 16)]

/-- `src/generators/svg.rs` lines 82-88: `to_hex`: the first three components. -/
def Color.toHex (c : Color) : List Char :=
  (([c.r, c.g, c.b, c.a].take 3).map (fun v => formatHex v.val)).flatten

/-- `format!("{:.*}", 2, x)` of a number `x = n/100`: integer part, point, two digits. -/
def fixed2 (n : Nat) : List Char :=
  showNat (n / 100) ++ ['.', Char.ofNat (48 + n % 100 / 10), Char.ofNat (48 + n % 10)]

/-- `n / d` rounded to the nearest integer, ties to even. -/
def divEven (n d : Nat) : Nat :=
  let q := n / d
  let r := n % d
  if 2 * r < d then q else if d < 2 * r then q + 1 else q + q % 2

/-- The IEEE 754 double nearest to `a / b` (for `a ≤ b < 2^53`) as a fraction: mantissa and denominator, a power of two. The
mantissa has 53 bits unless it is zero. -/
def f64Div (a b : Nat) : Nat × Nat :=
  if a = 0 then (0, 1)
  else
    let e := 52 + b.log2 - a.log2
    let e := if a * 2 ^ e < b * 2 ^ 52 then e + 1 else e
    (divEven (a * 2 ^ e) b, 2 ^ e)

/-- The number of hundredths that `format!("{:.*}", 2, x)` prints for the double `x = a / 255.0`: nearest to the exact value of
`x` (ties cannot occur for these quotients). -/
def hundredths (a : Nat) : Nat := divEven (100 * (f64Div a 255).1) (f64Div a 255).2

/-- `src/generators/svg.rs` lines 76-78: `to_opacity`: `format!("{:.*}", 2, a as f64 / 255.0)`. -/
def Color.toOpacity (c : Color) : List Char := fixed2 (hundredths c.a.val)

/-- `src/generators/svg.rs` lines 93-105: `struct SVG`. -/
structure SVG where
  height : Nat
  xdim : Nat
  foreground : Color
  background : Color
  xmlns : Option (List Char)
  deriving DecidableEq, Repr

/-- `src/generators/svg.rs` lines 109-121: `SVG::new`. -/
def new (height : Nat) : SVG :=
  { height := height, xdim := 1, foreground := ⟨0, 0, 0, 255⟩, background := ⟨255, 255, 255, 255⟩, xmlns := none }

/-- `src/generators/svg.rs` lines 124-127: `SVG::xmlns`. -/
def SVG.setXmlns (s : SVG) (uri : List Char) : SVG := { s with xmlns := some uri }

/-- `src/generators/svg.rs` lines 130-133: `SVG::xdim`. -/
def SVG.setXdim (s : SVG) (x : Nat) : SVG := { s with xdim := x }

/-- `src/generators/svg.rs` lines 136-139: `SVG::foreground`. -/
def SVG.setForeground (s : SVG) (c : Color) : SVG := { s with foreground := c }

/-- `src/generators/svg.rs` lines 142-145: `SVG::background`. -/
def SVG.setBackground (s : SVG) (c : Color) : SVG := { s with background := c }

/-- `src/generators/svg.rs` lines 147-166: `rect`. -/
def rect (s : SVG) (style offset width : Nat) : List Char :=
  let fill := match style with
    | 1 => s.foreground
    | _ => s.background
  let opacity :=
    if fill.toOpacity = "1.00".toList ∨ fill.toOpacity = "1".toList then []
    else " fill-opacity=\"".toList ++ fill.toOpacity ++ "\" ".toList
  "<rect x=\"".toList ++ showNat offset ++ "\" y=\"0\" width=\"".toList ++ showNat width ++ "\" height=\"".toList ++
    showNat s.height ++ "\" fill=\"#".toList ++ fill.toHex ++ "\"".toList ++ opacity ++ "/>".toList

/-- The closure of the `map`, `src/generators/svg.rs` line 177. -/
def barRect (b : Build) (s : SVG) (p : Nat × Nat) : Outcome (List Char) := do
  let off ← u32 b (asU32 p.1 * s.xdim)
  .ok (rect s p.2 off s.xdim)

/-- `src/generators/svg.rs` lines 170-193: `generate`. -/
def generate (b : Build) (s : SVG) (barcode : List Nat) : Outcome (List Char) := do
  let width ← u32 b (asU32 barcode.length * s.xdim)
  let rects ← mapO (barRect b s) ((enumerate barcode).filter (fun p => p.2 == 1))
  let xmlns := match s.xmlns with
    | some x => "xmlns=\"".toList ++ x ++ "\" ".toList
    | none => []
  .ok ("<svg version=\"1.1\" ".toList ++ xmlns ++ "viewBox=\"0 0 ".toList ++ showNat width ++ " ".toList ++
    showNat s.height ++ "\">".toList ++ rect s 0 0 width ++ rects.flatten ++ "</svg>".toList)

end Barcoders.Svg
