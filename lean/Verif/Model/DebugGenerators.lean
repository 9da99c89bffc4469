import Verif.Model.Debug
import Verif.Model.Ascii
import Verif.Model.Json
import Verif.Model.Svg
import Verif.Model.Image

/-!
# The derived `Debug` implementations of the generators

As in `Verif.Model.Debug`: `{:?}`, not `{:#?}`.
-/

set_option autoImplicit false

namespace Barcoders.Debug

/-- `src/generators/ascii.rs` lines 14-21: `ASCII`, derived `Debug`. -/
def ascii (g : Ascii.ASCII) : List Char :=
  "ASCII { height: ".toList ++ showNat g.height ++ ", xdim: ".toList ++ showNat g.xdim ++ " }".toList

/-- `src/generators/json.rs` lines 19-25: `JSON`, derived `Debug`. -/
def json (g : Json.JSON) : List Char :=
  "JSON { height: ".toList ++ showNat g.height ++ ", xdim: ".toList ++ showNat g.xdim ++ " }".toList

/-- The four values of `src/generators/svg.rs` lines 54-58: `Color`, or of the image generator's, and what `derive(Debug)` writes
of them. -/
def rgba (r g b a : Nat) : List Char := "Color { rgba: ".toList ++ vec showNat [r, g, b, a] ++ " }".toList

/-- `src/generators/svg.rs` lines 54-58: `Color`, derived `Debug`. -/
def svgColor (c : Svg.Color) : List Char := rgba c.r c.g c.b c.a

/-- `src/generators/image.rs` lines 83-87: `Color`, derived `Debug`. -/
def imageColor (c : Image.Color) : List Char := rgba c.r c.g c.b c.a

/-- `Debug` of one character of a `str` (core). Simplified: characters other than those of ASCII, and the control characters that
have no escape of their own, are left as they are. -/
def strChar (c : Char) : List Char :=
  if c = '"' then ['\\', '"'] else if c = '\\' then ['\\', '\\'] else if c = '\n' then ['\\', 'n'] else if c = '\r' then ['\\', 'r']
  else if c = '\t' then ['\\', 't'] else if c = '\x00' then ['\\', '0'] else [c]

/-- `Debug` of a `String` (core). -/
def str (s : List Char) : List Char := '"' :: s.flatMap strChar ++ ['"']

/-- `Debug` of an `Option<String>` (core). -/
def optionStr : Option (List Char) → List Char
  | none => "None".toList
  | some s => tuple "Some".toList (str s)

/-- `src/generators/svg.rs` lines 92-106: `SVG`, derived `Debug`. -/
def svg (g : Svg.SVG) : List Char :=
  "SVG { height: ".toList ++ showNat g.height ++ ", xdim: ".toList ++ showNat g.xdim ++ ", foreground: ".toList ++
    svgColor g.foreground ++ ", background: ".toList ++ svgColor g.background ++ ", xmlns: ".toList ++ optionStr g.xmlns ++ " }".toList

/-- `src/generators/image.rs` lines 111-121: `Rotation`, derived `Debug`. -/
def rotation : Image.Rotation → List Char
  | .zero => "Zero".toList
  | .ninety => "Ninety".toList
  | .oneEighty => "OneEighty".toList
  | .twoSeventy => "TwoSeventy".toList

/-- `src/generators/image.rs` lines 123-132: the variants of `image_variants!`, as derived `Debug` names them. -/
def imageKind : Image.Kind → List Char
  | .gif => "GIF".toList
  | .png => "PNG".toList
  | .webp => "WEBP".toList
  | .imageBuffer => "ImageBuffer".toList

/-- `src/generators/image.rs` lines 34-50: `Image`, derived `Debug`. -/
def image (g : Image.Image) : List Char :=
  imageKind g.kind ++ " { height: ".toList ++ showNat g.height ++ ", xdim: ".toList ++ showNat g.xdim ++ ", rotation: ".toList ++
    rotation g.rotation ++ ", foreground: ".toList ++ imageColor g.foreground ++ ", background: ".toList ++
    imageColor g.background ++ " }".toList

end Barcoders.Debug
