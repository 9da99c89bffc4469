import Verif.Model.Ean13
import Verif.Model.Ean8
import Verif.Model.Upca
import Verif.Model.EanSupp
import Verif.Model.Code39
import Verif.Model.Code93
import Verif.Model.Code11
import Verif.Model.Codabar
import Verif.Model.Code128
import Verif.Model.TF

/-!
# The derived `Debug` implementations

What `format!("{:?}", x)` writes for values of the public types that `#[derive(Debug)]`: the name of the type or variant, tuple
fields in parentheses, named fields in braces, vectors in brackets, everything separated by a comma and a blank. `{:#?}` is not
modelled.
-/

set_option autoImplicit false

namespace Barcoders.Debug

/-- `Debug` of a `Vec`, given that of its members (core and alloc). -/
def vec {α : Type} (f : α → List Char) : List α → List Char
  | [] => "[]".toList
  | a :: l => '[' :: f a ++ l.flatMap (fun x => ", ".toList ++ f x) ++ [']']

/-- `Debug` of a `char` (core). Simplified: characters that need an escape are left as they are; there is none among those that
pass the constructors of Code 39, Code 93 and Code 11. -/
def char (c : Char) : List Char := ['\'', c, '\'']

/-- `Debug` of a tuple struct or tuple variant with one field. -/
def tuple (name field : List Char) : List Char := name ++ '(' :: field ++ [')']

/-- `src/error.rs` lines 8-9: `Error`, derived `Debug`. -/
def error : Error → List Char
  | .character => "Character".toList
  | .length => "Length".toList
  | .generate => "Generate".toList
  | .checksum => "Checksum".toList

/-- `src/sym/ean13.rs` lines 86-87: `EAN13`, derived `Debug`. -/
def ean13 (x : Ean13.EAN13) : List Char := tuple "EAN13".toList (vec showNat x.digits)

/-- `src/sym/ean8.rs` lines 14-15: `EAN8`, derived `Debug`. -/
def ean8 (x : Ean8.EAN8) : List Char := tuple "EAN8".toList (vec showNat x.digits)

/-- `src/sym/upca.rs` lines 70-71: `UPCA`, derived `Debug`. -/
def upca (x : Upca.UPCA) : List Char := tuple "UPCA".toList (vec showNat x.digits)

/-- `src/sym/ean_supp.rs` lines 41-47: `EANSUPP`, derived `Debug`. -/
def eansupp : EanSupp.EANSUPP → List Char
  | .EAN2 d => tuple "EAN2".toList (vec showNat d)
  | .EAN5 d => tuple "EAN5".toList (vec showNat d)

/-- `Debug` of a `bool` (core). -/
def bool (b : Bool) : List Char := if b then "true".toList else "false".toList

/-- `src/sym/code39.rs` lines 65-70: `Code39`, derived `Debug`. -/
def code39 (x : Code39.Code39) : List Char :=
  "Code39 { data: ".toList ++ vec char x.data ++ ", checksum: ".toList ++ bool x.checksum ++ " }".toList

/-- `src/sym/code93.rs` lines 73-74: `Code93`, derived `Debug`. -/
def code93 (x : Code93.Code93) : List Char := tuple "Code93".toList (vec char x.data)

/-- `src/sym/code11.rs` lines 35-36: `Code11`, derived `Debug`. -/
def code11 (x : Code11.Code11) : List Char := tuple "Code11".toList (vec char x.data)

/-- `src/sym/codabar.rs` lines 15-37: `Unit`, derived `Debug`. -/
def codabarUnit : Codabar.Unit → List Char
  | .Zero => "Zero".toList
  | .One => "One".toList
  | .Two => "Two".toList
  | .Three => "Three".toList
  | .Four => "Four".toList
  | .Five => "Five".toList
  | .Six => "Six".toList
  | .Seven => "Seven".toList
  | .Eight => "Eight".toList
  | .Nine => "Nine".toList
  | .Dash => "Dash".toList
  | .Dollar => "Dollar".toList
  | .Colon => "Colon".toList
  | .Slash => "Slash".toList
  | .Point => "Point".toList
  | .Plus => "Plus".toList
  | .A => "A".toList
  | .B => "B".toList
  | .C => "C".toList
  | .D => "D".toList

/-- `src/sym/codabar.rs` lines 93-94: `Codabar`, derived `Debug`. -/
def codabar (x : Codabar.Codabar) : List Char := tuple "Codabar".toList (vec codabarUnit x.units)

/-- `src/sym/code128.rs` lines 68-73: `UnitKind`, derived `Debug`. -/
def unitKind : Code128.UnitKind → Char
  | .A => 'A'
  | .B => 'B'
  | .C => 'C'

/-- `src/sym/code128.rs` lines 62-66: `Unit`, derived `Debug`. -/
def code128Unit (u : Code128.Unit) : List Char :=
  "Unit { kind: ".toList ++ [unitKind u.kind] ++ ", index: ".toList ++ showNat u.index ++ " }".toList

/-- `src/sym/code128.rs` lines 239-240: `Code128`, derived `Debug`. -/
def code128 (x : Code128.Code128) : List Char := tuple "Code128".toList (vec code128Unit x.units)

/-- `src/sym/tf.rs` lines 31-37: `TF`, derived `Debug`. -/
def tf : TF.TF → List Char
  | .Standard d => tuple "Standard".toList (vec showNat d)
  | .Interleaved d => tuple "Interleaved".toList (vec showNat d)

end Barcoders.Debug
