import Verif.Model.Basic

set_option autoImplicit false

namespace Barcoders.Image

/-- `src/generators/image.rs` lines 84-87: `struct Color` (`rgba: [u8; 4]`); also `Rgba<u8>` of the `image` crate
(`to_rgba`, lines 105-107, is the identity). -/
structure Color where
  r : Fin 256
  g : Fin 256
  b : Fin 256
  a : Fin 256
  deriving DecidableEq, Repr

/-- `src/generators/image.rs` lines 96-98: `Color::black`. -/
def Color.black : Color := ⟨0, 0, 0, 255⟩

/-- `src/generators/image.rs` lines 101-103: `Color::white`. -/
def Color.white : Color := ⟨255, 255, 255, 255⟩

/-- `src/generators/image.rs` lines 112-121: `enum Rotation`. -/
inductive Rotation where
  | zero
  | ninety
  | oneEighty
  | twoSeventy
  deriving DecidableEq, Repr

/-- `src/generators/image.rs` lines 123-132: the variants made by `image_variants!`. -/
inductive Kind where
  | gif
  | png
  | webp
  | imageBuffer
  deriving DecidableEq, Repr

/-- `src/generators/image.rs` lines 31-54: `enum Image`. All variants have the same fields, so an `Image` is a variant
name and the fields. -/
structure Image where
  kind : Kind
  height : Nat
  xdim : Nat
  rotation : Rotation
  foreground : Color
  background : Color
  deriving DecidableEq, Repr

/-- `src/generators/image.rs` lines 56-70: `image_defaults!`. -/
def defaults (k : Kind) (h : Nat) : Image :=
  { kind := k, height := h, xdim := 1, rotation := .zero, foreground := ⟨0, 0, 0, 255⟩,
    background := ⟨255, 255, 255, 255⟩ }

/-- `src/generators/image.rs` lines 136-138: `Image::gif`. -/
def gif (h : Nat) : Image := defaults .gif h
/-- `src/generators/image.rs` lines 141-143: `Image::png`. -/
def png (h : Nat) : Image := defaults .png h
/-- `src/generators/image.rs` lines 146-148: `Image::webp`. -/
def webp (h : Nat) : Image := defaults .webp h
/-- `src/generators/image.rs` lines 151-153: `Image::image_buffer`. -/
def imageBuffer (h : Nat) : Image := defaults .imageBuffer h

/-- `image::ImageBuffer<Rgba<u8>, Vec<u8>>` / `DynamicImage::ImageRgba8` (dependency): size and pixels. `px x y` is
meaningful for `x < w`, `y < h`. -/
structure Buffer where
  w : Nat
  h : Nat
  px : Nat → Nat → Color

/-- The target's word size. Only `ImageBuffer::new`, called in `src/generators/image.rs` line 193, depends on it. -/
inductive Target where
  | bits64
  | bits32
  deriving DecidableEq, Repr

/-- `isize::MAX + 1`: allocations in Rust are smaller. -/
def Target.memory : Target → Nat
  | .bits64 => 2 ^ 63
  | .bits32 => 2 ^ 31

/-- `ImageBuffer::new` (dependency): zeroed pixels; panics if the `4·w·h` bytes do not fit in `isize::MAX`. -/
def Buffer.new (w h : Nat) (t : Target := .bits64) : Outcome Buffer :=
  if 4 * w * h < t.memory then .ok ⟨w, h, fun _ _ => ⟨0, 0, 0, 0⟩⟩ else .panic .capacity

/-- `ImageBuffer::put_pixel` (dependency): panics out of bounds. -/
def Buffer.putPixel (buf : Buffer) (x y : Nat) (c : Color) : Outcome Buffer :=
  if x < buf.w ∧ y < buf.h then
    .ok ⟨buf.w, buf.h, fun x' y' => if x' = x ∧ y' = y then c else buf.px x' y'⟩
  else .panic .bounds

/-- `DynamicImage::rotate90` (dependency): a quarter turn clockwise; pixel `(x, y)` goes to `(h - 1 - y, x)`. -/
def Buffer.rotate90 (b : Buffer) : Buffer := ⟨b.h, b.w, fun x y => b.px y (b.h - 1 - x)⟩

/-- `DynamicImage::rotate180` (dependency): pixel `(x, y)` goes to `(w - 1 - x, h - 1 - y)`. -/
def Buffer.rotate180 (b : Buffer) : Buffer := ⟨b.w, b.h, fun x y => b.px (b.w - 1 - x) (b.h - 1 - y)⟩

/-- `DynamicImage::rotate270` (dependency): pixel `(x, y)` goes to `(y, w - 1 - x)`. -/
def Buffer.rotate270 (b : Buffer) : Buffer := ⟨b.h, b.w, fun x y => b.px (b.w - 1 - y) x⟩

/-- The innermost loop body of `place_pixels`, `src/generators/image.rs` line 200. -/
def putOne (b : Build) (xdim y i : Nat) (c : Color) (buf : Buffer) (p : Nat) : Outcome Buffer := do
  let base ← u32 b (asU32 i * xdim)
  let x ← u32 b (base + p)
  buf.putPixel x y c

/-- The loop over one module, `src/generators/image.rs` lines 197-201. -/
def putModule (b : Build) (xdim y : Nat) (bg fg : Color) (buf : Buffer) (e : Nat × Nat) : Outcome Buffer :=
  let c := if e.2 = 0 then bg else fg
  foldO (putOne b xdim y e.1 c) buf (List.range xdim)

/-- The loop over one row, `src/generators/image.rs` lines 196-202. -/
def putRow (b : Build) (xdim : Nat) (bg fg : Color) (barcode : List Nat) (buf : Buffer) (y : Nat) : Outcome Buffer :=
  foldO (putModule b xdim y bg fg) buf (enumerate barcode)

/-- `src/generators/image.rs` lines 185-213: `place_pixels`. -/
def placePixels (b : Build) (g : Image) (barcode : List Nat) (t : Target := .bits64) : Outcome Buffer := do
  let width ← u32 b (asU32 barcode.length * g.xdim)
  let buffer ← Buffer.new width g.height t
  let img ← foldO (putRow b g.xdim g.background g.foreground barcode) buffer (List.range g.height)
  match g.rotation with
  | .ninety => .ok img.rotate90
  | .oneEighty => .ok img.rotate180
  | .twoSeventy => .ok img.rotate270
  | .zero => .ok img

/-- `image::ImageFormat` (dependency), the three formats used. -/
inductive Format where
  | gif
  | png
  | webp
  deriving DecidableEq, Repr

/-- `DynamicImage::write_to` (dependency) into a byte vector: any function from the format and the image to the bytes,
or a failure. -/
abbrev Codec := Format → Buffer → Option (List Nat)

/-- `src/generators/image.rs` lines 157-172: `generate`. -/
def generate (codec : Codec) (b : Build) (g : Image) (barcode : List Nat) (t : Target := .bits64) : Outcome (List Nat) :=
  let write (f : Format) : Outcome (List Nat) := do
    let img ← placePixels b g barcode t
    match codec f img with
    | some bytes => .ok bytes
    | none => .err .generate
  match g.kind with
  | .gif => write .gif
  | .png => write .png
  | .webp => write .webp
  | .imageBuffer => .err .generate

/-- `src/generators/image.rs` lines 176-183: `generate_buffer` (`to_rgba8` of an `ImageRgba8` is a copy). -/
def generateBuffer (b : Build) (g : Image) (barcode : List Nat) (t : Target := .bits64) : Outcome Buffer :=
  placePixels b g barcode t

end Barcoders.Image
