import Verif.Spec.Svg

/-!
# Translucent colours

What is seen of a picture whose colours are not opaque, lying on a page of some colour. A layer of opacity `o` shows the fraction
`o` of its own colour and the rest of what is below. The fractions are exact.
-/

set_option autoImplicit false

namespace Spec

/-- What the eye gets: red, green and blue. -/
structure Seen where
  r : Rat
  g : Rat
  b : Rat
  deriving DecidableEq

/-- A layer of the colour `c` with the opacity `o` over what was seen before. -/
def Seen.under (u : Seen) (o : Rat) (c : Seen) : Seen :=
  ⟨o * c.r + (1 - o) * u.r, o * c.g + (1 - o) * u.g, o * c.b + (1 - o) * u.b⟩

/-- The colour of a paint, without its opacity. -/
def Paint.seen (p : Paint) : Seen := ⟨(p.rgb.1 : Nat), (p.rgb.2.1 : Nat), (p.rgb.2.2 : Nat)⟩

/-- Rectangles are painted in order over the page; those that do not cover the place do not matter. -/
def paintedAt (rs : List SvgRect) (page : Seen) (x y : Nat) : Seen :=
  rs.foldl (fun u r => if r.covers x y then u.under ((r.fill.opacity : Nat) / 100) r.fill.seen else u) page

/-- A pixel given by four bytes, the last one its opacity, shown over the page. -/
def pixelOver (r g b a : Nat) (page : Seen) : Seen := page.under ((a : Rat) / 255) ⟨r, g, b⟩

end Spec
