import Verif.Spec.Translucent
import Verif.Props.Svg
import Verif.Props.Image

/-!
# C107: translucent colours

An SVG picture with translucent colours shows its bars over its background over the page; an image shows bars and background
each directly over the page. When bars can be seen at all follows from that. The SVG opacity has two decimals, so that bars of
alpha 1 cannot be seen in it, while alpha 254 is opaque.
-/

set_option autoImplicit false

namespace Barcoders
open Spec

/-- An opacity in hundredths that is nearest to `a / 255`. -/
def NearestOpacity (o a : Nat) : Prop := 2 * (255 * o) ≤ 2 * (100 * a) + 255 ∧ 2 * (100 * a) ≤ 2 * (255 * o) + 255

theorem foldl_once {α : Type} (g : α → α) (k : Nat) (is : List Nat) (hd : is.Nodup) (u : α) :
    is.foldl (fun u i => if i = k then g u else u) u = if k ∈ is then g u else u := by
  induction is generalizing u with
  | nil => simp
  | cons i is ih =>
    rw [List.nodup_cons] at hd
    rw [List.foldl_cons, ih hd.2]
    by_cases h : i = k
    · subst h
      simp [hd.1]
    · have : ¬ k = i := fun e => h e.symm
      simp [h, this]

theorem under_eq (u c : Seen) (o : Rat) : u.under o c = u ↔ o = 0 ∨ c = u := by
  obtain ⟨ur, ug, ub⟩ := u
  obtain ⟨cr, cg, cb⟩ := c
  simp only [Seen.under, Seen.mk.injEq]
  grind

theorem under_opaque (u c : Seen) : u.under 1 c = c := by
  obtain ⟨ur, ug, ub⟩ := u
  obtain ⟨cr, cg, cb⟩ := c
  simp only [Seen.under, Seen.mk.injEq]
  grind

/-- C107. Every place of an SVG picture shows the background over the page, and at a bar the foreground over that, with
opacities that are the nearest hundredths. -/
theorem C107_svg (b : Build) (s : Svg.SVG) (bits : List Nat) (hw : bits.length * s.xdim < 2 ^ 32)
    (hx : ∀ x ∈ s.xmlns, ∀ c ∈ x, xmlPlain c = true) :
    ∃ out doc fo bo, Svg.generate b s bits = .ok out ∧ readSvg out = some doc ∧
      NearestOpacity fo s.foreground.a ∧ NearestOpacity bo s.background.a ∧
      ∀ (page : Seen) (x y : Nat), x < bits.length * s.xdim → y < s.height →
        paintedAt doc.rects page x y =
          (let back := page.under ((bo : Rat) / 100) ⟨s.background.r.val, s.background.g.val, s.background.b.val⟩
          if bits[x / s.xdim]? = some 1 then
            back.under ((fo : Rat) / 100) ⟨s.foreground.r.val, s.foreground.g.val, s.foreground.b.val⟩
          else back) := by
  obtain ⟨out, fg, bg, h1, hfg, hbg, h2⟩ := C37_svg_parses b s bits hw hx
  refine ⟨out, _, fg.opacity, bg.opacity, h1, h2, hfg.2, hbg.2, ?_⟩
  intro page x y hxw hy
  have hxd : 0 < s.xdim := Nat.pos_of_ne_zero (fun h => by rw [h] at hxw; simp at hxw)
  have hcov : ∀ i, SvgRect.covers ⟨i * s.xdim, 0, s.xdim, s.height, fg⟩ x y = true ↔ i = x / s.xdim := by
    intro i
    simp only [SvgRect.covers, Bool.and_eq_true, decide_eq_true_eq, Nat.zero_le, and_true, Nat.zero_add]
    rw [show i * s.xdim + s.xdim = (i + 1) * s.xdim by rw [Nat.add_mul, Nat.one_mul]]
    rw [← Nat.le_div_iff_mul_le hxd, ← Nat.div_lt_iff_lt_mul hxd]
    omega
  have hcb : SvgRect.covers ⟨0, 0, bits.length * s.xdim, s.height, bg⟩ x y = true := by
    simp [SvgRect.covers, hxw, hy]
  have hbs : bg.seen = ⟨s.background.r.val, s.background.g.val, s.background.b.val⟩ := by rw [Paint.seen, hbg.1]
  have hfs : fg.seen = ⟨s.foreground.r.val, s.foreground.g.val, s.foreground.b.val⟩ := by rw [Paint.seen, hfg.1]
  have hk : x / s.xdim < bits.length := by rw [Nat.div_lt_iff_lt_mul hxd]; exact hxw
  simp only [paintedAt, List.foldl_cons, List.foldl_map, hcb, if_true, hcov]
  rw [foldl_once (fun u : Seen => u.under ((fg.opacity : Nat) / 100) fg.seen) (x / s.xdim) _
    (List.Nodup.sublist List.filter_sublist List.nodup_range), hbs, hfs]
  simp [List.mem_filter, hk]

/-- The nearest hundredths are 0 for alpha 0 and 1 only, and 100 for alpha 254 and 255 only. -/
theorem nearest_zero (o a : Nat) (h : NearestOpacity o a) : o = 0 ↔ a ≤ 1 := by
  unfold NearestOpacity at h
  omega

theorem nearest_opaque (o a : Nat) (ha : a ≤ 255) (h : NearestOpacity o a) : o = 100 ↔ 254 ≤ a := by
  unfold NearestOpacity at h
  omega

theorem hundredths_zero (o : Nat) : (o : Rat) / 100 = 0 ↔ o = 0 := by
  constructor
  · intro h
    have : (o : Rat) = 0 := by grind
    exact_mod_cast this
  · rintro rfl
    decide +kernel

/-- C107. A bar and a space of an SVG picture look the same exactly if the foreground has alpha 0 or 1, or the colour that is
seen in the space. If the background has alpha 254 or 255, that is the background colour, whatever the page. -/
theorem C107_svg_visible (b : Build) (s : Svg.SVG) (bits : List Nat) (hw : bits.length * s.xdim < 2 ^ 32)
    (hx : ∀ x ∈ s.xmlns, ∀ c ∈ x, xmlPlain c = true) :
    ∃ out doc, Svg.generate b s bits = .ok out ∧ readSvg out = some doc ∧
      ∀ (page : Seen) (x y x' y' : Nat), x < bits.length * s.xdim → y < s.height → x' < bits.length * s.xdim → y' < s.height →
        bits[x / s.xdim]? = some 1 → bits[x' / s.xdim]? ≠ some 1 →
        (paintedAt doc.rects page x y = paintedAt doc.rects page x' y' ↔
          s.foreground.a.val ≤ 1 ∨
            ⟨s.foreground.r.val, s.foreground.g.val, s.foreground.b.val⟩ = paintedAt doc.rects page x' y') ∧
        (254 ≤ s.background.a.val →
          paintedAt doc.rects page x' y' = ⟨s.background.r.val, s.background.g.val, s.background.b.val⟩) := by
  obtain ⟨out, doc, fo, bo, h1, h2, h3, h4, h5⟩ := C107_svg b s bits hw hx
  refine ⟨out, doc, h1, h2, fun page x y x' y' a1 a2 a3 a4 a5 a6 => ⟨?_, fun ha => ?_⟩⟩
  · have e1 := h5 page x y a1 a2
    have e2 := h5 page x' y' a3 a4
    simp only [a5, if_true] at e1
    simp only [a6, if_false] at e2
    rw [e1, e2, under_eq, hundredths_zero, nearest_zero fo _ h3]
  · have e2 := h5 page x' y' a3 a4
    simp only [a6, if_false] at e2
    have : bo = 100 := (nearest_opaque bo _ (by have := s.background.a.isLt; omega) h4).mpr ha
    rw [e2, this, show (((100 : Nat) : Rat) / 100) = 1 by decide +kernel, under_opaque]

/-- C107. Every pixel of an image (not turned) is the foreground or the background colour, and shown directly over the page. -/
theorem C107_image (b : Build) (g : Image.Image) (bytes : List Nat) (hr : g.rotation = .zero)
    (hw : bytes.length * g.xdim < 2 ^ 32) (hs : 4 * (bytes.length * g.xdim) * g.height < 2 ^ 63) :
    ∃ buf, Image.generateBuffer b g bytes = .ok buf ∧
      ∀ (page : Seen) (x y : Nat), x < bytes.length * g.xdim → y < g.height →
        pixelOver (buf.px x y).r.val (buf.px x y).g.val (buf.px x y).b.val (buf.px x y).a.val page =
          if bytes[x / g.xdim]? = some 0 then
            page.under ((g.background.a.val : Rat) / 255) ⟨g.background.r.val, g.background.g.val, g.background.b.val⟩
          else page.under ((g.foreground.a.val : Rat) / 255) ⟨g.foreground.r.val, g.foreground.g.val, g.foreground.b.val⟩ := by
  obtain ⟨buf, h1, h2, h3, h4⟩ := C40_image_pixels b g bytes hr hw hs
  refine ⟨buf, h1, fun page x y hx hy => ?_⟩
  rw [h4 x y (by rw [h2]; exact hx) (by rw [h3]; exact hy)]
  split <;> rfl

/-- The SVG and the image settings ask for the same picture. -/
def SameSettings (s : Svg.SVG) (g : Image.Image) : Prop :=
  g.height = s.height ∧ g.xdim = s.xdim ∧ g.rotation = .zero ∧
  (g.foreground.r, g.foreground.g, g.foreground.b, g.foreground.a) =
    (s.foreground.r, s.foreground.g, s.foreground.b, s.foreground.a) ∧
  (g.background.r, g.background.g, g.background.b, g.background.a) =
    (s.background.r, s.background.g, s.background.b, s.background.a)

instance (s : Svg.SVG) (g : Image.Image) : Decidable (SameSettings s g) := by unfold SameSettings; infer_instance

/-- C107. With an opaque foreground, and a background that is opaque or fully transparent, the SVG picture and the image made
with the same settings look the same, pixel by pixel, on every page. -/
theorem C107_agree (b b' : Build) (s : Svg.SVG) (g : Image.Image) (hsg : SameSettings s g) (bits : List Nat)
    (hb : ∀ m ∈ bits, m = 0 ∨ m = 1) (hw : bits.length * s.xdim < 2 ^ 32) (hs : 4 * (bits.length * s.xdim) * s.height < 2 ^ 63)
    (hx : ∀ x ∈ s.xmlns, ∀ c ∈ x, xmlPlain c = true) (hf : s.foreground.a.val = 255)
    (hg : s.background.a.val = 0 ∨ s.background.a.val = 255) :
    ∃ out doc buf, Svg.generate b s bits = .ok out ∧ readSvg out = some doc ∧ Image.generateBuffer b' g bits = .ok buf ∧
      ∀ (page : Seen) (x y : Nat), x < bits.length * s.xdim → y < s.height →
        pixelOver (buf.px x y).r.val (buf.px x y).g.val (buf.px x y).b.val (buf.px x y).a.val page =
          paintedAt doc.rects page x y := by
  obtain ⟨out, doc, fo, bo, h1, h2, h3, h4, h5⟩ := C107_svg b s bits hw hx
  obtain ⟨e1, e2, e3, e4, e5⟩ := hsg
  simp only [Prod.mk.injEq] at e4 e5
  obtain ⟨buf, k1, k2⟩ := C107_image b' g bits e3 (by rw [e2]; exact hw) (by rw [e1, e2]; exact hs)
  refine ⟨out, doc, buf, h1, h2, k1, fun page x y hxw hy => ?_⟩
  rw [h5 page x y hxw hy, k2 page x y (by rw [e2]; exact hxw) (by rw [e1]; exact hy), e2, e4.1, e4.2.1, e4.2.2.1, e4.2.2.2,
    e5.1, e5.2.1, e5.2.2.1, e5.2.2.2]
  have hxd : 0 < s.xdim := Nat.pos_of_ne_zero (fun h => by rw [h] at hxw; simp at hxw)
  have hk : x / s.xdim < bits.length := by rw [Nat.div_lt_iff_lt_mul hxd]; exact hxw
  have hfo : fo = 100 := (nearest_opaque fo _ (by omega) h3).mpr (by omega)
  have r1 : (((100 : Nat) : Rat) / 100) = 1 := by decide +kernel
  have r2 : (((255 : Nat) : Rat) / 255) = 1 := by decide +kernel
  have r3 : (((0 : Nat) : Rat) / 255) = 0 := by decide +kernel
  have r4 : (((0 : Nat) : Rat) / 100) = 0 := by decide +kernel
  have hback : ((bo : Rat) / 100) = ((s.background.a.val : Rat) / 255) := by
    rcases hg with hg | hg
    · rw [hg, (nearest_zero bo _ h4).mpr (by omega), r3, r4]
    · rw [hg, (nearest_opaque bo _ (by omega) h4).mpr (by omega), r1, r2]
  have hm : bits[x / s.xdim]? = some 0 ∨ bits[x / s.xdim]? = some 1 := by
    rw [List.getElem?_eq_getElem hk]
    rcases hb _ (List.getElem_mem hk) with h | h <;> rw [h] <;> simp
  rcases hm with hm | hm
  · simp only [hm, if_true, hback]
    simp
  · simp only [hm, if_true, hfo, hf, r1, r2, under_opaque]
    simp

/-- C107. With a fully transparent foreground they do not: the SVG picture shows the (opaque) background everywhere, the image
shows the page in its bars. -/
theorem C107_holes (b b' : Build) (s : Svg.SVG) (g : Image.Image) (hsg : SameSettings s g) (bits : List Nat)
    (hw : bits.length * s.xdim < 2 ^ 32) (hs : 4 * (bits.length * s.xdim) * s.height < 2 ^ 63)
    (hx : ∀ x ∈ s.xmlns, ∀ c ∈ x, xmlPlain c = true) (hf : s.foreground.a.val = 0) (hg : s.background.a.val = 255) :
    ∃ out doc buf, Svg.generate b s bits = .ok out ∧ readSvg out = some doc ∧ Image.generateBuffer b' g bits = .ok buf ∧
      ∀ (page : Seen) (x y : Nat), x < bits.length * s.xdim → y < s.height → bits[x / s.xdim]? = some 1 →
        paintedAt doc.rects page x y = ⟨s.background.r.val, s.background.g.val, s.background.b.val⟩ ∧
        pixelOver (buf.px x y).r.val (buf.px x y).g.val (buf.px x y).b.val (buf.px x y).a.val page = page := by
  obtain ⟨out, doc, fo, bo, h1, h2, h3, h4, h5⟩ := C107_svg b s bits hw hx
  obtain ⟨e1, e2, e3, e4, e5⟩ := hsg
  simp only [Prod.mk.injEq] at e4 e5
  obtain ⟨buf, k1, k2⟩ := C107_image b' g bits e3 (by rw [e2]; exact hw) (by rw [e1, e2]; exact hs)
  refine ⟨out, doc, buf, h1, h2, k1, fun page x y hxw hy hm => ?_⟩
  rw [h5 page x y hxw hy, k2 page x y (by rw [e2]; exact hxw) (by rw [e1]; exact hy), e2, e4.2.2.2, hf,
    (nearest_zero fo _ h3).mpr (by omega), (nearest_opaque bo _ (by omega) h4).mpr (by omega)]
  have r1 : (((100 : Nat) : Rat) / 100) = 1 := by decide +kernel
  have r3 : (((0 : Nat) : Rat) / 255) = 0 := by decide +kernel
  have r4 : (((0 : Nat) : Rat) / 100) = 0 := by decide +kernel
  simp only [hm, if_true, r1, r3, r4, under_opaque]
  exact ⟨(under_eq _ _ _).mpr (Or.inl rfl), by rw [if_neg (by simp)]; exact (under_eq _ _ _).mpr (Or.inl rfl)⟩

/-- What is seen in the first row of an SVG picture. -/
def svgRow (s : Svg.SVG) (bits : List Nat) (page : Seen) (n : Nat) : Option (List Seen) :=
  match Svg.generate .debug s bits with
  | .ok o => (readSvg o).map (fun d => (List.range n).map (fun x => paintedAt d.rects page x 0))
  | _ => none

/-- Red of alpha 128, half on white of alpha 51, on black: the space is a fifth of white. -/
example : svgRow { Svg.new 3 with foreground := ⟨200, 0, 0, 128⟩, background := ⟨255, 255, 255, 51⟩ } [1, 0] ⟨0, 0, 0⟩ 2 =
    some [⟨251 / 2, 51 / 2, 51 / 2⟩, ⟨51, 51, 51⟩] := by decide +kernel

/-- Black of alpha 1 on white cannot be seen, of alpha 2 it can. -/
example : svgRow { Svg.new 3 with foreground := ⟨0, 0, 0, 1⟩ } [1, 0] ⟨0, 0, 0⟩ 2 =
      some [⟨255, 255, 255⟩, ⟨255, 255, 255⟩] ∧
    svgRow { Svg.new 3 with foreground := ⟨0, 0, 0, 2⟩ } [1, 0] ⟨0, 0, 0⟩ 2 =
      some [⟨5049 / 20, 5049 / 20, 5049 / 20⟩, ⟨255, 255, 255⟩] := by decide +kernel

/-- The same red as an image: the bar is half red on the page. -/
example : ∃ buf, Image.generateBuffer .debug
      { Image.png 3 with foreground := ⟨200, 0, 0, 51⟩, background := ⟨255, 255, 255, 51⟩ } [1, 0] = .ok buf ∧
    pixelOver (buf.px 0 0).r.val (buf.px 0 0).g.val (buf.px 0 0).b.val (buf.px 0 0).a.val ⟨0, 0, 0⟩ = ⟨40, 0, 0⟩ :=
  ⟨_, rfl, by decide +kernel⟩

example : SameSettings (Svg.new 8) (Image.png 8) ∧ ∃ out doc buf, Svg.generate .debug (Svg.new 8) [1, 0, 1] = .ok out ∧
    readSvg out = some doc ∧ Image.generateBuffer .debug (Image.png 8) [1, 0, 1] = .ok buf ∧
    ∀ (page : Seen) (x y : Nat), x < 3 → y < 8 →
      pixelOver (buf.px x y).r.val (buf.px x y).g.val (buf.px x y).b.val (buf.px x y).a.val page =
        paintedAt doc.rects page x y :=
  ⟨by decide, C107_agree .debug .debug (Svg.new 8) (Image.png 8) (by decide) [1, 0, 1] (by decide) (by decide) (by decide)
    (fun x h => by cases h) rfl (Or.inr rfl)⟩

end Barcoders
