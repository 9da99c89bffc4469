import Verif.Props.Defaults

/-!
# C72: `Color::black` and `Color::white`

The two named colours, in the pictures and in their negatives.
-/

set_option autoImplicit false

namespace Barcoders
open Spec

theorem svg_opaque (b : Build) (s : Svg.SVG) (ms : List Nat) (hw : ms.length * s.xdim < 2 ^ 32)
    (hx : ∀ x ∈ s.xmlns, ∀ c ∈ x, xmlPlain c = true) (f f' : Nat) (hf : s.foreground.r = f ∧ s.foreground.g = f ∧ s.foreground.b = f)
    (hg : s.background.r = f' ∧ s.background.g = f' ∧ s.background.b = f') (ha : s.foreground.a.val = 255)
    (ha' : s.background.a.val = 255) :
    ∃ out doc, Svg.generate b s ms = .ok out ∧ readSvg out = some doc ∧
      ∀ x y, x < ms.length * s.xdim → y < s.height → ∃ r, topmost doc.rects x y = some r ∧ r.fill.opacity = 100 ∧
        r.fill.rgb = if ms[x / s.xdim]? = some 1 then (f, f, f) else (f', f', f') := by
  obtain ⟨out, doc, h1, h2, -, h4⟩ := C38_svg_shows_bars b s ms hw hx
  refine ⟨out, doc, h1, h2, fun x y hx hy => ?_⟩
  obtain ⟨r, hr, h5, -⟩ := h4 x y hx hy
  refine ⟨r, hr, ?_⟩
  rw [hf.1, hf.2.1, hf.2.2, hg.1, hg.2.1, hg.2.2, ha, ha'] at h5
  by_cases h : ms[x / s.xdim]? = some 1
  · rw [if_pos h] at h5 ⊢
    obtain ⟨h6, h7, h8⟩ := h5
    exact ⟨by omega, h6⟩
  · rw [if_neg h] at h5 ⊢
    obtain ⟨h6, h7, h8⟩ := h5
    exact ⟨by omega, h6⟩

/-- C72. An SVG with the foreground `Color::black()` and the background `Color::white()` shows opaque black bars on opaque white;
with the two exchanged, opaque white bars on opaque black. -/
theorem C72_svg_colors (b : Build) (s : Svg.SVG) (ms : List Nat) (hw : ms.length * s.xdim < 2 ^ 32)
    (hx : ∀ x ∈ s.xmlns, ∀ c ∈ x, xmlPlain c = true) :
    (∃ out doc, Svg.generate b ((s.setForeground Svg.Color.black).setBackground Svg.Color.white) ms = .ok out ∧
      readSvg out = some doc ∧ ∀ x y, x < ms.length * s.xdim → y < s.height → ∃ r, topmost doc.rects x y = some r ∧
        r.fill.opacity = 100 ∧ r.fill.rgb = if ms[x / s.xdim]? = some 1 then (0, 0, 0) else (255, 255, 255)) ∧
    (∃ out doc, Svg.generate b ((s.setForeground Svg.Color.white).setBackground Svg.Color.black) ms = .ok out ∧
      readSvg out = some doc ∧ ∀ x y, x < ms.length * s.xdim → y < s.height → ∃ r, topmost doc.rects x y = some r ∧
        r.fill.opacity = 100 ∧ r.fill.rgb = if ms[x / s.xdim]? = some 1 then (255, 255, 255) else (0, 0, 0)) :=
  ⟨svg_opaque b ((s.setForeground Svg.Color.black).setBackground Svg.Color.white) ms hw hx 0 255 ⟨rfl, rfl, rfl⟩ ⟨rfl, rfl, rfl⟩
    rfl rfl,
   svg_opaque b ((s.setForeground Svg.Color.white).setBackground Svg.Color.black) ms hw hx 255 0 ⟨rfl, rfl, rfl⟩ ⟨rfl, rfl, rfl⟩
    rfl rfl⟩

example : ∃ out doc, Svg.generate .release (((Svg.new 7).setForeground Svg.Color.white).setBackground Svg.Color.black) [1, 0, 1] = .ok out ∧
    readSvg out = some doc ∧ (topmost doc.rects 2 6).map (·.fill.rgb) = some (255, 255, 255) ∧
    (topmost doc.rects 1 6).map (·.fill.rgb) = some (0, 0, 0) :=
  ⟨_, (readSvg (match Svg.generate .release (((Svg.new 7).setForeground Svg.Color.white).setBackground Svg.Color.black) [1, 0, 1] with
    | .ok o => o | _ => [])).get (by decide +kernel), rfl, by decide +kernel, by decide +kernel, by decide +kernel⟩

end Barcoders
