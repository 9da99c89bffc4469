import Verif.Lemmas.Svg
import Verif.Lemmas.Basic

/-!
# SVG output (C37, C38, C39, C49)
-/

set_option autoImplicit false

namespace Barcoders
open Spec

theorem enumFrom_filter (bits : List Nat) (k : Nat) :
    (enumFrom k bits).filter (fun p => p.2 == 1) =
      ((List.range bits.length).filter (fun i => bits[i]? = some 1)).map (fun i => (k + i, 1)) := by
  induction bits generalizing k with
  | nil => rfl
  | cons b l ih =>
    rw [enumFrom, List.length_cons, List.range_succ_eq_map, List.filter_cons, List.filter_cons, ih, List.filter_map]
    have hf : (fun i => decide ((b :: l)[i]? = some 1)) ∘ Nat.succ = fun i => decide (l[i]? = some 1) := by
      funext i; simp
    have hm : ∀ L : List Nat, List.map (fun i => (k + i, 1)) (List.map Nat.succ L) = List.map (fun i => (k + 1 + i, 1)) L := by
      intro L
      rw [List.map_map]
      apply List.map_congr_left
      intro i _
      simp only [Function.comp, Prod.mk.injEq, and_true]
      omega
    rw [hf]
    by_cases hb : b = 1
    · simp only [hb, beq_self_eq_true, if_true, List.getElem?_cons_zero, decide_true, List.map_cons, hm, Nat.add_zero]
    · simp [hb, hm]

/-- The places of the bars. -/
def barPlaces (bits : List Nat) : List Nat := (List.range bits.length).filter (fun i => bits[i]? = some 1)

theorem asU32_mul (n i x : Nat) (h : n * x < 2 ^ 32) (hi : i ≤ n) : asU32 i * x = i * x := by
  rcases Nat.eq_zero_or_pos x with rfl | hx
  · simp
  · have : n < 2 ^ 32 := Nat.lt_of_le_of_lt (Nat.le_mul_of_pos_right n hx) h
    rw [asU32, Nat.mod_eq_of_lt (by omega)]

theorem svg_generate (b : Build) (s : Svg.SVG) (bits : List Nat) (hw : bits.length * s.xdim < 2 ^ 32) :
    Svg.generate b s bits = .ok ("<svg version=\"1.1\" ".toList ++
        xmlnsText s.xmlns ++
        "viewBox=\"0 0 ".toList ++ showNat (bits.length * s.xdim) ++ " ".toList ++ showNat s.height ++ "\">".toList ++
        (((0, 0, bits.length * s.xdim) :: (barPlaces bits).map (fun i => (1, i * s.xdim, s.xdim))).map
          (fun p => Svg.rect s p.1 p.2.1 p.2.2)).flatten ++ "</svg>".toList) := by
  have h1 : u32 b (asU32 bits.length * s.xdim) = .ok (bits.length * s.xdim) := by
    rw [asU32_mul _ _ _ hw (Nat.le_refl _), u32_ok b _ hw]
  have h2 : mapO (Svg.barRect b s) ((enumerate bits).filter (fun p => p.2 == 1)) =
      .ok ((barPlaces bits).map (fun i => Svg.rect s 1 (i * s.xdim) s.xdim)) := by
    rw [enumerate, enumFrom_filter, mapO_ok _ (fun p => Svg.rect s p.2 (p.1 * s.xdim) s.xdim)]
    · simp [barPlaces, Function.comp_def]
    · intro p hp
      simp only [List.mem_map, List.mem_filter, List.mem_range] at hp
      obtain ⟨i, ⟨hi, _⟩, rfl⟩ := hp
      have hlt : i * s.xdim < 2 ^ 32 := Nat.lt_of_le_of_lt (Nat.mul_le_mul_right _ (Nat.le_of_lt hi)) hw
      simp only [Svg.barRect, Nat.zero_add]
      rw [asU32_mul _ _ _ hw (Nat.le_of_lt hi), u32_ok b _ hlt]
      rfl
  unfold Svg.generate
  rw [h1, h2]
  rw [Outcome.ok_bind, Outcome.ok_bind, List.map_cons, List.flatten_cons, List.map_map,
    ← List.append_assoc _ (Svg.rect s 0 0 (bits.length * s.xdim)) _]
  cases s.xmlns <;> rfl

/-- C37: the output is an SVG document with the expected view box: a background rectangle, then one foreground
rectangle for every module that is 1. -/
theorem C37_svg_parses (b : Build) (s : Svg.SVG) (bits : List Nat) (hw : bits.length * s.xdim < 2 ^ 32)
    (hx : ∀ x ∈ s.xmlns, ∀ c ∈ x, xmlPlain c = true) :
    ∃ out fg bg, Svg.generate b s bits = .ok out ∧
      Paint.Shows fg s.foreground.r s.foreground.g s.foreground.b s.foreground.a ∧
      Paint.Shows bg s.background.r s.background.g s.background.b s.background.a ∧
      readSvg out = some {
        version := some "1.1".toList
        xmlns := s.xmlns
        viewBox := [0, 0, bits.length * s.xdim, s.height]
        rects := ⟨0, 0, bits.length * s.xdim, s.height, bg⟩ ::
          ((List.range bits.length).filter (fun i => bits[i]? = some 1)).map
            (fun i => ⟨i * s.xdim, 0, s.xdim, s.height, fg⟩) } := by
  refine ⟨_, paintOf s.foreground, paintOf s.background, svg_generate b s bits hw, paintOf_shows _, paintOf_shows _, ?_⟩
  obtain ⟨as, h1, h2, h3, h4⟩ := svg_xml s (bits.length * s.xdim) _ _ hx
    (rects_xml s ((0, 0, bits.length * s.xdim) :: (barPlaces bits).map (fun i => (1, i * s.xdim, s.xdim))))
  rw [readSvg, h1]
  simp only [Option.bind_eq_bind, Option.bind_some, if_true]
  rw [h2, h3, h4, rects_read]
  simp only [Option.bind_some, readNats_box, List.map_cons, List.map_map, Function.comp_def]
  rfl

example : (match Svg.generate .debug { Svg.new 8 with xmlns := some "urn:x".toList } [1, 0, 1] with
    | .ok o => readSvg o
    | _ => none) = some ⟨some "1.1".toList, some "urn:x".toList, [0, 0, 3, 8],
      [⟨0, 0, 3, 8, ⟨(255, 255, 255), 100⟩⟩, ⟨0, 0, 1, 8, ⟨(0, 0, 0), 100⟩⟩, ⟨2, 0, 1, 8, ⟨(0, 0, 0), 100⟩⟩]⟩ := by decide +kernel

/-- The picture for the colours of `C37_svg_parses`. -/
theorem C38_svg_shows_bars (b : Build) (s : Svg.SVG) (bits : List Nat) (hw : bits.length * s.xdim < 2 ^ 32)
    (hx : ∀ x ∈ s.xmlns, ∀ c ∈ x, xmlPlain c = true) :
    ∃ out doc, Svg.generate b s bits = .ok out ∧ readSvg out = some doc ∧
      doc.viewBox = [0, 0, bits.length * s.xdim, s.height] ∧
      ∀ x y, x < bits.length * s.xdim → y < s.height →
        ∃ r, topmost doc.rects x y = some r ∧
          (if bits[x / s.xdim]? = some 1 then
            r.fill.Shows s.foreground.r s.foreground.g s.foreground.b s.foreground.a
          else r.fill.Shows s.background.r s.background.g s.background.b s.background.a) ∧
          (bits[x / s.xdim]? = some 1 ↔ r ∈ doc.rects.tail) := by
  obtain ⟨out, fg, bg, h1, hfg, hbg, h2⟩ := C37_svg_parses b s bits hw hx
  refine ⟨out, _, h1, h2, rfl, ?_⟩
  intro x y hxw hy
  have hxd : 0 < s.xdim := Nat.pos_of_ne_zero (fun h => by rw [h] at hxw; simp at hxw)
  have hcov : ∀ i, SvgRect.covers ⟨i * s.xdim, 0, s.xdim, s.height, fg⟩ x y = true ↔ i = x / s.xdim := by
    intro i
    simp only [SvgRect.covers, Bool.and_eq_true, decide_eq_true_eq, Nat.zero_le, and_true, Nat.zero_add]
    rw [show i * s.xdim + s.xdim = (i + 1) * s.xdim by rw [Nat.add_mul, Nat.one_mul]]
    rw [← Nat.le_div_iff_mul_le hxd, ← Nat.div_lt_iff_lt_mul hxd]
    omega
  simp only [List.tail_cons]
  generalize hL : ((List.range bits.length).filter (fun i => bits[i]? = some 1)).map
    (fun i => (⟨i * s.xdim, 0, s.xdim, s.height, fg⟩ : SvgRect)) = L
  have hmem : ∀ r ∈ L, r.covers x y = true → bits[x / s.xdim]? = some 1 ∧ r.fill = fg := by
    intro r hr hc
    rw [← hL] at hr
    obtain ⟨i, hi, rfl⟩ := List.mem_map.mp hr
    rw [hcov i] at hc
    rw [List.mem_filter] at hi
    exact ⟨by simpa [hc] using hi.2, rfl⟩
  unfold topmost
  rw [List.reverse_cons, List.find?_append]
  by_cases hb : bits[x / s.xdim]? = some 1
  · have hin : (⟨x / s.xdim * s.xdim, 0, s.xdim, s.height, fg⟩ : SvgRect) ∈ L := by
      rw [← hL]
      refine List.mem_map.mpr ⟨x / s.xdim, List.mem_filter.mpr ⟨List.mem_range.mpr ?_, by simpa using hb⟩, rfl⟩
      rw [Nat.div_lt_iff_lt_mul hxd]; exact hxw
    have hsome : (L.reverse.find? (·.covers x y)).isSome := by
      rw [List.find?_isSome]
      exact ⟨_, List.mem_reverse.mpr hin, (hcov _).mpr rfl⟩
    obtain ⟨r, hr⟩ := Option.isSome_iff_exists.mp hsome
    refine ⟨r, by rw [hr]; rfl, ?_, ?_⟩
    · rw [if_pos hb, (hmem r (List.mem_reverse.mp (List.mem_of_find?_eq_some hr)) (List.find?_some (p := fun r : SvgRect => r.covers x y) hr)).2]
      exact hfg
    · exact iff_of_true hb (List.mem_reverse.mp (List.mem_of_find?_eq_some hr))
  · have hnone : L.reverse.find? (·.covers x y) = none := by
      rw [List.find?_eq_none]
      intro r hr hc
      exact hb (hmem r (List.mem_reverse.mp hr) hc).1
    have hcb : SvgRect.covers ⟨0, 0, bits.length * s.xdim, s.height, bg⟩ x y = true := by
      simp [SvgRect.covers, hxw, hy]
    refine ⟨⟨0, 0, bits.length * s.xdim, s.height, bg⟩, ?_, ?_, ?_⟩
    · rw [hnone]
      simp [hcb]
    · rw [if_neg hb]; exact hbg
    · refine iff_of_false hb (fun h => hb (hmem _ h hcb).1)

example : (match Svg.generate .debug { Svg.new 8 with xdim := 2 } [1, 0, 1] with
    | .ok o => (readSvg o).map (fun d => (List.range 6).map (fun x => (topmost d.rects x 7).map (·.fill.rgb.1)))
    | _ => none) = some [some 0, some 0, some 255, some 255, some 0, some 0] := by decide +kernel

/-- With overflow checks a width that does not fit is an error, not a wrong picture. -/
theorem C37_svg_debug_overflow (s : Svg.SVG) (bits : List Nat) (hl : bits.length < 2 ^ 32)
    (hw : 2 ^ 32 ≤ bits.length * s.xdim) : Svg.generate .debug s bits = .panic .overflow := by
  unfold Svg.generate
  rw [asU32, Nat.mod_eq_of_lt hl, u32, if_neg (by omega)]
  rfl

example : Svg.generate .debug { Svg.new 1 with xdim := 2 ^ 31 } [1, 0, 1] = .panic .overflow := by decide

/-- Without them the width wraps: here the first and third bar are painted at the same place. -/
theorem C37_svg_release_wraps :
    Svg.generate .release { Svg.new 1 with xdim := 2 ^ 31 } [1, 0, 1] =
      .ok ("<svg version=\"1.1\" viewBox=\"0 0 2147483648 1\">".toList ++
        "<rect x=\"0\" y=\"0\" width=\"2147483648\" height=\"1\" fill=\"#ffffff\"/>".toList ++
        "<rect x=\"0\" y=\"0\" width=\"2147483648\" height=\"1\" fill=\"#000000\"/>".toList ++
        "<rect x=\"0\" y=\"0\" width=\"2147483648\" height=\"1\" fill=\"#000000\"/></svg>".toList) := by
  decide +kernel

/-! Colours -/

/-- C39: the colour attribute is written with six lower-case hexadecimal digits, which read back as the colour; the
opacity is nearest to `a/255`, and it is left out exactly for 254 and 255, where it is `1.00`. -/
theorem C39_svg_colours (s : Svg.SVG) (style off w : Nat) :
    let c := if style = 1 then s.foreground else s.background
    ∃ hex pre opacity o, Svg.rect s style off w = pre ++ " fill=\"#".toList ++ hex ++ "\"".toList ++ opacity ++ "/>".toList ∧
      hex.length = 6 ∧ (∀ d ∈ hex, d.isDigit ∨ d ∈ "abcdef".toList) ∧
      readColour ('#' :: hex) = some (c.r.val, c.g.val, c.b.val) ∧
      (opacity = [] ↔ 254 ≤ c.a.val) ∧
      (c.a.val < 254 → ∃ text, opacity = " fill-opacity=\"".toList ++ text ++ "\" ".toList ∧ readOpacity text = some o) ∧
      (254 ≤ c.a.val → o = 100) ∧
      2 * (255 * o) ≤ 2 * (100 * c.a.val) + 255 ∧ 2 * (100 * c.a.val) ≤ 2 * (255 * o) + 255 := by
  intro c
  obtain ⟨h1, h2, h3⟩ := toHex_spec c
  obtain ⟨h4, h5, h6⟩ := toOpacity_table c.a.val c.a.isLt
  refine ⟨c.toHex, "<rect x=\"".toList ++ showNat off ++ "\" y=\"0\" width=\"".toList ++ showNat w ++
      "\" height=\"".toList ++ showNat s.height ++ "\"".toList,
      if 254 ≤ c.a.val then [] else " fill-opacity=\"".toList ++ c.toOpacity ++ "\" ".toList,
      Svg.hundredths c.a.val, ?_, h2, fun d hd => (h3 d hd).1,
      h1, ?_, ?_, fun h => (hundredths_full _ c.a.isLt).mp h, hundredths_near _ c.a.isLt⟩
  · rw [rect_eq]
    rw [show "\" fill=\"#".toList = "\"".toList ++ " fill=\"#".toList from rfl]
    simp only [List.append_assoc]
    rfl
  · split
    · simp [*]
    · simp [*]
  · intro h
    refine ⟨c.toOpacity, ?_, h4⟩
    rw [if_neg (by omega)]

example : Svg.rect { Svg.new 3 with foreground := ⟨255, 0, 10, 128⟩ } 1 4 2 =
    "<rect x=\"4\" y=\"0\" width=\"2\" height=\"3\" fill=\"#ff000a\" fill-opacity=\"0.50\" />".toList := by decide +kernel

theorem rectAttrs_writes (s : Svg.SVG) (style off w : Nat) :
    let c := styleColor s style
    WritesColour (rectAttrs s style off w) c.r.val c.g.val c.b.val c.a.val := by
  intro c
  obtain ⟨h1, h2, h3⟩ := toHex_spec c
  obtain ⟨h4, h5, h6⟩ := toOpacity_table c.a.val c.a.isLt
  have hc := c.a.isLt
  have hf : ∀ o : Attrs, (([("x".toList, showNat off), ("y".toList, "0".toList), ("width".toList, showNat w),
      ("height".toList, showNat s.height), ("fill".toList, '#' :: c.toHex)] : Attrs) ++ o).lookup "fill".toList =
        some ('#' :: c.toHex) := fun _ => rfl
  have ho : ∀ o : Attrs, (([("x".toList, showNat off), ("y".toList, "0".toList), ("width".toList, showNat w),
      ("height".toList, showNat s.height), ("fill".toList, '#' :: c.toHex)] : Attrs) ++ o).lookup "fill-opacity".toList =
        o.lookup "fill-opacity".toList := fun _ => rfl
  refine ⟨⟨c.toHex, hf _, h2, fun d hd => (h3 d hd).1, h1⟩, ?_, ?_⟩
  · show List.lookup _ (_ ++ _) = none ↔ _
    rw [ho]
    by_cases ha : 254 ≤ c.a.val
    · rw [if_pos ha]
      exact ⟨fun _ => by omega, fun _ => rfl⟩
    · rw [if_neg ha]
      exact ⟨fun h => (by cases h), fun h => absurd h (by omega)⟩
  · show ∀ v, List.lookup _ (_ ++ _) = some v → _
    rw [ho]
    intro v hv
    by_cases ha : 254 ≤ c.a.val
    · rw [if_pos ha] at hv
      cases hv
    · rw [if_neg ha] at hv
      have hv : some c.toOpacity = some v := hv
      cases hv
      refine ⟨Svg.hundredths c.a.val, h4, ?_, hundredths_near _ hc⟩
      rw [hundredths_eq _ hc]
      omega

/-- C39, in the generated document: the first rectangle writes the background colour and all others, one for each bar,
write the foreground colour. -/
theorem C39_svg_document (b : Build) (s : Svg.SVG) (bits : List Nat) (hw : bits.length * s.xdim < 2 ^ 32)
    (hx : ∀ x ∈ s.xmlns, ∀ c ∈ x, xmlPlain c = true) :
    ∃ out svg r, ∃ rs : List Attrs, Svg.generate b s bits = .ok out ∧
      readXml out = some (.start "svg".toList svg :: .empty "rect".toList r ::
        (rs.map (.empty "rect".toList) ++ [.stop "svg".toList])) ∧
      rs.length = bits.count 1 ∧
      WritesColour r s.background.r s.background.g s.background.b s.background.a ∧
      ∀ a ∈ rs, WritesColour a s.foreground.r s.foreground.g s.foreground.b s.foreground.a := by
  obtain ⟨as, h1, -⟩ := svg_xml s (bits.length * s.xdim) _ _ hx
    (rects_xml s ((0, 0, bits.length * s.xdim) :: (barPlaces bits).map (fun i => (1, i * s.xdim, s.xdim))))
  refine ⟨_, as, rectAttrs s 0 0 (bits.length * s.xdim), (barPlaces bits).map (fun i => rectAttrs s 1 (i * s.xdim) s.xdim),
    svg_generate b s bits hw, ?_, ?_, rectAttrs_writes s 0 _ _, ?_⟩
  · rw [h1]
    simp [List.map_map, Function.comp_def]
  · rw [List.length_map]
    have := congrArg List.length (enumFrom_filter bits 0)
    rw [List.length_map] at this
    rw [barPlaces, ← this]
    clear h1 this
    generalize 0 = k
    induction bits generalizing k with
    | nil => rfl
    | cons m l ih =>
      have hl : l.length * s.xdim < 2 ^ 32 := by rw [List.length_cons, Nat.add_mul] at hw; omega
      rw [enumFrom, List.filter_cons, List.count_cons, ← ih hl (k + 1)]
      by_cases hm : m = 1
      · simp [hm]
      · simp [hm]
  · intro a ha
    obtain ⟨i, -, rfl⟩ := List.mem_map.1 ha
    exact rectAttrs_writes s 1 _ _

-- a half transparent red bar on white
example : Svg.generate .debug { Svg.new 1 with foreground := ⟨255, 0, 10, 128⟩ } [0, 1] =
    .ok ("<svg version=\"1.1\" viewBox=\"0 0 2 1\"><rect x=\"0\" y=\"0\" width=\"2\" height=\"1\" fill=\"#ffffff\"/>".toList ++
      "<rect x=\"1\" y=\"0\" width=\"1\" height=\"1\" fill=\"#ff000a\" fill-opacity=\"0.50\" /></svg>".toList) := by
  decide +kernel

/-- The nearest number of hundredths does not depend on rounding errors of the division: let `n/d` be any fraction
within `2^-53` of `a/255`, and `o` any number of hundredths nearest to it. Then `o` is the number that the model prints. -/
theorem opacity_float_robust (a n d o : Nat) (ha : a < 256) (hd : 0 < d)
    (h1 : 2 ^ 53 * (255 * n) ≤ 2 ^ 53 * (a * d) + 255 * d) (h2 : 2 ^ 53 * (a * d) ≤ 2 ^ 53 * (255 * n) + 255 * d)
    (h3 : 2 * (100 * n) ≤ 2 * (o * d) + d) (h4 : 2 * (o * d) ≤ 2 * (100 * n) + d) : o = Svg.hundredths a := by
  have hu : 200 * a + 5 ≤ 510 * Svg.hundredths a + 255 := by rw [hundredths_eq a ha]; omega
  have hl : 510 * Svg.hundredths a ≤ 200 * a + 250 := by rw [hundredths_eq a ha]; omega
  generalize Svg.hundredths a = h at *
  have hu' := Nat.mul_le_mul_right d hu
  have hl' := Nat.mul_le_mul_right d hl
  simp only [Nat.add_mul, Nat.mul_assoc] at hu' hl'
  rcases Nat.lt_trichotomy o h with hlt | heq | hgt
  · exfalso
    have := Nat.mul_le_mul_right d (show o + 1 ≤ h from hlt)
    rw [Nat.add_mul] at this
    omega
  · exact heq
  · exfalso
    have := Nat.mul_le_mul_right d (show h + 1 ≤ o from hgt)
    rw [Nat.add_mul] at this
    omega

/-! Builder -/

/-- A builder call. -/
inductive SvgCall where
  | xdim (n : Nat)
  | foreground (c : Svg.Color)
  | background (c : Svg.Color)
  | xmlns (u : List Char)

/-- Make the call. -/
def SvgCall.run (s : Svg.SVG) : SvgCall → Svg.SVG
  | .xdim n => s.setXdim n
  | .foreground c => s.setForeground c
  | .background c => s.setBackground c
  | .xmlns u => s.setXmlns u

/-- C49: after any calls each setting is the one of the last call for it, or else the default. -/
theorem C49_svg_builder (h : Nat) (calls : List SvgCall) :
    calls.foldl SvgCall.run (Svg.new h) = {
      height := h
      xdim := ((calls.filterMap (fun | .xdim n => some n | _ => none)).getLast?).getD 1
      foreground := ((calls.filterMap (fun | .foreground c => some c | _ => none)).getLast?).getD ⟨0, 0, 0, 255⟩
      background := ((calls.filterMap (fun | .background c => some c | _ => none)).getLast?).getD ⟨255, 255, 255, 255⟩
      xmlns := (calls.filterMap (fun | .xmlns u => some u | _ => none)).getLast? } := by
  have key : ∀ (calls : List SvgCall) (s : Svg.SVG), calls.foldl SvgCall.run s = {
      height := s.height
      xdim := ((calls.filterMap (fun | .xdim n => some n | _ => none)).getLast?).getD s.xdim
      foreground := ((calls.filterMap (fun | .foreground c => some c | _ => none)).getLast?).getD s.foreground
      background := ((calls.filterMap (fun | .background c => some c | _ => none)).getLast?).getD s.background
      xmlns := ((calls.filterMap (fun | .xmlns u => some u | _ => none)).getLast?).or s.xmlns } := by
    intro calls
    induction calls with
    | nil => intro s; rfl
    | cons c calls ih =>
      intro s
      rw [List.foldl_cons, ih]
      cases c <;>
        simp [SvgCall.run, Svg.SVG.setXdim, Svg.SVG.setForeground, Svg.SVG.setBackground, Svg.SVG.setXmlns,
          List.getLast?_cons]
      all_goals (try (split <;> simp_all))
  rw [key]
  simp [Svg.new]

example : (((Svg.new 5).setXdim 2).setXmlns "urn:x".toList).setXdim 3 =
    { Svg.new 5 with xdim := 3, xmlns := some "urn:x".toList } := rfl

/-- Calls that set different things can be exchanged. -/
theorem C49_svg_builder_comm (s : Svg.SVG) (n : Nat) (c d : Svg.Color) (u : List Char) :
    (s.setXdim n).setForeground c = (s.setForeground c).setXdim n ∧
    (s.setXdim n).setBackground d = (s.setBackground d).setXdim n ∧
    (s.setXdim n).setXmlns u = (s.setXmlns u).setXdim n ∧
    (s.setForeground c).setBackground d = (s.setBackground d).setForeground c ∧
    (s.setForeground c).setXmlns u = (s.setXmlns u).setForeground c ∧
    (s.setBackground d).setXmlns u = (s.setXmlns u).setBackground d := ⟨rfl, rfl, rfl, rfl, rfl, rfl⟩

/-! Concrete cases -/

/-- Two bars of three modules, semi-transparent red on white, with a name space. -/
example : (Svg.generate .debug { Svg.new 8 with xdim := 2, foreground := ⟨255, 0, 10, 128⟩, xmlns := some "urn:x".toList }
      [1, 0, 1]) =
    .ok ("<svg version=\"1.1\" xmlns=\"urn:x\" viewBox=\"0 0 6 8\">".toList ++
      "<rect x=\"0\" y=\"0\" width=\"6\" height=\"8\" fill=\"#ffffff\"/>".toList ++
      "<rect x=\"0\" y=\"0\" width=\"2\" height=\"8\" fill=\"#ff000a\" fill-opacity=\"0.50\" />".toList ++
      "<rect x=\"4\" y=\"0\" width=\"2\" height=\"8\" fill=\"#ff000a\" fill-opacity=\"0.50\" /></svg>".toList) := by
  decide +kernel
example : readSvg "<svg version=\"1.1\" viewBox=\"0 0 6 8\"><rect x=\"4\" y=\"0\" width=\"2\" height=\"8\" fill=\"#ff000a\" fill-opacity=\"0.50\" /></svg>".toList =
    some ⟨some "1.1".toList, none, [0, 0, 6, 8], [⟨4, 0, 2, 8, ⟨(255, 0, 10), 50⟩⟩]⟩ := by decide +kernel
/-- The reader rejects a missing quote, a repeated attribute and a missing end tag. -/
example : readSvg "<svg viewBox=\"0 0 6 8></svg>".toList = none ∧
    readSvg "<svg viewBox=\"0 0 6 8\" viewBox=\"0 0 6 8\"></svg>".toList = none ∧
    readSvg "<svg viewBox=\"0 0 6 8\">".toList = none := by decide +kernel
/-- A name space with a quote is not escaped. -/
example : ∃ out, Svg.generate .debug { Svg.new 8 with xmlns := some "\"".toList } [1] = .ok out ∧ readSvg out = none :=
  ⟨_, rfl, by decide +kernel⟩

end Barcoders
