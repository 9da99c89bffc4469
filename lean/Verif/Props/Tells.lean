import Verif.Props.Measure
import Verif.Props.OddBytes

/-!
# A picture tells how it was made (C114)

Two calls of a generator give the same text only if they draw the same symbol with the same settings, as far as the
settings show at all.
-/

set_option autoImplicit false

namespace Barcoders
open Spec

/-! ## Text and JSON -/

/-- C114. Two symbols drawn as text. -/
theorem C114_ascii (b b' : Build) (k k' : Kind) (s s' : List Char) (ms ms' : List Nat) (h : Drawn b k s ms)
    (h' : Drawn b' k' s' ms') (g g' : Ascii.ASCII) (hh : 0 < g.height) (hx : 0 < g.xdim) (hh' : 0 < g'.height)
    (hx' : 0 < g'.xdim) :
    Ascii.generate g ms = Ascii.generate g' ms' ↔ g.height = g'.height ∧ g.xdim = g'.xdim ∧ ms = ms' := by
  constructor
  · intro he
    obtain ⟨out, h1, h2, h3⟩ := C67_ascii b k s ms h g hh hx
    obtain ⟨out', h1', h2', h3'⟩ := C67_ascii b' k' s' ms' h' g' hh' hx'
    rw [h1, h1'] at he
    cases he
    have hne : splitLines out ≠ [] := fun e => by rw [e] at h2; simp at h2; omega
    obtain ⟨l, hl⟩ := List.exists_mem_of_ne_nil _ hne
    have e1 := h3 l hl
    have e2 := h3' l hl
    rw [e1, Option.some.injEq, Prod.mk.injEq] at e2
    exact ⟨h2.symm.trans h2', e2.1, e2.2⟩
  · rintro ⟨e1, e2, rfl⟩
    obtain ⟨gh, gx⟩ := g
    obtain ⟨gh', gx'⟩ := g'
    cases e1
    cases e2
    rfl

example : Ascii.generate ⟨2, 1⟩ [1, 1, 0, 0] = Ascii.generate ⟨2, 2⟩ [1, 0] ∧
    ∃ ms, Drawn .debug .code39 "A".toList ms ∧ Ascii.generate ⟨2, 1⟩ ms ≠ Ascii.generate ⟨2, 2⟩ ms :=
  ⟨by decide, _, ⟨_, Or.inl rfl, rfl⟩, by decide⟩

/-- C114. Any slices of bytes written as JSON. -/
theorem C114_json (g g' : Json.JSON) (ms ms' : List Nat) :
    Json.generate g ms = Json.generate g' ms' ↔
      g.height = g'.height ∧ g.xdim = g'.xdim ∧ ms.map (fun m => decide (m = 0)) = ms'.map (fun m => decide (m = 0)) := by
  have hback : ∀ l : List Nat, (l.map (fun m => if m = 0 then 0 else 1)).map (fun m => decide (m = 0)) =
      l.map (fun m => decide (m = 0)) := by
    intro l
    rw [List.map_map]
    apply List.map_congr_left
    intro m _
    by_cases hm : m = 0 <;> simp [hm]
  have hforth : ∀ l : List Nat, (l.map (fun m => decide (m = 0))).map (fun z => if z then 0 else 1) = barUnlessZero l := by
    intro l
    rw [List.map_map]
    apply List.map_congr_left
    intro m _
    by_cases hm : m = 0 <;> simp [hm]
  constructor
  · intro he
    obtain ⟨out, h1, h2⟩ := C36_json_parses g ms
    obtain ⟨out', h1', h2'⟩ := C36_json_parses g' ms'
    rw [h1, h1'] at he
    cases he
    rw [h2] at h2'
    have hinj : ∀ l l' : List Nat, l.map JValue.num = l'.map JValue.num → l = l' := by
      intro l l' e
      exact (List.map_inj_right (fun _ _ e => by injection e)).mp e
    simp only [barcodeJson, Option.some.injEq, JValue.obj.injEq, List.cons.injEq, Prod.mk.injEq, JValue.num.injEq, JValue.arr.injEq,
      true_and, and_true] at h2'
    refine ⟨h2'.1, h2'.2.1, ?_⟩
    rw [← hback ms, ← hback ms', hinj _ _ h2'.2.2]
  · rintro ⟨e1, e2, e3⟩
    obtain ⟨gh, gx⟩ := g
    obtain ⟨gh', gx'⟩ := g'
    cases e1
    cases e2
    rw [C111_json, C111_json _ ms', ← hforth, e3, hforth]

example : Json.generate ⟨9, 2⟩ [1, 0] ≠ Json.generate ⟨9, 1⟩ [1, 1, 0, 0] ∧
    Json.generate ⟨9, 2⟩ [1, 0, 5] = Json.generate ⟨9, 2⟩ [1, 0, 1] := by decide +kernel

/-! ## SVG -/

theorem split_last {α : Type} (c : α) (p p' r r' : List α) (h : p ++ c :: r = p' ++ c :: r') (hr : c ∉ r) (hr' : c ∉ r') :
    p = p' ∧ r = r' := by
  induction p generalizing p' with
  | nil =>
    cases p' with
    | nil => simpa using h
    | cons a p' =>
      simp only [List.nil_append, List.cons_append, List.cons.injEq] at h
      exact absurd (h.2 ▸ List.mem_append_right p' List.mem_cons_self) hr
  | cons a p ih =>
    cases p' with
    | nil =>
      simp only [List.nil_append, List.cons_append, List.cons.injEq] at h
      exact absurd (h.2 ▸ List.mem_append_right p List.mem_cons_self) hr'
    | cons a' p' =>
      simp only [List.cons_append, List.cons.injEq] at h
      obtain ⟨e1, e2⟩ := ih p' h.2
      exact ⟨by rw [h.1, e1], e2⟩

theorem showNat_noB (n : Nat) : 'B' ∉ showNat n := fun h => absurd ((showNat_spec n).1 'B' h) (by decide)

theorem opacity_noB : ∀ a < 256, 'B' ∉ Svg.fixed2 (Svg.hundredths a) := by decide +kernel

theorem rect_noB (s : Svg.SVG) (style off w : Nat) : 'B' ∉ Svg.rect s style off w := by
  have hhex : 'B' ∉ (styleColor s style).toHex := fun h =>
    absurd ((toHex_spec (styleColor s style)).2.2 'B' h).1 (by decide)
  have hop : 'B' ∉ (styleColor s style).toOpacity := opacity_noB _ (styleColor s style).a.isLt
  rw [rect_eq]
  intro h
  simp only [List.mem_append, showNat_noB, hhex, or_false] at h
  by_cases ha : 254 ≤ (styleColor s style).a.val
  · rw [if_pos ha] at h
    revert h
    decide
  · rw [if_neg ha] at h
    simp only [List.mem_append, hop, or_false] at h
    revert h
    decide

/-- The text after the name space. -/
def svgTail (s : Svg.SVG) (bits : List Nat) : List Char :=
  "ox=\"0 0 ".toList ++ showNat (bits.length * s.xdim) ++ " ".toList ++ showNat s.height ++ "\">".toList ++
    (((0, 0, bits.length * s.xdim) :: (barPlaces bits).map (fun i => (1, i * s.xdim, s.xdim))).map
      (fun p => Svg.rect s p.1 p.2.1 p.2.2)).flatten ++ "</svg>".toList

theorem not_mem_seven {α : Type} {x : α} {a b c d e f g : List α} (ha : x ∉ a) (hb : x ∉ b) (hc : x ∉ c) (hd : x ∉ d) (he : x ∉ e)
    (hf : x ∉ f) (hg : x ∉ g) : x ∉ a ++ b ++ c ++ d ++ e ++ f ++ g := by
  simp [ha, hb, hc, hd, he, hf, hg]

theorem svgTail_noB (s : Svg.SVG) (bits : List Nat) : 'B' ∉ svgTail s bits := by
  have hrs : 'B' ∉ (((0, 0, bits.length * s.xdim) :: (barPlaces bits).map (fun i => (1, i * s.xdim, s.xdim))).map
      (fun p => Svg.rect s p.1 p.2.1 p.2.2)).flatten := by
    rw [List.mem_flatten]
    rintro ⟨l, hl, hB⟩
    obtain ⟨p, -, rfl⟩ := List.mem_map.mp hl
    exact rect_noB _ _ _ _ hB
  exact not_mem_seven (by decide) (showNat_noB _) (by decide) (showNat_noB _) (by decide) hrs (by decide)

theorem view_regroup {α : Type} (x : α) (v a b c d e f g h i : List α) :
    v ++ a ++ (b ++ x :: c) ++ d ++ e ++ f ++ g ++ h ++ i = v ++ (a ++ b ++ x :: (c ++ d ++ e ++ f ++ g ++ h ++ i)) := by
  simp

theorem svg_generate_tail (b : Build) (s : Svg.SVG) (bits : List Nat) (hw : bits.length * s.xdim < 2 ^ 32) :
    Svg.generate b s bits = .ok ("<svg version=\"1.1\" ".toList ++ (xmlnsText s.xmlns ++ "view".toList ++ 'B' :: svgTail s bits)) :=
  (svg_generate b s bits hw).trans (congrArg _ (view_regroup 'B' _ _ "view".toList "ox=\"0 0 ".toList _ _ _ _ _ _))

theorem cover_inj {α : Type} (a c : List α) (ha : a ≠ []) (x y : Option (List α))
    (h : (match x with | some x => a ++ x ++ c | none => []) = match y with | some y => a ++ y ++ c | none => []) : x = y := by
  cases x with
  | none => cases y with
    | none => rfl
    | some y => exact absurd (congrArg List.length h) (by have := List.length_pos_iff.mpr ha; simp; omega)
  | some x => cases y with
    | none => exact absurd (congrArg List.length h) (by have := List.length_pos_iff.mpr ha; simp only [List.length_append, List.length_nil]; omega)
    | some y => rw [List.append_cancel_left (List.append_cancel_right h)]

theorem xmlnsText_inj (x y : Option (List Char)) (h : xmlnsText x = xmlnsText y) : x = y := by
  refine cover_inj "xmlns=\"".toList "\" ".toList (by decide) x y ?_
  cases x <;> cases y <;> exact h

/-- What a document without a name space shows. -/
theorem svg_plain_read (s : Svg.SVG) (bits : List Nat) :
    readSvg ("<svg version=\"1.1\" ".toList ++ ("view".toList ++ 'B' :: svgTail s bits)) = some {
        version := some "1.1".toList
        xmlns := none
        viewBox := [0, 0, bits.length * s.xdim, s.height]
        rects := ⟨0, 0, bits.length * s.xdim, s.height, paintOf s.background⟩ ::
          (barPlaces bits).map (fun i => ⟨i * s.xdim, 0, s.xdim, s.height, paintOf s.foreground⟩) } := by
  obtain ⟨as, h1, h2, h3, h4⟩ := svg_xml { s with xmlns := none } (bits.length * s.xdim) _ _ (fun x hx => by cases hx)
    (rects_xml { s with xmlns := none } ((0, 0, bits.length * s.xdim) :: (barPlaces bits).map (fun i => (1, i * s.xdim, s.xdim))))
  have e : "<svg version=\"1.1\" ".toList ++ ("view".toList ++ 'B' :: svgTail s bits) = "<svg version=\"1.1\" ".toList ++
      xmlnsText none ++ "viewBox=\"0 0 ".toList ++ showNat (bits.length * s.xdim) ++ " ".toList ++ showNat s.height ++
      "\">".toList ++ (((0, 0, bits.length * s.xdim) :: (barPlaces bits).map (fun i => (1, i * s.xdim, s.xdim))).map
      (fun p => Svg.rect { s with xmlns := none } p.1 p.2.1 p.2.2)).flatten ++ "</svg>".toList := by
    have hr : (fun p : Nat × Nat × Nat => Svg.rect { s with xmlns := none } p.1 p.2.1 p.2.2) =
      fun p => Svg.rect s p.1 p.2.1 p.2.2 := rfl
    rw [hr]
    exact (view_regroup 'B' _ (xmlnsText none) "view".toList "ox=\"0 0 ".toList _ _ _ _ _ _).symm
  rw [e, readSvg, h1]
  simp only [Option.bind_eq_bind, Option.bind_some, if_true]
  rw [h2, h3, h4, rects_read]
  simp only [Option.bind_some, readNats_box, List.map_cons, List.map_map, Function.comp_def]
  rfl

/-- Two colours are painted alike: the same red, green and blue, and the same number of hundredths nearest to the
opacity. -/
def SameInk (c c' : Svg.Color) : Prop :=
  ∃ p : Paint, p.Shows c.r c.g c.b c.a ∧ p.Shows c'.r c'.g c'.b c'.a

theorem paintOf_unique (p : Paint) (c : Svg.Color) (h : p.Shows c.r c.g c.b c.a) : p = paintOf c := by
  obtain ⟨rgb, o⟩ := p
  obtain ⟨h1, h2, h3⟩ := h
  have := hundredths_eq _ c.a.isLt
  unfold paintOf
  rw [this]
  simp only at h1 h2 h3
  have : o = (200 * c.a.val + 255) / 510 := by omega
  rw [h1, this]

theorem sameInk_iff (c c' : Svg.Color) : SameInk c c' ↔ paintOf c = paintOf c' :=
  ⟨fun ⟨p, h, h'⟩ => (paintOf_unique p c h).symm.trans (paintOf_unique p c' h'),
    fun h => ⟨paintOf c, paintOf_shows c, h ▸ paintOf_shows c'⟩⟩

theorem barPlaces_nil (bits : List Nat) : barPlaces bits = [] ↔ 1 ∉ bits := by
  unfold barPlaces
  rw [List.filter_eq_nil_iff]
  constructor
  · intro h hm
    obtain ⟨i, hi, e⟩ := List.mem_iff_getElem.mp hm
    exact h i (List.mem_range.mpr hi) (by simp [hi, e])
  · intro h i _ hi
    exact h (List.mem_of_getElem? (by simpa using hi))

theorem barPlaces_inj (bits bits' : List Nat) (hl : bits.length = bits'.length) (h : barPlaces bits = barPlaces bits') :
    bits.map (fun m => decide (m = 1)) = bits'.map (fun m => decide (m = 1)) := by
  have hmem : ∀ (l : List Nat) (i : Nat), i ∈ barPlaces l ↔ l[i]? = some 1 := by
    intro l i
    simp only [barPlaces, List.mem_filter, List.mem_range, decide_eq_true_eq, and_iff_right_iff_imp]
    intro hi
    exact (List.getElem?_eq_some_iff.mp hi).1
  apply List.ext_getElem
  · simpa using hl
  · intro i h1 h2
    simp only [List.length_map] at h1 h2
    have e := (hmem bits i).symm.trans ((h ▸ Iff.rfl : i ∈ barPlaces bits ↔ i ∈ barPlaces bits').trans (hmem bits' i))
    simp only [List.getElem?_eq_getElem h1, List.getElem?_eq_getElem h2, Option.some.injEq] at e
    simp [e]

theorem barIfOne_of_map (bits bits' : List Nat)
    (h : bits.map (fun m => decide (m = 1)) = bits'.map (fun m => decide (m = 1))) : barIfOne bits = barIfOne bits' := by
  have hforth : ∀ l : List Nat, (l.map (fun m => decide (m = 1))).map (fun z => if z then 1 else 0) = barIfOne l := by
    intro l
    rw [List.map_map]
    apply List.map_congr_left
    intro m _
    by_cases hm : m = 1 <;> simp [hm]
  rw [← hforth, h, hforth]

theorem paint_style (s s' : Svg.SVG) (style : Nat) (hh : s.height = s'.height)
    (hc : paintOf (styleColor s style) = paintOf (styleColor s' style)) (off w : Nat) :
    Svg.rect s style off w = Svg.rect s' style off w := by
  rw [rect_eq, rect_eq, hh]
  simp only [paintOf, Paint.mk.injEq, Prod.mk.injEq] at hc
  have hhex : (styleColor s style).toHex = (styleColor s' style).toHex := by
    unfold Svg.Color.toHex
    rw [Fin.ext hc.1.1, Fin.ext hc.1.2.1, Fin.ext hc.1.2.2]
    rfl
  have hop : (styleColor s style).toOpacity = (styleColor s' style).toOpacity := by
    unfold Svg.Color.toOpacity
    rw [hc.2]
  have hf : 254 ≤ (styleColor s style).a.val ↔ 254 ≤ (styleColor s' style).a.val := by
    rw [hundredths_full _ (styleColor s style).a.isLt, hundredths_full _ (styleColor s' style).a.isLt, hc.2]
  rw [hhex, hop]
  by_cases ha : 254 ≤ (styleColor s style).a.val
  · rw [if_pos ha, if_pos (hf.mp ha)]
  · rw [if_neg ha, if_neg (fun h => ha (hf.mpr h))]

/-- C114. Two SVG documents are equal exactly if the name spaces, the heights and the painted backgrounds are, and the
bars are: either no value is 1 and the total widths agree, or the values that are 1, the module widths and the painted bar
colours agree. -/
theorem C114_svg (b b' : Build) (s s' : Svg.SVG) (ms ms' : List Nat) (hx : 0 < s.xdim)
    (hw : ms.length * s.xdim < 2 ^ 32) (hw' : ms'.length * s'.xdim < 2 ^ 32) :
    Svg.generate b s ms = Svg.generate b' s' ms' ↔
      s.xmlns = s'.xmlns ∧ s.height = s'.height ∧ SameInk s.background s'.background ∧
      (1 ∉ ms ∧ 1 ∉ ms' ∧ ms.length * s.xdim = ms'.length * s'.xdim ∨
        s.xdim = s'.xdim ∧ SameInk s.foreground s'.foreground ∧
          ms.map (fun m => decide (m = 1)) = ms'.map (fun m => decide (m = 1))) := by
  rw [svg_generate_tail b s ms hw, svg_generate_tail b' s' ms' hw', Outcome.ok.injEq, List.append_cancel_left_eq]
  simp only [sameInk_iff]
  constructor
  · intro h
    obtain ⟨h1, h2⟩ := split_last 'B' _ _ _ _ h (svgTail_noB _ _) (svgTail_noB _ _)
    have hd := svg_plain_read s ms
    rw [h2, svg_plain_read s' ms'] at hd
    simp only [Option.some.injEq, SvgDoc.mk.injEq, List.cons.injEq, SvgRect.mk.injEq, true_and, and_true] at hd
    obtain ⟨⟨e1, e2⟩, ⟨-, -, e3⟩, e4⟩ := hd
    refine ⟨xmlnsText_inj _ _ (List.append_cancel_right h1), e2.symm, e3.symm, ?_⟩
    by_cases h0 : barPlaces ms = []
    · left
      rw [h0, List.map_nil, List.map_eq_nil_iff] at e4
      exact ⟨(barPlaces_nil _).mp h0, (barPlaces_nil _).mp e4, e1.symm⟩
    · right
      cases hp : barPlaces ms with
      | nil => exact absurd hp h0
      | cons i l =>
        cases hp' : barPlaces ms' with
        | nil => rw [hp, hp'] at e4; cases e4
        | cons i' l' =>
          have e5 := e4
          rw [hp, hp', List.map_cons, List.map_cons, List.cons.injEq, SvgRect.mk.injEq] at e5
          have e6 : s'.xdim = s.xdim := e5.1.2.2.1
          have e7 : paintOf s'.foreground = paintOf s.foreground := e5.1.2.2.2.2
          refine ⟨e6.symm, e7.symm, barPlaces_inj _ _ ?_ ?_⟩
          · rw [e6] at e1
            exact (Nat.eq_of_mul_eq_mul_right hx e1).symm
          · rw [e6, e7, e2] at e4
            refine ((List.map_inj_right ?_).mp e4).symm
            intro i j hij
            exact Nat.eq_of_mul_eq_mul_right hx (congrArg SvgRect.x hij)
  · rintro ⟨e1, e2, e3, e4⟩
    rw [e1]
    have hbg : ∀ off w, Svg.rect s 0 off w = Svg.rect s' 0 off w := paint_style s s' 0 e2 e3
    have key : svgTail s ms = svgTail s' ms' := by
      rcases e4 with ⟨n1, n2, e5⟩ | ⟨e5, e6, e7⟩
      · unfold svgTail
        rw [(barPlaces_nil _).mpr n1, (barPlaces_nil _).mpr n2, e5, e2]
        simp only [List.map_nil, List.map_cons]
        rw [hbg]
      · have hfg : ∀ off w, Svg.rect s 1 off w = Svg.rect s' 1 off w := paint_style s s' 1 e2 e6
        have hl : ms.length = ms'.length := by simpa using congrArg List.length e7
        have hbp : barPlaces ms = barPlaces ms' := by
          unfold barPlaces
          rw [hl]
          apply List.filter_congr
          intro i _
          have := congrArg (fun l => l[i]?) e7
          simp only [List.getElem?_map] at this
          cases h1 : ms[i]? <;> cases h2 : ms'[i]? <;> simp_all
        unfold svgTail
        rw [hbp, hl, e5, e2]
        simp only [List.map_cons, List.map_map, Function.comp_def]
        simp only [hbg, hfg]
    rw [key]

example : let s := { Svg.new 8 with foreground := ⟨1, 2, 3, 100⟩, xmlns := some "a\" viewBox=\"".toList }
    Svg.generate .debug s [1, 0] = Svg.generate .debug { s with background := ⟨255, 255, 255, 254⟩ } [1, 0] ∧
    Svg.generate .debug s [1, 0] ≠ Svg.generate .debug { s with foreground := ⟨1, 2, 3, 102⟩ } [1, 0] ∧
    Svg.generate .debug s [0, 0] = Svg.generate .debug { s with xdim := 2, foreground := ⟨1, 2, 3, 102⟩ } [0] ∧
    SameInk ⟨255, 255, 255, 255⟩ ⟨255, 255, 255, 254⟩ ∧ ¬ SameInk ⟨1, 2, 3, 100⟩ ⟨1, 2, 3, 102⟩ := by
  refine ⟨by decide +kernel, by decide +kernel, by decide +kernel, ?_, ?_⟩
  · exact (sameInk_iff _ _).mpr (by decide +kernel)
  · exact fun h => absurd ((sameInk_iff _ _).mp h) (by decide +kernel)

/-- C114. So a document of a symbol tells everything: the symbol, and all settings up to opacities that are painted
alike. -/
theorem C114_svg_symbol (b b' b2 b2' : Build) (k k' : Kind) (t t' : List Char) (ms ms' : List Nat) (h : Drawn b k t ms)
    (h' : Drawn b' k' t' ms') (s s' : Svg.SVG) (hx : 0 < s.xdim) (hw : ms.length * s.xdim < 2 ^ 32)
    (hw' : ms'.length * s'.xdim < 2 ^ 32) :
    Svg.generate b2 s ms = Svg.generate b2' s' ms' ↔
      s.xmlns = s'.xmlns ∧ s.height = s'.height ∧ SameInk s.background s'.background ∧ s.xdim = s'.xdim ∧
        SameInk s.foreground s'.foreground ∧ ms = ms' := by
  have h1 : 1 ∈ ms := by
    obtain ⟨ws, rfl, hne, hp, -⟩ := drawn_widths b k t ms h
    cases ws with
    | nil => exact absurd rfl hne
    | cons w ws =>
      have := hp w List.mem_cons_self
      simp only [paint, paintFrom, List.mem_append, List.mem_replicate]
      exact Or.inl ⟨by omega, trivial⟩
  have hb := drawn_binary b k t ms h
  have hb' := drawn_binary b' k' t' ms' h'
  rw [C114_svg b2 b2' s s' ms ms' hx hw hw']
  have hE : ms.map (fun m => decide (m = 1)) = ms'.map (fun m => decide (m = 1)) ↔ ms = ms' := by
    refine ⟨fun e => ?_, fun e => by rw [e]⟩
    have e := barIfOne_of_map _ _ e
    have hid : ∀ l : List Nat, (∀ m ∈ l, m = 0 ∨ m = 1) → barIfOne l = l := by
      intro l hl
      unfold barIfOne
      rw [List.map_congr_left (g := id)]
      · simp
      · intro m hm
        rcases hl m hm with rfl | rfl <;> rfl
    rwa [hid _ hb, hid _ hb'] at e
  rw [hE]
  constructor
  · rintro ⟨a, c, d, ⟨n, -⟩ | e⟩
    · exact absurd h1 n
    · exact ⟨a, c, d, e⟩
  · rintro ⟨a, c, d, e⟩
    exact ⟨a, c, d, Or.inr e⟩

example : ∃ ms ms', Drawn .debug .code39 "A".toList ms ∧ Drawn .debug .code39 "B".toList ms' ∧
    Svg.generate .debug (Svg.new 9) ms ≠ Svg.generate .debug (Svg.new 9) ms' :=
  ⟨_, _, ⟨_, Or.inl rfl, rfl⟩, ⟨_, Or.inl rfl, rfl⟩, by decide +kernel⟩

end Barcoders
