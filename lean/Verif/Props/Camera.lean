import Verif.Props.Blur
import Verif.Props.Negative
import Verif.Props.Translucent

/-!
# C110: what a camera makes of the colours

A camera or a laser tells dark places from light ones, in a way that depends on the colour alone: a red laser does not see red
ink. Whatever it does, it gets the symbol, its negative, or one even surface.
-/

set_option autoImplicit false

namespace Barcoders
open Spec

theorem stretch_map_bits (x : Nat) (f : Nat → Nat) (ms : List Nat) : stretch x (ms.map f) = (stretch x ms).map f := by
  simp [stretch, List.flatMap_map, List.map_flatMap]

/-- Three cases for a line that only depends on the bit. -/
theorem two_tone (x : Nat) (ms : List Nat) (hbin : ∀ m ∈ ms, m = 0 ∨ m = 1) (p q : Bool) (line : List Nat)
    (hl : line = stretch x (ms.map (fun m => if m = 1 then p.toNat else q.toNat))) :
    (p = true → q = false → line = stretch x ms) ∧ (p = false → q = true → line = negative (stretch x ms)) ∧
    (p = q → line = List.replicate (ms.length * x) p.toNat) := by
  refine ⟨?_, ?_, ?_⟩
  · rintro rfl rfl
    rw [hl]
    congr 1
    conv => rhs; rw [← List.map_id ms]
    apply List.map_congr_left
    intro m hm
    rcases hbin m hm with rfl | rfl <;> rfl
  · rintro rfl rfl
    rw [hl, negative, ← stretch_map_bits]
    congr 1
    apply List.map_congr_left
    intro m hm
    rcases hbin m hm with rfl | rfl <;> rfl
  · rintro rfl
    rw [hl]
    simp only [ite_self]
    clear hl hbin
    induction ms with
    | nil => simp [stretch]
    | cons m ms ih =>
      rw [stretch] at ih
      rw [stretch, List.map_cons, List.flatMap_cons, ih, List.length_cons, Nat.succ_mul, Nat.add_comm, ← List.replicate_append_replicate]

/-- C110. Images: a camera calls a pixel dark or light by its colour. If it tells foreground from background, every line across
the bars is the symbol or its negative; otherwise all lines are even. -/
theorem C110_image (ms : List Nat) (hbin : ∀ m ∈ ms, m = 0 ∨ m = 1) (b : Build) (g : Image.Image) (hx : 0 < g.xdim)
    (hne : g.foreground ≠ g.background) (hsz : ms.length * g.xdim < 2 ^ 32)
    (hs : 4 * (ms.length * g.xdim) * g.height < 2 ^ 63) :
    ∃ buf, Image.generateBuffer b g ms = .ok buf ∧ lineCount buf.w buf.h (headingOf g.rotation) = g.height ∧
      ∀ (dark : Image.Color → Bool) (j : Nat), j < g.height →
        let line := (pictureLine buf.w buf.h buf.px j (headingOf g.rotation)).map (fun c => (dark c).toNat)
        (dark g.foreground = true → dark g.background = false → line = stretch g.xdim ms) ∧
        (dark g.foreground = false → dark g.background = true → line = negative (stretch g.xdim ms)) ∧
        (dark g.foreground = dark g.background → line = List.replicate (ms.length * g.xdim) (dark g.foreground).toNat) := by
  obtain ⟨buf, h1, h2, h3, h4⟩ := image_colour_lines b g ms hbin hx hne hsz hs
  refine ⟨buf, h1, h2, fun dark j hj => ?_⟩
  apply two_tone g.xdim ms hbin
  rw [stretch_map_bits, ← h3 j hj, List.map_map]
  apply List.map_congr_left
  intro c hc
  obtain ⟨x, y, hxw, hy, rfl⟩ := pictureLine_mem _ _ _ _ j (by rw [h2]; exact hj) c hc
  rcases h4 x y hxw hy with h | h <;> rw [h] <;> simp [hne]

/-- C110. So with quiet zones of the background colour, a reader that tries both polarities gets the data and nothing else, in
either direction, or sees nothing but an even surface. -/
theorem C110_reader (b : Build) (k : Kind) (s : List Char) (ms : List Nat) (hd : Drawn b k s ms) (y : Symbology) (t : List Char)
    (ho : OnlyReading ms y t) (b' : Build) (g : Image.Image) (hx : 0 < g.xdim)
    (hne : g.foreground ≠ g.background) (hsz : ms.length * g.xdim < 2 ^ 32)
    (hs : 4 * (ms.length * g.xdim) * g.height < 2 ^ 63) :
    ∃ buf, Image.generateBuffer b' g ms = .ok buf ∧ lineCount buf.w buf.h (headingOf g.rotation) = g.height ∧
      ∀ (dark : Image.Color → Bool) (j q r : Nat), j < g.height → 2 * g.xdim < q → 2 * g.xdim < r →
        let line := (List.replicate q g.background ++ pictureLine buf.w buf.h buf.px j (headingOf g.rotation) ++
          List.replicate r g.background).map (fun c => (dark c).toNat)
        if dark g.foreground = dark g.background then ∃ c, ∀ m ∈ line, m = c
        else eitherPolarity line = [(y, t)] ∧ eitherPolarity line.reverse = [(y, t)] := by
  have hbin := drawn_binary b k s ms hd
  obtain ⟨buf, h1, h2, h3⟩ := C110_image ms hbin b' g hx hne hsz hs
  refine ⟨buf, h1, h2, fun dark j q r hj hq hr => ?_⟩
  obtain ⟨a1, a2, a3⟩ := h3 dark j hj
  obtain ⟨p1, p2, p3, p4⟩ := C103_polarity b k s ms hd y t ho q g.xdim r hx hq hr
  simp only [List.map_append, List.map_replicate]
  cases hf : dark g.foreground <;> cases hb : dark g.background
  · rw [if_pos rfl]
    refine ⟨0, fun m hm => ?_⟩
    rw [a3 (hf.trans hb.symm), hf] at hm
    simp only [List.mem_append, List.mem_replicate] at hm
    rcases hm with (⟨-, h⟩ | ⟨-, h⟩) | ⟨-, h⟩ <;> exact h
  · rw [if_neg (by simp), a2 hf hb]
    have e : List.replicate q true.toNat ++ negative (stretch g.xdim ms) ++ List.replicate r true.toNat =
        negative (onPaper q g.xdim r ms) := by simp [negative, onPaper]
    rw [e]
    exact ⟨p3, p4⟩
  · rw [if_neg (by simp), a1 hf hb]
    exact ⟨p1, p2⟩
  · rw [if_pos rfl]
    refine ⟨1, fun m hm => ?_⟩
    rw [a3 (hf.trans hb.symm), hf] at hm
    simp only [List.mem_append, List.mem_replicate] at hm
    rcases hm with (⟨-, h⟩ | ⟨-, h⟩) | ⟨-, h⟩ <;> exact h

theorem line_of_bits (x : Nat) (ms : List Nat) (F f : Nat → Nat)
    (h : ∀ i, i < ms.length * x → ∀ hk : i / x < ms.length, F i = f ms[i / x]) :
    (List.range (ms.length * x)).map F = stretch x (ms.map f) := by
  have hst : (stretch x ms).length = ms.length * x := by
    clear h
    induction ms with
    | nil => simp [stretch]
    | cons m ms ih => rw [stretch] at ih; rw [stretch, List.flatMap_cons, List.length_append, ih]; simp [Nat.succ_mul]; omega
  rw [stretch_map_bits]
  apply List.ext_getElem
  · simp [hst]
  intro i i1 i2
  have hi : i < ms.length * x := by simpa using i1
  have hxd : 0 < x := Nat.pos_of_ne_zero (fun h => by rw [h] at hi; simp at hi)
  have hk : i / x < ms.length := by rw [Nat.div_lt_iff_lt_mul hxd]; exact hi
  have e := stretch_at_module x ms (i / x) i hk (Nat.div_mul_le_self _ _)
    (by rw [Nat.mul_comm]; exact Nat.lt_mul_div_succ i hxd)
  rw [List.getElem?_eq_getElem (by rw [hst]; exact hi), Option.some.injEq] at e
  rw [List.getElem_map, List.getElem_range, List.getElem_map, e, h i hi hk]

/-- C110. SVG pictures: on every page, a camera gets the symbol in all lines, or its negative in all lines, or one even surface. -/
theorem C110_svg (ms : List Nat) (hbin : ∀ m ∈ ms, m = 0 ∨ m = 1) (b : Build) (s : Svg.SVG) (hw : ms.length * s.xdim < 2 ^ 32)
    (hx : ∀ x ∈ s.xmlns, ∀ c ∈ x, xmlPlain c = true) :
    ∃ out doc, Svg.generate b s ms = .ok out ∧ readSvg out = some doc ∧
      ∀ (page : Seen) (dark : Seen → Bool),
        let line := fun y => (List.range (ms.length * s.xdim)).map (fun x => (dark (paintedAt doc.rects page x y)).toNat)
        (∀ y < s.height, line y = stretch s.xdim ms) ∨ (∀ y < s.height, line y = negative (stretch s.xdim ms)) ∨
        ∃ c, ∀ y < s.height, line y = List.replicate (ms.length * s.xdim) c := by
  obtain ⟨out, doc, fo, bo, h1, h2, -, -, h5⟩ := C107_svg b s ms hw hx
  refine ⟨out, doc, h1, h2, fun page dark => ?_⟩
  have hline : ∃ p q : Bool, ∀ y < s.height, (List.range (ms.length * s.xdim)).map
      (fun x => (dark (paintedAt doc.rects page x y)).toNat) = stretch s.xdim (ms.map (fun m => if m = 1 then p.toNat else q.toNat)) := by
    refine ⟨dark ((page.under ((bo : Rat) / 100) ⟨s.background.r.val, s.background.g.val, s.background.b.val⟩).under
      ((fo : Rat) / 100) ⟨s.foreground.r.val, s.foreground.g.val, s.foreground.b.val⟩),
      dark (page.under ((bo : Rat) / 100) ⟨s.background.r.val, s.background.g.val, s.background.b.val⟩), fun y hy => ?_⟩
    apply line_of_bits
    intro i hi hk
    rw [h5 page i y hi hy]
    simp only [List.getElem?_eq_getElem hk, Option.some.injEq]
    split <;> rfl
  obtain ⟨p, q, hpq⟩ := hline
  cases p <;> cases q
  · exact Or.inr (Or.inr ⟨_, fun y hy => (two_tone _ _ hbin _ _ _ (hpq y hy)).2.2 rfl⟩)
  · exact Or.inr (Or.inl fun y hy => (two_tone _ _ hbin _ _ _ (hpq y hy)).2.1 rfl rfl)
  · exact Or.inl fun y hy => (two_tone _ _ hbin _ _ _ (hpq y hy)).1 rfl rfl
  · exact Or.inr (Or.inr ⟨_, fun y hy => (two_tone _ _ hbin _ _ _ (hpq y hy)).2.2 rfl⟩)

/-- Red on white: a red laser sees nothing, a green one sees the bars. White on blue: a red laser sees the negative. -/
example :
    (∃ buf, Image.generateBuffer .debug { Image.png 1 with foreground := ⟨255, 0, 0, 255⟩ } [1, 0, 1] = .ok buf ∧
      (pictureLine buf.w buf.h buf.px 0 .right).map (fun c => (decide (c.r.val < 128)).toNat) = [0, 0, 0] ∧
      (pictureLine buf.w buf.h buf.px 0 .right).map (fun c => (decide (c.g.val < 128)).toNat) = [1, 0, 1]) ∧
    (∃ buf, Image.generateBuffer .debug { Image.png 1 with foreground := ⟨255, 255, 255, 255⟩, background := ⟨0, 0, 255, 255⟩ }
        [1, 0, 1] = .ok buf ∧
      (pictureLine buf.w buf.h buf.px 0 .right).map (fun c => (decide (c.r.val < 128)).toNat) = [0, 1, 0]) :=
  ⟨⟨_, rfl, by decide +kernel, by decide +kernel⟩, ⟨_, rfl, by decide +kernel⟩⟩

/-- The same for the default SVG picture with white bars on blue. -/
example : ∃ out doc, Svg.generate .debug { Svg.new 2 with foreground := ⟨255, 255, 255, 255⟩, background := ⟨0, 0, 255, 255⟩ }
    [1, 0, 1] = .ok out ∧ readSvg out = some doc ∧
    (List.range 3).map (fun x => (decide ((paintedAt doc.rects ⟨9, 9, 9⟩ x 1).r < 128)).toNat) = [0, 1, 0] := by
  obtain ⟨out, doc, fo, bo, h1, h2, -⟩ := C107_svg .debug
    { Svg.new 2 with foreground := ⟨255, 255, 255, 255⟩, background := ⟨0, 0, 255, 255⟩ } [1, 0, 1] (by decide) (by decide)
  refine ⟨out, doc, h1, h2, ?_⟩
  have e1 : Svg.generate .debug { Svg.new 2 with foreground := ⟨255, 255, 255, 255⟩, background := ⟨0, 0, 255, 255⟩ } [1, 0, 1] =
    .ok out := h1
  have key : (match Svg.generate .debug { Svg.new 2 with foreground := ⟨255, 255, 255, 255⟩, background := ⟨0, 0, 255, 255⟩ }
      [1, 0, 1] with
    | .ok o => (readSvg o).map (fun d => (List.range 3).map (fun x => (decide ((paintedAt d.rects ⟨9, 9, 9⟩ x 1).r < 128)).toNat))
    | _ => none) = some [0, 1, 0] := by decide +kernel
  rw [e1] at key
  simp only [h2, Option.map_some, Option.some.injEq] at key
  exact key

end Barcoders
