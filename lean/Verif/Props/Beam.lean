import Verif.Spec.Beam
import Verif.Props.HandScan

/-!
# C91: the bars can be crossed anywhere
-/

set_option autoImplicit false

namespace Barcoders
open Spec

/-- A beam over cells that depend on the place across the bars only. -/
theorem beam_cells (ms : List Nat) (x k : Nat) (hx : 0 < x) (hk : 0 < k) (hb : ∀ m ∈ ms, m = 0 ∨ m = 1)
    (dark : Nat → Nat → Bool) (path : Nat → Nat) (height : Nat)
    (hd : ∀ i y, i < ms.length * x → y < height → (dark i y = true ↔ ms[i / x]? = some 1)) (hp : ∀ i, path i < height) :
    (beam (ms.length * x) k dark path).map (fun d => if d then 1 else 0) = stretch (x * k) ms := by
  have h := cells_eq (x * k) (Nat.mul_pos hx hk) ms (fun o => if o = some 1 then 1 else 0)
  rw [beam, List.map_map, Nat.mul_assoc]
  have h2 : (List.range (ms.length * (x * k))).map
      ((fun d => if d = true then 1 else 0) ∘ fun i => dark (i / k) (path i)) =
      (List.range (ms.length * (x * k))).map (fun i => (fun o => if o = some 1 then 1 else 0) ms[i / (x * k)]?) := by
    apply List.map_congr_left
    intro i hi
    have hi := List.mem_range.mp hi
    have hi2 : i / k < ms.length * x := by
      rw [Nat.div_lt_iff_lt_mul hk, Nat.mul_assoc]; exact hi
    have he : i / (x * k) = i / k / x := by rw [Nat.mul_comm, Nat.div_div_eq_div_mul]
    simp only [Function.comp]
    rw [he]
    by_cases h1 : ms[i / k / x]? = some 1
    · rw [if_pos h1, if_pos ((hd _ _ hi2 (hp i)).mpr h1)]
    · rw [if_neg h1, if_neg (fun h => h1 ((hd _ _ hi2 (hp i)).mp h))]
  rw [h2, h, stretch, List.flatMap_def, List.flatMap_def]
  congr 1
  apply List.map_congr_left
  intro m hm
  rcases hb m hm with rfl | rfl <;> simp

theorem beam_reads {α : Type} (scan : List Nat → Option α) (ms : List Nat) (t : α) (hr : Readable scan ms t)
    (x k q r : Nat) (hx : 0 < x) (hk : 0 < k) (hb : ∀ m ∈ ms, m = 0 ∨ m = 1)
    (dark : Nat → Nat → Bool) (path : Nat → Nat) (height : Nat)
    (hd : ∀ i y, i < ms.length * x → y < height → (dark i y = true ↔ ms[i / x]? = some 1)) (hp : ∀ i, path i < height) :
    ReadsBoth scan (paperLine q (beam (ms.length * x) k dark path) r) t := by
  rw [paperLine, beam_cells ms x k hx hk hb dark path height hd hp]
  exact hr q (x * k) r (Nat.mul_pos hx hk)

/-- The same over cells in the opposite order. -/
theorem beam_reads_back {α : Type} (scan : List Nat → Option α) (ms : List Nat) (t : α) (hr : Readable scan ms t)
    (x k q r : Nat) (hx : 0 < x) (hk : 0 < k) (hb : ∀ m ∈ ms, m = 0 ∨ m = 1)
    (dark : Nat → Nat → Bool) (path : Nat → Nat) (height : Nat)
    (hd : ∀ i y, i < ms.length * x → y < height → (dark i y = true ↔ ms[(ms.length * x - 1 - i) / x]? = some 1))
    (hp : ∀ i, path i < height) :
    ReadsBoth scan (paperLine q (beam (ms.length * x) k dark path) r) t := by
  have h := beam_cells ms.reverse x k hx hk (fun m hm => hb m (List.mem_reverse.mp hm)) dark path height (by
    intro i y hi hy
    rw [List.length_reverse] at hi
    rw [hd i y hi hy]
    have h1 : i / x < ms.length := by rw [Nat.div_lt_iff_lt_mul hx]; exact hi
    have h2 : (ms.length * x - 1 - i) / x = ms.length - 1 - i / x := by
      rw [Nat.div_eq_iff hx]
      have e := Nat.div_add_mod i x
      have l := Nat.mod_lt i hx
      generalize i / x = d at *
      generalize i % x = m at *
      obtain ⟨c, hc⟩ : ∃ c, ms.length = d + 1 + c := ⟨ms.length - d - 1, by omega⟩
      rw [hc] at hi ⊢
      rw [show d + 1 + c - 1 - d = c by omega, Nat.add_mul, Nat.add_mul]
      rw [Nat.mul_comm] at e
      omega
    rw [h2, List.getElem?_reverse h1]) hp
  rw [List.length_reverse] at h
  rw [paperLine, h, ← stretch_reverse]
  obtain ⟨e1, e2⟩ := hr r (x * k) q (Nat.mul_pos hx hk)
  have hrev : (List.replicate q 0 ++ (stretch (x * k) ms).reverse ++ List.replicate r 0) =
      (onPaper r (x * k) q ms).reverse := by
    rw [onPaper, List.reverse_append, List.reverse_append, List.reverse_replicate, List.reverse_replicate, List.append_assoc]
  rw [hrev]
  exact ⟨e2, by rw [List.reverse_reverse]; exact e1⟩

theorem not_space_iff {ms : List Nat} (hb : ∀ m ∈ ms, m = 0 ∨ m = 1) {i : Nat} (hi : i < ms.length) :
    (ms[i]? = some 1) ↔ ¬ ms[i]? = some 0 := by
  rw [List.getElem?_eq_getElem hi]
  rcases hb _ (List.getElem_mem hi) with h | h <;> rw [h] <;> simp

/-- C91. Images: in a picture that is not rotated or upside down the beam goes across from left to right or back, in one
turned by a quarter from top to bottom or back. -/
theorem C91_image {α : Type} (b : Build) (k : Kind) (s : List Char) (ms : List Nat) (h : Drawn b k s ms)
    (scan : List Nat → Option α) (t : α) (hr : Readable scan ms t) (b' : Build) (g : Image.Image)
    (hx : 0 < g.xdim) (hne : g.foreground ≠ g.background) (hw : ms.length * g.xdim < 2 ^ 32)
    (hs : 4 * (ms.length * g.xdim) * g.height < 2 ^ 63) :
    ∃ buf, Image.generateBuffer b' g ms = .ok buf ∧
      ((g.rotation = .zero ∨ g.rotation = .oneEighty) → buf.h = g.height ∧
        ∀ n path q r, 0 < n → (∀ i, path i < buf.h) →
          ReadsBoth scan (paperLine q (beam buf.w n (fun x y => decide (buf.px x y ≠ g.background)) path) r) t) ∧
      ((g.rotation = .ninety ∨ g.rotation = .twoSeventy) → buf.w = g.height ∧
        ∀ n path q r, 0 < n → (∀ i, path i < buf.w) →
          ReadsBoth scan (paperLine q (beam buf.h n (fun y x => decide (buf.px x y ≠ g.background)) path) r) t) := by
  have hb := drawn_binary b k s ms h
  obtain ⟨buf, h1, h2⟩ := C41_image_read_rotated b' g ms hw hs
  have hsize : (g.rotation = .zero ∨ g.rotation = .oneEighty → buf.w = ms.length * g.xdim ∧ buf.h = g.height) ∧
      (g.rotation = .ninety ∨ g.rotation = .twoSeventy → buf.h = ms.length * g.xdim ∧ buf.w = g.height) := by
    have h3 := h1
    rw [Image.generateBuffer, placePixels_eq b' g ms hw hs, Outcome.ok.injEq] at h3
    subst h3
    constructor <;> rintro (h4 | h4) <;> rw [h4] <;> exact ⟨rfl, rfl⟩
  have dark : ∀ j, j < ms.length * g.xdim →
      (decide ((if ms[j / g.xdim]? = some 0 then g.background else g.foreground) ≠ g.background) = true ↔
        ms[j / g.xdim]? = some 1) := by
    intro j hj
    rw [not_space_iff hb ((Nat.div_lt_iff_lt_mul hx).mpr hj), decide_eq_true_iff]
    by_cases h0 : ms[j / g.xdim]? = some 0
    · rw [if_pos h0]; simp [h0]
    · rw [if_neg h0]; exact ⟨fun _ => h0, fun _ => hne⟩
  refine ⟨buf, h1, fun hrot => ?_, fun hrot => ?_⟩
  · obtain ⟨s1, s2⟩ := hsize.1 hrot
    refine ⟨s2, fun n path q r hn hp => ?_⟩
    rw [s1, s2] at h2
    rw [s1]
    rw [s2] at hp
    rcases hrot with hrot | hrot <;> rw [hrot] at h2
    · refine beam_reads scan ms t hr g.xdim n q r hx hn hb _ path g.height (fun i y hi hy => ?_) hp
      rw [h2 i y hi hy]
      exact dark i hi
    · refine beam_reads_back scan ms t hr g.xdim n q r hx hn hb _ path g.height (fun i y hi hy => ?_) hp
      rw [h2 i y hi hy]
      exact dark (ms.length * g.xdim - 1 - i) (by omega)
  · obtain ⟨s1, s2⟩ := hsize.2 hrot
    refine ⟨s2, fun n path q r hn hp => ?_⟩
    rw [s1, s2] at h2
    rw [s1]
    rw [s2] at hp
    rcases hrot with hrot | hrot <;> rw [hrot] at h2
    · refine beam_reads scan ms t hr g.xdim n q r hx hn hb _ path g.height (fun i y hi hy => ?_) hp
      rw [h2 y i hy hi]
      exact dark i hi
    · refine beam_reads_back scan ms t hr g.xdim n q r hx hn hb _ path g.height (fun i y hi hy => ?_) hp
      rw [h2 y i hy hi]
      exact dark (ms.length * g.xdim - 1 - i) (by omega)

-- a slanted beam over a picture turned by 90 degrees runs from top to bottom
example : ∃ ms buf, Drawn .debug .code39 "A".toList ms ∧
    Image.generateBuffer .release { Image.png 20 with xdim := 2, rotation := .ninety } ms = .ok buf ∧ buf.h = 76 ∧ buf.w = 20 ∧
    handScan scanCode39 (paperLine 3 (beam buf.h 2 (fun y x => decide (buf.px x y ≠ Image.Color.white))
      (fun i => i / 8)) 4) = some "A".toList := by
  refine ⟨_, _, ⟨_, Or.inl rfl, rfl⟩, rfl, ?_, ?_, ?_⟩ <;> decide +kernel

/-- C91. SVG: a point is dark if what is painted on top there has not the colour of the background. -/
theorem C91_svg {α : Type} (b : Build) (k : Kind) (s : List Char) (ms : List Nat) (h : Drawn b k s ms)
    (scan : List Nat → Option α) (t : α) (hr : Readable scan ms t) (b' : Build) (g : Svg.SVG)
    (hx : 0 < g.xdim) (hw : ms.length * g.xdim < 2 ^ 32) (hn : ∀ x ∈ g.xmlns, ∀ c ∈ x, xmlPlain c = true)
    (hne : (g.foreground.r, g.foreground.g, g.foreground.b) ≠ (g.background.r, g.background.g, g.background.b)) :
    ∃ out doc w h, Svg.generate b' g ms = .ok out ∧ readSvg out = some doc ∧ doc.viewBox = [0, 0, w, h] ∧ h = g.height ∧
      ∀ n path q r, 0 < n → (∀ i, path i < h) →
        ReadsBoth scan (paperLine q (beam w n (fun x y => (topmost doc.rects x y).any (fun rect =>
          decide (rect.fill.rgb ≠ (g.background.r.val, g.background.g.val, g.background.b.val)))) path) r) t := by
  have hb := drawn_binary b k s ms h
  obtain ⟨out, doc, h1, h2, h3, h4⟩ := C38_svg_shows_bars b' g ms hw hn
  refine ⟨out, doc, _, _, h1, h2, h3, rfl, fun n path q r hn hp => ?_⟩
  refine beam_reads scan ms t hr g.xdim n q r hx hn hb _ path g.height (fun i y hi hy => ?_) hp
  obtain ⟨rect, e1, e2, -⟩ := h4 i y hi hy
  rw [e1, Option.any_some, decide_eq_true_iff]
  by_cases hm : ms[i / g.xdim]? = some 1
  · rw [if_pos hm] at e2
    rw [e2.1]
    refine ⟨fun _ => hm, fun _ he => hne ?_⟩
    simp only [Prod.mk.injEq] at he ⊢
    exact ⟨Fin.ext he.1, Fin.ext he.2.1, Fin.ext he.2.2⟩
  · rw [if_neg hm] at e2
    rw [e2.1]
    exact ⟨fun h => absurd rfl h, fun h => absurd h hm⟩

example : (match Svg.generate .debug { Svg.new 9 with xdim := 2 } [1, 0, 1, 1] with
    | .ok o => (readSvg o).map (fun d => paperLine 2 (beam 8 1 (fun x y => (topmost d.rects x y).any (fun r =>
        decide (r.fill.rgb ≠ (255, 255, 255)))) (fun i => i)) 1)
    | _ => none) = some [0, 0, 1, 1, 0, 0, 1, 1, 1, 1, 0] := by decide +kernel

/-- C91. Text pictures: the beam goes from column to column, in any line. -/
theorem C91_ascii {α : Type} (b : Build) (k : Kind) (s : List Char) (ms : List Nat) (h : Drawn b k s ms)
    (scan : List Nat → Option α) (t : α) (hr : Readable scan ms t) (g : Ascii.ASCII) (hx : 0 < g.xdim) (hh : 0 < g.height) :
    ∃ out, Ascii.generate g ms = .ok out ∧ (splitLines out).length = g.height ∧
      (∀ l ∈ splitLines out, l.length = ms.length * g.xdim) ∧
      ∀ n path q r, 0 < n → (∀ i, path i < g.height) →
        ReadsBoth scan (paperLine q (beam (ms.length * g.xdim) n (fun x y => decide (charAt out x y = some '#')) path) r) t := by
  have hb := drawn_binary b k s ms h
  have hrow : asciiRow g.xdim ms = (List.range (ms.length * g.xdim)).map (fun i => if ms[i / g.xdim]? = some 1 then '#' else ' ') := by
    rw [cells_eq g.xdim hx ms (fun o => if o = some 1 then '#' else ' '), asciiRow]
    simp
  obtain ⟨m, hm⟩ : ∃ m, g.height = m + 1 := ⟨g.height - 1, by omega⟩
  have hlines : splitLines (joinLines (List.replicate g.height (asciiRow g.xdim ms))) =
      List.replicate g.height (asciiRow g.xdim ms) := by
    rw [hm]; exact splitLines_join _ m (asciiRow_no_newline _ _)
  refine ⟨_, C35_ascii_output g ms hb, by rw [hlines, List.length_replicate], ?_, fun n path q r hn hp => ?_⟩
  · intro l hl
    rw [hlines] at hl
    rw [List.eq_of_mem_replicate hl, hrow]
    simp
  · refine beam_reads scan ms t hr g.xdim n q r hx hn hb _ path g.height (fun i y hi hy => ?_) hp
    rw [decide_eq_true_iff, charAt, hlines, List.getElem?_replicate, if_pos hy, Option.bind_some, hrow, List.getElem?_map,
      List.getElem?_range hi, Option.map_some]
    by_cases h1 : ms[i / g.xdim]? = some 1 <;> simp [h1]

/-- A slanted beam over an image of a Code 39 symbol that is 2 pixels per module wide, 20 high and upside down. -/
example : ∃ ms buf, Drawn .debug .code39 "A".toList ms ∧
    Image.generateBuffer .release { Image.png 20 with xdim := 2, rotation := .oneEighty } ms = .ok buf ∧ buf.w = 76 ∧
    handScan scanCode39 (paperLine 3 (beam buf.w 2 (fun x y => decide (buf.px x y ≠ Image.Color.white))
      (fun i => i / 8)) 4) = some "A".toList := by
  refine ⟨_, _, ⟨_, Or.inl rfl, rfl⟩, rfl, ?_, ?_⟩ <;> decide +kernel

/-- A beam that shakes, over a text picture. -/
example : ∃ ms out, Drawn .debug .code11 "1".toList ms ∧ Ascii.generate ⟨3, 2⟩ ms = .ok out ∧
    handScan scanCode11 (paperLine 1 (beam (ms.length * 2) 1 (fun x y => decide (charAt out x y = some '#'))
      (fun i => i % 3)) 0) = some "1".toList := by
  refine ⟨_, _, ⟨_, rfl, rfl⟩, rfl, ?_⟩
  decide +kernel

/-- A beam that leaves the picture sees something else. -/
example : ∃ ms out, Drawn .debug .code11 "1".toList ms ∧ Ascii.generate ⟨3, 2⟩ ms = .ok out ∧
    handScan scanCode11 (paperLine 1 (beam (ms.length * 2) 1 (fun x y => decide (charAt out x y = some '#'))
      (fun i => i / 10)) 0) = none := by
  refine ⟨_, _, ⟨_, rfl, rfl⟩, rfl, ?_⟩
  decide +kernel

end Barcoders
