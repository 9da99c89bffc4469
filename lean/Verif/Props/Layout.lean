import Verif.Spec.Layout
import Verif.Props.Ascii
import Verif.Props.Svg
import Verif.Props.Image

/-!
# C89: how pictures of related slices are related

Appending slices puts their pictures side by side, repeating every module is the same as a larger `xdim`, and exchanging bars and
spaces is the same as exchanging the colours.
-/

set_option autoImplicit false

namespace Barcoders
open Spec

theorem asciiRow_append (x : Nat) (p q : List Nat) : asciiRow x (p ++ q) = asciiRow x p ++ asciiRow x q := by
  rw [asciiRow, List.flatMap_append]; rfl

theorem asciiRow_stretch (j k : Nat) (bits : List Nat) :
    asciiRow j (bits.flatMap (List.replicate k)) = asciiRow (j * k) bits := by
  induction bits with
  | nil => rfl
  | cons m bits ih =>
    rw [List.flatMap_cons, asciiRow_append, ih]
    unfold asciiRow
    rw [List.flatMap_cons, List.flatMap_replicate, List.flatten_replicate_replicate, Nat.mul_comm]

theorem ascii_ok_bits (g : Ascii.ASCII) (bits : List Nat) (out : List Char) (h : Ascii.generate g bits = .ok out) :
    ∀ m ∈ bits, m = 0 ∨ m = 1 := by
  intro m hm
  by_cases h1 : 1 < m
  · obtain ⟨p, hp⟩ := (C35_ascii_panics_iff g bits).1.2 ⟨m, hm, h1⟩
    rw [hp] at h; cases h
  · omega

/-- C89. Text pictures: every line for `p ++ q` is the line for `p` followed by the line for `q`. -/
theorem C89_ascii_append (g : Ascii.ASCII) (hh : 0 < g.height) (p q : List Nat) (a c : List Char)
    (ha : Ascii.generate g p = .ok a) (hc : Ascii.generate g q = .ok c) :
    ∃ r, Ascii.generate g (p ++ q) = .ok r ∧ splitLines r = List.zipWith (· ++ ·) (splitLines a) (splitLines c) := by
  have hp := ascii_ok_bits g p a ha
  have hq := ascii_ok_bits g q c hc
  have hb : ∀ m ∈ p ++ q, m = 0 ∨ m = 1 := fun m hm => (List.mem_append.mp hm).elim (hp m) (hq m)
  refine ⟨_, C35_ascii_output g _ hb, ?_⟩
  rw [C35_ascii_output g _ hp, Outcome.ok.injEq] at ha
  rw [C35_ascii_output g _ hq, Outcome.ok.injEq] at hc
  obtain ⟨n, hn⟩ : ∃ n, g.height = n + 1 := ⟨g.height - 1, by omega⟩
  rw [← ha, ← hc, hn, splitLines_join _ n (asciiRow_no_newline _ _), splitLines_join _ n (asciiRow_no_newline _ _),
    splitLines_join _ n (asciiRow_no_newline _ _), asciiRow_append]
  simp

example : Ascii.generate ⟨2, 2⟩ [1, 0] = .ok "##  \n##  ".toList ∧ Ascii.generate ⟨2, 2⟩ [1] = .ok "##\n##".toList ∧
    Ascii.generate ⟨2, 2⟩ ([1, 0] ++ [1]) = .ok "##  ##\n##  ##".toList := ⟨by decide, by decide, by decide⟩

/-- C89. Text pictures: every module `k` times is the same as `k` times the `xdim`; also for slices that make it panic. -/
theorem C89_ascii_stretch (h j k : Nat) (hk : 0 < k) (bits : List Nat) :
    Ascii.generate ⟨h, j⟩ (bits.flatMap (List.replicate k)) = Ascii.generate ⟨h, j * k⟩ bits := by
  have hmem : ∀ m, m ∈ bits.flatMap (List.replicate k) ↔ m ∈ bits := by
    intro m
    rw [List.mem_flatMap]
    constructor
    · rintro ⟨n, hn, hm⟩
      rw [List.mem_replicate] at hm
      rw [hm.2]; exact hn
    · intro hm
      exact ⟨m, hm, List.mem_replicate.mpr ⟨by omega, rfl⟩⟩
  by_cases hb : ∀ m ∈ bits, m = 0 ∨ m = 1
  · rw [C35_ascii_output _ _ hb, C35_ascii_output _ _ (fun m hm => hb m ((hmem m).1 hm)), asciiRow_stretch]
  · have bad : ∃ m ∈ bits, 1 < m := by
      apply Classical.byContradiction
      intro hn
      exact hb (fun m hm => by
        have : ¬ 1 < m := fun h1 => hn ⟨m, hm, h1⟩
        omega)
    have panics : ∀ (g : Ascii.ASCII) (l : List Nat), (∃ m ∈ l, 1 < m) → Ascii.generate g l = .panic .bounds := by
      intro g l ⟨m, hm, h1⟩
      unfold Ascii.generate Ascii.generateRow
      rw [mapO_panic _ l .bounds]
      · rfl
      · intro d _
        by_cases hd : d < 2
        · left
          rw [idx_ok Ascii.CHARS d hd]
          exact ⟨_, rfl⟩
        · right
          rw [idx_panic Ascii.CHARS d (by have : Ascii.CHARS.length = 2 := rfl; omega)]
          rfl
      · refine ⟨m, hm, ?_⟩
        rw [idx_panic Ascii.CHARS m (by have : Ascii.CHARS.length = 2 := rfl; omega)]
        rfl
    obtain ⟨m, hm, h1⟩ := bad
    rw [panics _ _ ⟨m, hm, h1⟩, panics _ _ ⟨m, (hmem m).2 hm, h1⟩]

example : Ascii.generate ⟨1, 2⟩ [1, 1, 1, 0, 0, 0] = .ok "######      ".toList ∧
    Ascii.generate ⟨1, 6⟩ [1, 0] = .ok "######      ".toList := ⟨by decide, by decide⟩

theorem stretch_length (k : Nat) (bits : List Nat) : (bits.flatMap (List.replicate k)).length = bits.length * k := by
  induction bits with
  | nil => simp
  | cons m bits ih => rw [List.flatMap_cons, List.length_append, ih, List.length_replicate, List.length_cons, Nat.succ_mul]; omega

theorem stretch_get (k : Nat) (hk : 0 < k) (bits : List Nat) (i : Nat) :
    (bits.flatMap (List.replicate k))[i]? = bits[i / k]? := by
  induction bits generalizing i with
  | nil => simp
  | cons m bits ih =>
    rw [List.flatMap_cons]
    by_cases hi : i < k
    · rw [List.getElem?_append_left (by simpa using hi), Nat.div_eq_of_lt hi, List.getElem?_replicate, if_pos hi]
      rfl
    · rw [List.getElem?_append_right (by simpa using hi), List.length_replicate, ih]
      have : i / k = (i - k) / k + 1 := by
        rw [← Nat.add_div_right _ hk]; congr 1; omega
      rw [this, List.getElem?_cons_succ]

open Image in
theorem picture_stretch (g : Image) (j k : Nat) (hk : 0 < k) (bits : List Nat) :
    picture { g with xdim := j } (bits.flatMap (List.replicate k)) = picture { g with xdim := j * k } bits := by
  unfold picture painted
  simp only [stretch_length, List.getD_eq_getElem?_getD, stretch_get k hk, Nat.div_div_eq_div_mul, Nat.mul_assoc, Nat.mul_comm k j]

open Image in
/-- C89. Images: every module `k` times is the same as `k` times the `xdim`: the same picture, and the same file. -/
theorem C89_image_stretch (codec : Codec) (b : Build) (g : Image) (j k : Nat) (hk : 0 < k) (bits : List Nat)
    (hw : bits.length * (j * k) < 2 ^ 32) (hs : 4 * (bits.length * (j * k)) * g.height < 2 ^ 63) :
    generateBuffer b { g with xdim := j } (bits.flatMap (List.replicate k)) = generateBuffer b { g with xdim := j * k } bits ∧
    generate codec b { g with xdim := j } (bits.flatMap (List.replicate k)) = generate codec b { g with xdim := j * k } bits := by
  have hl : (bits.flatMap (List.replicate k)).length * j = bits.length * (j * k) := by
    rw [stretch_length, Nat.mul_assoc, Nat.mul_comm k]
  have key : placePixels b { g with xdim := j } (bits.flatMap (List.replicate k)) = placePixels b { g with xdim := j * k } bits := by
    rw [placePixels_eq b { g with xdim := j } _ (by simp only [hl]; exact hw) (by simp only [hl]; exact hs),
      placePixels_eq b { g with xdim := j * k } bits hw hs, picture_stretch g j k hk]
  refine ⟨key, ?_⟩
  unfold generate
  simp only [key]

example : [1, 0].flatMap (List.replicate 3) = [1, 1, 1, 0, 0, 0] ∧
    ∃ a r, Image.generateBuffer .release { Image.png 1 with xdim := 2 } [1, 1, 1, 0, 0, 0] = .ok a ∧
      Image.generateBuffer .release { Image.png 1 with xdim := 6 } [1, 0] = .ok r ∧ a.w = r.w ∧
      ∀ x < 12, a.px x 0 = r.px x 0 := ⟨by decide, _, _, rfl, rfl, rfl, by decide +kernel⟩

open Image in
theorem picture_swap (g : Image) (bits : List Nat) (h : ∀ m ∈ bits, m = 0 ∨ m = 1) :
    picture { g with foreground := g.background, background := g.foreground } (bits.map (1 - ·)) = picture g bits := by
  unfold picture painted
  simp only [List.length_map, Buffer.mk.injEq, true_and]
  funext x y
  by_cases hin : y < g.height ∧ x < bits.length * g.xdim
  · have hxd : 0 < g.xdim := Nat.pos_of_ne_zero (fun h => by rw [h] at hin; simp at hin)
    have hlt : x / g.xdim < bits.length := by rw [Nat.div_lt_iff_lt_mul hxd]; exact hin.2
    rw [if_pos (by simpa using hin), if_pos (by simpa using hin), List.getD_eq_getElem?_getD, List.getD_eq_getElem?_getD,
      List.getElem?_map, List.getElem?_eq_getElem hlt]
    rcases h _ (List.getElem_mem hlt) with h0 | h0 <;> rw [h0] <;> rfl
  · rw [if_neg (by simpa using hin), if_neg (by simpa using hin)]

open Image in
/-- C89. Images: exchanging bars and spaces is the same as exchanging the colours. -/
theorem C89_image_negative (codec : Codec) (b : Build) (g : Image) (bits : List Nat) (h : ∀ m ∈ bits, m = 0 ∨ m = 1)
    (hw : bits.length * g.xdim < 2 ^ 32) (hs : 4 * (bits.length * g.xdim) * g.height < 2 ^ 63) :
    generateBuffer b { g with foreground := g.background, background := g.foreground } (bits.map (1 - ·)) =
      generateBuffer b g bits ∧
    generate codec b { g with foreground := g.background, background := g.foreground } (bits.map (1 - ·)) =
      generate codec b g bits := by
  have key : placePixels b { g with foreground := g.background, background := g.foreground } (bits.map (1 - ·)) =
      placePixels b g bits := by
    rw [placePixels_eq b { g with foreground := g.background, background := g.foreground } _
      (by simpa using hw) (by simpa using hs), placePixels_eq b g bits hw hs, picture_swap g bits h]
  refine ⟨key, ?_⟩
  unfold generate
  simp only [key]

example : ∃ a r, Image.generateBuffer .debug { Image.png 1 with foreground := .white, background := .black } [0, 1, 1] = .ok a ∧
    Image.generateBuffer .debug (Image.png 1) [1, 0, 0] = .ok r ∧ ∀ x < 3, a.px x 0 = r.px x 0 := ⟨_, _, rfl, rfl, by decide +kernel⟩

open Image in
/-- C89. Images: the picture for `p ++ q` is made of the pictures for `p` and for `q`, one behind the other in the direction of
reading: to the right, downwards, to the left, upwards. -/
theorem C89_image_append (b : Build) (g : Image) (p q : List Nat) (hw : (p ++ q).length * g.xdim < 2 ^ 32)
    (hs : 4 * ((p ++ q).length * g.xdim) * g.height < 2 ^ 63) :
    ∃ a c r, generateBuffer b g p = .ok a ∧ generateBuffer b g q = .ok c ∧ generateBuffer b g (p ++ q) = .ok r ∧
      match g.rotation with
      | .zero => r.w = a.w + c.w ∧ r.h = a.h ∧ r.h = c.h ∧
        ∀ x y, x < r.w → y < r.h → r.px x y = if x < a.w then a.px x y else c.px (x - a.w) y
      | .ninety => r.h = a.h + c.h ∧ r.w = a.w ∧ r.w = c.w ∧
        ∀ x y, x < r.w → y < r.h → r.px x y = if y < a.h then a.px x y else c.px x (y - a.h)
      | .oneEighty => r.w = a.w + c.w ∧ r.h = a.h ∧ r.h = c.h ∧
        ∀ x y, x < r.w → y < r.h → r.px x y = if x < c.w then c.px x y else a.px (x - c.w) y
      | .twoSeventy => r.h = a.h + c.h ∧ r.w = a.w ∧ r.w = c.w ∧
        ∀ x y, x < r.w → y < r.h → r.px x y = if y < c.h then c.px x y else a.px x (y - c.h) := by
  have hlen : (p ++ q).length * g.xdim = p.length * g.xdim + q.length * g.xdim := by rw [List.length_append, Nat.add_mul]
  have hmono : ∀ n, n ≤ (p ++ q).length * g.xdim → 4 * n * g.height < 2 ^ 63 := fun n hn =>
    Nat.lt_of_le_of_lt (Nat.mul_le_mul_right _ (Nat.mul_le_mul_left 4 hn)) hs
  have hget : ∀ x, 0 < g.xdim → x < p.length * g.xdim → (p ++ q)[x / g.xdim]? = p[x / g.xdim]? := by
    intro x hx h
    exact List.getElem?_append_left (by rw [Nat.div_lt_iff_lt_mul hx]; exact h)
  have hget' : ∀ x, 0 < g.xdim → p.length * g.xdim ≤ x → (p ++ q)[x / g.xdim]? = q[(x - p.length * g.xdim) / g.xdim]? := by
    intro x hx h
    rw [List.getElem?_append_right (by rw [Nat.le_div_iff_mul_le hx]; exact h)]
    congr 1
    obtain ⟨d, rfl⟩ := Nat.exists_eq_add_of_le h
    rw [Nat.add_sub_cancel_left, Nat.mul_comm, Nat.mul_add_div hx, Nat.add_sub_cancel_left]
  have pos : ∀ x, x < (p ++ q).length * g.xdim → 0 < g.xdim := fun x hx =>
    Nat.pos_of_ne_zero (fun h => by rw [h] at hx; simp at hx)
  have core : ∀ x y, x < (p ++ q).length * g.xdim → y < g.height → (picture g (p ++ q)).px x y =
      if x < p.length * g.xdim then (picture g p).px x y else (picture g q).px (x - p.length * g.xdim) y := by
    intro x y hx hy
    rw [picture_px g _ x y hx hy]
    by_cases h : x < p.length * g.xdim
    · rw [if_pos h, picture_px g p x y h hy, hget x (pos x hx) h]
    · rw [if_neg h, picture_px g q _ y (by omega) hy, hget' x (pos x hx) (by omega)]
  refine ⟨_, _, _, placePixels_eq b g p (by omega) (hmono _ (by omega)), placePixels_eq b g q (by omega) (hmono _ (by omega)),
    placePixels_eq b g (p ++ q) hw hs, ?_⟩
  cases g.rotation with
  | zero => exact ⟨hlen, rfl, rfl, core⟩
  | ninety =>
    refine ⟨hlen, rfl, rfl, ?_⟩
    intro x y hx hy
    have hx' : x < g.height := hx
    exact core y (g.height - 1 - x) hy (by omega)
  | oneEighty =>
    refine ⟨hlen, rfl, rfl, ?_⟩
    intro x y hx hy
    have hx' : x < (p ++ q).length * g.xdim := hx
    have hy' : y < g.height := hy
    have := core ((p ++ q).length * g.xdim - 1 - x) (g.height - 1 - y) (by omega) (by omega)
    show (picture g (p ++ q)).px ((p ++ q).length * g.xdim - 1 - x) (g.height - 1 - y) = _
    rw [this]
    show _ = if x < q.length * g.xdim then (picture g q).px (q.length * g.xdim - 1 - x) (g.height - 1 - y)
      else (picture g p).px (p.length * g.xdim - 1 - (x - q.length * g.xdim)) (g.height - 1 - y)
    by_cases h : x < q.length * g.xdim
    · rw [if_pos h, if_neg (by omega)]
      congr 1
      omega
    · rw [if_neg h, if_pos (by omega)]
      congr 1
      omega
  | twoSeventy =>
    refine ⟨hlen, rfl, rfl, ?_⟩
    intro x y hx hy
    have hx' : x < g.height := hx
    have hy' : y < (p ++ q).length * g.xdim := hy
    have := core ((p ++ q).length * g.xdim - 1 - y) x (by omega) (by omega)
    show (picture g (p ++ q)).px ((p ++ q).length * g.xdim - 1 - y) x = _
    rw [this]
    show _ = if y < q.length * g.xdim then (picture g q).px (q.length * g.xdim - 1 - y) x
      else (picture g p).px (p.length * g.xdim - 1 - (y - q.length * g.xdim)) x
    by_cases h : y < q.length * g.xdim
    · rw [if_pos h, if_neg (by omega)]
      congr 1
      omega
    · rw [if_neg h, if_pos (by omega)]
      congr 1
      omega

example : ∃ a c r, Image.generateBuffer .debug { Image.png 1 with rotation := .oneEighty } [1, 0] = .ok a ∧
    Image.generateBuffer .debug { Image.png 1 with rotation := .oneEighty } [1, 1, 0] = .ok c ∧
    Image.generateBuffer .debug { Image.png 1 with rotation := .oneEighty } [1, 0, 1, 1, 0] = .ok r ∧
    ∀ x < 5, r.px x 0 = if x < 3 then c.px x 0 else a.px (x - 3) 0 := ⟨_, _, _, rfl, rfl, rfl, by decide +kernel⟩

open Image in
/-- C89. A quiet zone: `n` zeros before and after the slice put `n * xdim` columns of background on either side of the image. -/
theorem C89_image_margin (b : Build) (g : Image) (hr : g.rotation = .zero) (n : Nat) (bits : List Nat)
    (hw : (bits.length + 2 * n) * g.xdim < 2 ^ 32) (hs : 4 * ((bits.length + 2 * n) * g.xdim) * g.height < 2 ^ 63) :
    ∃ a r, generateBuffer b g bits = .ok a ∧ generateBuffer b g (List.replicate n 0 ++ bits ++ List.replicate n 0) = .ok r ∧
      r.w = a.w + 2 * (n * g.xdim) ∧ r.h = a.h ∧ ∀ x y, x < r.w → y < r.h → r.px x y =
        if n * g.xdim ≤ x ∧ x < n * g.xdim + a.w then a.px (x - n * g.xdim) y else g.background := by
  have hl : (List.replicate n 0 ++ bits ++ List.replicate n 0).length = bits.length + 2 * n := by simp; omega
  have hsum : (bits.length + 2 * n) * g.xdim = bits.length * g.xdim + 2 * (n * g.xdim) := by
    rw [Nat.add_mul, Nat.mul_assoc]
  obtain ⟨r, h1, h2, h3, h4⟩ := C40_image_pixels b g (List.replicate n 0 ++ bits ++ List.replicate n 0) hr
    (by rw [hl]; exact hw) (by rw [hl]; exact hs)
  obtain ⟨a, h5, h6, h7, h8⟩ := C40_image_pixels b g bits hr (by omega)
    (Nat.lt_of_le_of_lt (Nat.mul_le_mul_right _ (Nat.mul_le_mul_left 4 (by omega))) hs)
  refine ⟨a, r, h5, h1, by rw [h2, hl, h6, hsum], by rw [h3, h7], ?_⟩
  intro x y hx hy
  have hxd : 0 < g.xdim := Nat.pos_of_ne_zero (fun h => by rw [h2, h] at hx; simp at hx)
  have hxw : x < (bits.length + 2 * n) * g.xdim := by rw [h2, hl] at hx; exact hx
  rw [h4 x y hx hy]
  by_cases hin : n * g.xdim ≤ x ∧ x < n * g.xdim + a.w
  · rw [if_pos hin, h8 _ _ (by omega) (by rw [h7, ← h3]; exact hy)]
    have e : (List.replicate n 0 ++ bits ++ List.replicate n 0)[x / g.xdim]? = bits[(x - n * g.xdim) / g.xdim]? := by
      obtain ⟨d, rfl⟩ := Nat.exists_eq_add_of_le hin.1
      have hd : d / g.xdim < bits.length := by rw [Nat.div_lt_iff_lt_mul hxd]; omega
      rw [Nat.add_sub_cancel_left, Nat.mul_comm, Nat.mul_add_div hxd, List.append_assoc,
        List.getElem?_append_right (by simp), List.getElem?_append_left (by simp; exact hd)]
      simp
    rw [e]
  · rw [if_neg hin, if_pos]
    rw [List.append_assoc]
    by_cases hlow : x < n * g.xdim
    · have : x / g.xdim < n := by rw [Nat.div_lt_iff_lt_mul hxd]; exact hlow
      rw [List.getElem?_append_left (by simpa using this), List.getElem?_replicate, if_pos this]
    · have h1 : n + bits.length ≤ x / g.xdim := by
        rw [Nat.le_div_iff_mul_le hxd, Nat.add_mul]; omega
      have h2 : x / g.xdim < bits.length + 2 * n := by rw [Nat.div_lt_iff_lt_mul hxd]; exact hxw
      rw [List.getElem?_append_right (by simp; omega), List.getElem?_append_right (by simp; omega), List.getElem?_replicate,
        if_pos (by simp; omega)]

example : ∃ a r, Image.generateBuffer .debug { Image.png 1 with xdim := 2 } [1, 0] = .ok a ∧
    Image.generateBuffer .debug { Image.png 1 with xdim := 2 } [0, 1, 0, 0] = .ok r ∧ a.w = 4 ∧ r.w = 8 ∧
    r.px 1 0 = Image.Color.white ∧ r.px 2 0 = a.px 0 0 ∧ a.px 0 0 = Image.Color.black := ⟨_, _, rfl, rfl, by decide +kernel⟩

theorem bars_append (p q : List Nat) (x h : Nat) (f : Paint) :
    ((List.range (p ++ q).length).filter (fun i => (p ++ q)[i]? = some 1)).map (fun i => (⟨i * x, 0, x, h, f⟩ : SvgRect)) =
    ((List.range p.length).filter (fun i => p[i]? = some 1)).map (fun i => ⟨i * x, 0, x, h, f⟩) ++
    (((List.range q.length).filter (fun i => q[i]? = some 1)).map (fun i => ⟨i * x, 0, x, h, f⟩)).map (moveRect (p.length * x)) := by
  rw [List.length_append, List.range_add, List.filter_append, List.map_append]
  congr 1
  · congr 1
    apply List.filter_congr
    intro i hi
    rw [List.getElem?_append_left (List.mem_range.mp hi)]
  · rw [List.filter_map, List.map_map, List.map_map]
    have : (fun i => decide ((p ++ q)[i]? = some 1)) ∘ (fun i => p.length + i) = fun i => decide (q[i]? = some 1) := by
      funext i
      simp only [Function.comp_apply]
      rw [List.getElem?_append_right (by omega), Nat.add_sub_cancel_left]
    rw [this]
    apply List.map_congr_left
    intro i _
    simp only [Function.comp_apply, moveRect, SvgRect.mk.injEq, and_true]
    rw [Nat.add_mul, Nat.add_comm]

/-- C89. SVG: the bars for `p ++ q` are the bars for `p` and, moved to the right by the width of `p`, the bars for `q`. -/
theorem C89_svg_append (b : Build) (s : Svg.SVG) (p q : List Nat) (hw : (p ++ q).length * s.xdim < 2 ^ 32)
    (hx : ∀ x ∈ s.xmlns, ∀ c ∈ x, xmlPlain c = true) :
    ∃ oa oc o a c r, Svg.generate b s p = .ok oa ∧ Svg.generate b s q = .ok oc ∧ Svg.generate b s (p ++ q) = .ok o ∧
      readSvg oa = some a ∧ readSvg oc = some c ∧ readSvg o = some r ∧
      r.viewBox = [0, 0, p.length * s.xdim + q.length * s.xdim, s.height] ∧
      a.viewBox = [0, 0, p.length * s.xdim, s.height] ∧ c.viewBox = [0, 0, q.length * s.xdim, s.height] ∧
      r.rects.tail = a.rects.tail ++ c.rects.tail.map (moveRect (p.length * s.xdim)) := by
  have hlen : (p ++ q).length * s.xdim = p.length * s.xdim + q.length * s.xdim := by rw [List.length_append, Nat.add_mul]
  obtain ⟨oa, f1, g1, a1, a2, -, a3⟩ := C37_svg_parses b s p (by omega) hx
  obtain ⟨oc, f2, g2, c1, c2, -, c3⟩ := C37_svg_parses b s q (by omega) hx
  obtain ⟨o, f3, g3, r1, r2, -, r3⟩ := C37_svg_parses b s (p ++ q) hw hx
  have uniq : ∀ (f f' : Paint), f.Shows s.foreground.r s.foreground.g s.foreground.b s.foreground.a →
      f'.Shows s.foreground.r s.foreground.g s.foreground.b s.foreground.a → f = f' := by
    intro ⟨c, o⟩ ⟨c', o'⟩ ⟨h1, h2, h3⟩ ⟨h1', h2', h3'⟩
    simp only at h1 h2 h3 h1' h2' h3'
    rw [Paint.mk.injEq]
    exact ⟨by rw [h1, h1'], by omega⟩
  obtain rfl := uniq f1 f3 a2 r2
  obtain rfl := uniq f2 f1 c2 r2
  refine ⟨oa, oc, o, _, _, _, a1, c1, r1, a3, c3, r3, by simp only [hlen], rfl, rfl, ?_⟩
  simp only [List.tail_cons]
  exact bars_append p q s.xdim s.height _

example : (match Svg.generate .debug { Svg.new 5 with xdim := 3 } ([1, 0] ++ [0, 1]) with
    | .ok o => (readSvg o).map (fun d => (d.viewBox, d.rects.tail.map (·.x)))
    | _ => none) = some ([0, 0, 12, 5], [0, 9]) := by decide +kernel

/-- C89. SVG: every module `k` times gives the same picture as `k` times the `xdim`, though with more rectangles. -/
theorem C89_svg_stretch (b : Build) (s : Svg.SVG) (j k : Nat) (hk : 0 < k) (bits : List Nat)
    (hw : bits.length * (j * k) < 2 ^ 32) (hx : ∀ x ∈ s.xmlns, ∀ c ∈ x, xmlPlain c = true) :
    ∃ o o' d d', Svg.generate b { s with xdim := j } (bits.flatMap (List.replicate k)) = .ok o ∧
      Svg.generate b { s with xdim := j * k } bits = .ok o' ∧ readSvg o = some d ∧ readSvg o' = some d' ∧
      d.viewBox = d'.viewBox ∧ ∀ x y, x < bits.length * (j * k) → y < s.height →
        ∃ r r', topmost d.rects x y = some r ∧ topmost d'.rects x y = some r' ∧ r.fill = r'.fill := by
  have hl : (bits.flatMap (List.replicate k)).length * j = bits.length * (j * k) := by
    rw [stretch_length, Nat.mul_assoc, Nat.mul_comm k]
  obtain ⟨o, d, h1, h2, h3, h4⟩ := C38_svg_shows_bars b { s with xdim := j } (bits.flatMap (List.replicate k))
    (by simp only [hl]; exact hw) hx
  obtain ⟨o', d', h1', h2', h3', h4'⟩ := C38_svg_shows_bars b { s with xdim := j * k } bits hw hx
  refine ⟨o, o', d, d', h1, h1', h2, h2', by rw [h3, h3']; simp only [hl], ?_⟩
  intro x y hx hy
  obtain ⟨r, t1, t2, -⟩ := h4 x y (by simp only [hl]; exact hx) hy
  obtain ⟨r', t1', t2', -⟩ := h4' x y hx hy
  refine ⟨r, r', t1, t1', ?_⟩
  simp only [stretch_get k hk, Nat.div_div_eq_div_mul] at t2
  have uniq : ∀ (f f' : Paint) (u v w z : Nat), f.Shows u v w z → f'.Shows u v w z → f = f' := by
    intro ⟨c, o⟩ ⟨c', o'⟩ u v w z ⟨h1, h2, h3⟩ ⟨h1', h2', h3'⟩
    simp only at h1 h2 h3 h1' h2' h3'
    rw [Paint.mk.injEq]
    exact ⟨by rw [h1, h1'], by omega⟩
  split at t2
  · rename_i hb
    rw [if_pos hb] at t2'
    exact uniq _ _ _ _ _ _ t2 t2'
  · rename_i hb
    rw [if_neg hb] at t2'
    exact uniq _ _ _ _ _ _ t2 t2'

example : (match Svg.generate .debug { Svg.new 5 with xdim := 2 } [1, 1, 0, 0] with
    | .ok o => (readSvg o).map (fun d => (d.viewBox, d.rects.tail.map (fun r => (r.x, r.width))))
    | _ => none) = some ([0, 0, 8, 5], [(0, 2), (2, 2)]) := by decide +kernel
example : (match Svg.generate .debug { Svg.new 5 with xdim := 4 } [1, 0] with
    | .ok o => (readSvg o).map (fun d => (d.viewBox, d.rects.tail.map (fun r => (r.x, r.width))))
    | _ => none) = some ([0, 0, 8, 5], [(0, 4)]) := by decide +kernel
example : (match Svg.generate .debug { Svg.new 5 with xdim := 3 } ([0, 1] ++ [1]) with
    | .ok o => (readSvg o).map (fun d => d.rects.tail.map (·.x))
    | _ => none) = some [3, 6] := by decide +kernel
example : ∃ a r, Image.generateBuffer .debug { Image.png 1 with foreground := .white, background := .black } [0, 1] = .ok a ∧
    Image.generateBuffer .debug (Image.png 1) [1, 0] = .ok r ∧ a.px 0 0 = Image.Color.black ∧ r.px 0 0 = Image.Color.black ∧
    a.px 1 0 = Image.Color.white ∧ r.px 1 0 = Image.Color.white := ⟨_, _, rfl, rfl, by decide +kernel⟩
example : ∃ a r, Image.generateBuffer .debug { Image.png 1 with xdim := 2 } [1, 1, 1, 0, 0, 0] = .ok a ∧
    Image.generateBuffer .debug { Image.png 1 with xdim := 6 } [1, 0] = .ok r ∧ a.w = 12 ∧ r.w = 12 ∧
    a.px 5 0 = Image.Color.black ∧ r.px 6 0 = Image.Color.white := ⟨_, _, rfl, rfl, by decide +kernel⟩

end Barcoders
