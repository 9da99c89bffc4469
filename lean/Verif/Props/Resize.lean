import Verif.Spec.Resize
import Verif.Props.HandScan
set_option autoImplicit false

/-! C97: resized pictures. -/

namespace Barcoders
open Spec

theorem centre_lt (n N m : Nat) (hm : m < n) (hN : 0 < N) : (2 * m + 1) * N / (2 * n) < N := by
  rw [Nat.div_lt_iff_lt_mul (by omega), Nat.mul_comm N]
  exact Nat.mul_lt_mul_of_pos_right (by omega) hN

/-- The pixel over the middle of module `m` touches only source pixels of that module. -/
theorem centre_module (n N x m u : Nat) (hx : 0 < x) (hm : m < n) (hN : 2 * n ≤ N)
    (h : Overlap N (n * x) ((2 * m + 1) * N / (2 * n)) u) : u / x = m := by
  obtain ⟨h1, h2⟩ := h
  have d1 := Nat.div_mul_le_self ((2 * m + 1) * N) (2 * n)
  have d2 := Nat.lt_mul_div_succ ((2 * m + 1) * N) (show 0 < 2 * n by omega)
  generalize (2 * m + 1) * N / (2 * n) = i at *
  have hN0 : 0 < N := by omega
  have e1 : (2 * m + 1) * N = 2 * (m * N) + N := by rw [Nat.add_mul, Nat.mul_assoc, Nat.one_mul]
  have e2 : 2 * n * (i + 1) = 2 * (i * n) + 2 * n := by rw [Nat.mul_add, Nat.mul_one, Nat.mul_assoc, Nat.mul_comm n i]
  have e3 : i * (2 * n) = 2 * (i * n) := by rw [Nat.mul_left_comm]
  rw [e1] at d1 d2
  rw [e2] at d2
  rw [e3] at d1
  have a1 : m * N < i * n := by omega
  have a2 : i * n + n ≤ m * N + N := by omega
  have b1 : m * x ≤ u := by
    apply Nat.le_of_lt_succ
    apply Nat.lt_of_mul_lt_mul_right (a := N)
    have := Nat.mul_lt_mul_of_pos_right a1 hx
    rw [Nat.mul_right_comm]
    rw [← Nat.mul_assoc] at h1
    exact Nat.lt_trans this h1
  have b2 : u < (m + 1) * x := by
    apply Nat.lt_of_mul_lt_mul_right (a := N)
    have := Nat.mul_le_mul_right x a2
    rw [← Nat.mul_assoc, Nat.add_mul, Nat.one_mul] at h2
    have e4 : (m + 1) * x * N = (m * N + N) * x := by
      rw [Nat.mul_right_comm, Nat.add_mul m 1 N, Nat.one_mul]
    rw [e4]
    exact Nat.lt_of_lt_of_le h2 this
  exact (Nat.div_eq_iff hx).2 ⟨b1, by rw [Nat.add_mul, Nat.one_mul] at b2; omega⟩

theorem centres_resized (ms line : List Nat) (x : Nat) (hx : 0 < x) (hN : 2 * ms.length ≤ line.length)
    (h : ∀ i < line.length, ∃ u, u < ms.length * x ∧ Overlap line.length (ms.length * x) i u ∧
      line[i]? = ms[u / x]?) : centres ms.length line = ms := by
  apply List.ext_getElem?
  intro m
  rw [centres, List.getElem?_map]
  by_cases hm : m < ms.length
  · rw [List.getElem?_range hm, Option.map_some]
    have hlt := centre_lt ms.length line.length m hm (by omega)
    obtain ⟨u, hu, ho, e⟩ := h _ hlt
    rw [centre_module ms.length line.length x m u hx hm hN ho] at e
    rw [List.getD_eq_getElem?_getD, e, List.getElem?_eq_getElem hm]
    rfl
  · rw [List.getElem?_eq_none (by simpa using hm), List.getElem?_eq_none (by omega)]
    rfl

theorem stretch_getElem? (x : Nat) (hx : 0 < x) (ms : List Nat) (u : Nat) (hu : u < ms.length * x) :
    (stretch x ms)[u]? = ms[u / x]? := by
  induction ms generalizing u with
  | nil => simp at hu
  | cons m ms ih =>
    show (List.replicate x m ++ stretch x ms)[u]? = _
    by_cases h : u < x
    · rw [List.getElem?_append_left (by simpa using h), Nat.div_eq_of_lt h]
      simp [h]
    · rw [List.getElem?_append_right (by simp; omega), List.length_replicate,
        ih _ (by rw [List.length_cons, Nat.add_mul] at hu; omega)]
      rw [Nat.div_eq_sub_div (a := u) hx (by omega)]
      rfl

theorem stretched_length (x : Nat) (ms : List Nat) : (stretch x ms).length = ms.length * x := by
  induction ms with
  | nil => simp [stretch]
  | cons m ms ih =>
    show (List.replicate x m ++ stretch x ms).length = _
    rw [List.length_append, ih, List.length_replicate, List.length_cons, Nat.add_mul]
    omega

theorem overlap_mirror (n m i s : Nat) (hi : i < n) (hs : s < m) (h : Overlap n m i s) : Overlap n m (n - 1 - i) (m - 1 - s) := by
  obtain ⟨h1, h2⟩ := h
  obtain ⟨i', rfl⟩ : ∃ i', n = i + i' + 1 := ⟨n - 1 - i, by omega⟩
  obtain ⟨s', rfl⟩ : ∃ s', m = s + s' + 1 := ⟨m - 1 - s, by omega⟩
  rw [show i + i' + 1 - 1 - i = i' by omega, show s + s' + 1 - 1 - s = s' by omega]
  unfold Overlap
  simp only [Nat.mul_add, Nat.add_mul, Nat.mul_one, Nat.one_mul] at h1 h2 ⊢
  rw [Nat.mul_comm s i, Nat.mul_comm s i'] at h1 h2
  rw [Nat.mul_comm s' i, Nat.mul_comm s' i']
  omega

/-- C97. Resize a generated image to any other size, at least two pixels for every module across the bars. Every line of it,
sampled in the middle of the modules, is the row of modules again. -/
theorem C97_image (ms : List Nat) (hbin : ∀ m ∈ ms, m = 0 ∨ m = 1) (b : Build) (g : Image.Image) (hx : 0 < g.xdim)
    (hne : g.foreground ≠ g.background) (hsz : ms.length * g.xdim < 2 ^ 32)
    (hs : 4 * (ms.length * g.xdim) * g.height < 2 ^ 63) :
    ∃ buf, Image.generateBuffer b g ms = .ok buf ∧
      ∀ (w' h' : Nat) (px' : Nat → Nat → Image.Color), Resized buf.w buf.h buf.px w' h' px' →
        2 * ms.length ≤ (pictureLine w' h' px' 0 (headingOf g.rotation)).length →
        ∀ j < lineCount w' h' (headingOf g.rotation),
          centres ms.length ((pictureLine w' h' px' j (headingOf g.rotation)).map
            (fun c => if c = g.background then 0 else 1)) = ms := by
  obtain ⟨buf, h1, h2, h3⟩ := (C44_generators_agree ms hbin).image b g hx hne hsz hs
  refine ⟨buf, h1, fun w' h' px' hr hlen j hj => ?_⟩
  have hl : ∀ y < g.height, (pictureLine buf.w buf.h buf.px y (headingOf g.rotation)).map
      (fun c => if c = g.background then 0 else 1) = stretch g.xdim ms := by
    intro y hy
    have hl := readAllFrom_uniform_inv g.xdim [] _ ms hx (h3 y hy)
    rwa [List.nil_append] at hl
  -- the length and the cells of the source lines
  have hcell : ∀ y < g.height, ∀ u, u < ms.length * g.xdim →
      ((pictureLine buf.w buf.h buf.px y (headingOf g.rotation)).map (fun c => if c = g.background then 0 else 1))[u]? =
        ms[u / g.xdim]? := fun y hy u hu => by rw [hl y hy, stretch_getElem? _ hx _ _ hu]
  have hlen2 : ∀ y < g.height, (pictureLine buf.w buf.h buf.px y (headingOf g.rotation)).length = ms.length * g.xdim := by
    intro y hy
    have := congrArg List.length (hl y hy)
    rwa [List.length_map, stretched_length] at this
  generalize g.rotation = rot at *
  apply centres_resized ms _ g.xdim hx
  · cases rot <;> simpa [headingOf, pictureLine] using hlen
  · intro i hi
    cases rot with
    | zero =>
      simp only [headingOf, pictureLine, lineCount, List.length_map, List.length_range] at *
      obtain ⟨x, y, hxw, hyh, o1, -, e⟩ := hr i j hi hj
      rw [hlen2 y (by omega)] at hxw o1
      have hc := hcell y (by omega) x hxw
      rw [List.getElem?_map, List.getElem?_map, List.getElem?_range (by rw [hlen2 y (by omega)]; exact hxw)] at hc
      exact ⟨x, hxw, o1, by rw [List.getElem?_map, List.getElem?_map, List.getElem?_range hi, ← hc, Option.map_some, e]; rfl⟩
    | ninety =>
      simp only [headingOf, pictureLine, lineCount, List.length_map, List.length_range] at *
      obtain ⟨x, y, hxw, hyh, -, o1, e⟩ := hr j i hj hi
      rw [hlen2 x (by omega)] at hyh o1
      have hc := hcell x (by omega) y hyh
      rw [List.getElem?_map, List.getElem?_map, List.getElem?_range (by rw [hlen2 x (by omega)]; exact hyh)] at hc
      exact ⟨y, hyh, o1, by rw [List.getElem?_map, List.getElem?_map, List.getElem?_range hi, ← hc, Option.map_some, e]; rfl⟩
    | oneEighty =>
      simp only [headingOf, pictureLine, lineCount, List.length_map, List.length_range] at *
      obtain ⟨x, y, hxw, hyh, o1, -, e⟩ := hr (w' - 1 - i) j (by omega) hj
      have o1 := overlap_mirror _ _ _ _ (by omega) hxw o1
      rw [show w' - 1 - (w' - 1 - i) = i by omega, hlen2 y (by omega)] at o1
      rw [hlen2 y (by omega)] at hxw
      have hc := hcell y (by omega) (ms.length * g.xdim - 1 - x) (by omega)
      rw [List.getElem?_map, List.getElem?_map, List.getElem?_range (by rw [hlen2 y (by omega)]; omega), hlen2 y (by omega),
        Option.map_some, show ms.length * g.xdim - 1 - (ms.length * g.xdim - 1 - x) = x by omega] at hc
      exact ⟨_, by omega, o1, by rw [List.getElem?_map, List.getElem?_map, List.getElem?_range hi, ← hc, Option.map_some, e]⟩
    | twoSeventy =>
      simp only [headingOf, pictureLine, lineCount, List.length_map, List.length_range] at *
      obtain ⟨x, y, hxw, hyh, -, o1, e⟩ := hr j (h' - 1 - i) hj (by omega)
      have o1 := overlap_mirror _ _ _ _ (by omega) hyh o1
      rw [show h' - 1 - (h' - 1 - i) = i by omega, hlen2 x (by omega)] at o1
      rw [hlen2 x (by omega)] at hyh
      have hc := hcell x (by omega) (ms.length * g.xdim - 1 - y) (by omega)
      rw [List.getElem?_map, List.getElem?_map, List.getElem?_range (by rw [hlen2 x (by omega)]; omega), hlen2 x (by omega),
        Option.map_some, show ms.length * g.xdim - 1 - (ms.length * g.xdim - 1 - y) = y by omega] at hc
      exact ⟨_, by omega, o1, by rw [List.getElem?_map, List.getElem?_map, List.getElem?_range hi, ← hc, Option.map_some, e]⟩

-- a picture of 67 columns squeezed or stretched to 149 columns
example : ∃ x ms buf, Ean8.new .debug "5512345".toList = .ok x ∧ Ean8.encode .debug x = .ok ms ∧
    Image.generateBuffer .debug (Image.png 1) ms = .ok buf ∧ buf.w = 67 ∧
    centres 67 ((List.range 149).map (fun i => if buf.px ((2 * i + 1) * 67 / 298) 0 = Image.Color.white then 0 else 1)) = ms := by
  refine ⟨_, _, _, rfl, rfl, rfl, rfl, ?_⟩
  decide +kernel

/-- C97. Draw a generated SVG picture with any number of pixels, at least two for every module across. Every line of pixels,
sampled in the middle of the modules, is the row of modules. -/
theorem C97_svg (ms : List Nat) (hbin : ∀ m ∈ ms, m = 0 ∨ m = 1) (b : Build) (g : Svg.SVG) (hx : 0 < g.xdim)
    (hsz : ms.length * g.xdim < 2 ^ 32) (hn : ∀ x ∈ g.xmlns, ∀ c ∈ x, xmlPlain c = true)
    (hne : (g.foreground.r, g.foreground.g, g.foreground.b) ≠ (g.background.r, g.background.g, g.background.b)) :
    ∃ out doc w h, Svg.generate b g ms = .ok out ∧ readSvg out = some doc ∧ doc.viewBox = [0, 0, w, h] ∧
      ∀ (w' h' : Nat) (dark : Nat → Nat → Bool),
        Resized w h (fun x y => (topmost doc.rects x y).any (fun rect =>
          decide (rect.fill.rgb ≠ (g.background.r.val, g.background.g.val, g.background.b.val)))) w' h' dark →
        2 * ms.length ≤ w' → ∀ j < h', centres ms.length ((List.range w').map (fun i => if dark i j then 1 else 0)) = ms := by
  obtain ⟨out, doc, h1, h2, h3, h4⟩ := C38_svg_shows_bars b g ms hsz hn
  refine ⟨out, doc, _, _, h1, h2, h3, fun w' h' dark hr hw j hj => ?_⟩
  apply centres_resized ms _ g.xdim hx
  · simpa using hw
  · intro i hi
    rw [List.length_map, List.length_range] at hi ⊢
    obtain ⟨x, y, hxw, hyh, o1, -, e⟩ := hr i j hi hj
    refine ⟨x, hxw, o1, ?_⟩
    obtain ⟨rect, e1, e2, -⟩ := h4 x y hxw hyh
    have hd : x / g.xdim < ms.length := by rwa [Nat.div_lt_iff_lt_mul hx]
    simp only [e1, Option.any_some] at e
    rw [List.getElem?_map, List.getElem?_range hi, Option.map_some, e, List.getElem?_eq_getElem hd]
    rw [List.getElem?_eq_getElem hd] at e2
    rcases hbin _ (List.getElem_mem hd) with hm | hm
    · rw [hm, if_neg (by simp)] at e2
      rw [hm, e2.1]
      simp
    · rw [hm, if_pos rfl] at e2
      rw [hm, e2.1]
      congr 1
      apply if_pos
      rw [decide_eq_true_iff]
      intro he
      apply hne
      simp only [Prod.mk.injEq] at he ⊢
      exact ⟨Fin.ext he.1, Fin.ext he.2.1, Fin.ext he.2.2⟩

example : (match Svg.generate .debug { Svg.new 1 with xdim := 2 } [1, 0, 1, 1] with
    | .ok o => (readSvg o).map (fun d => centres 4 ((List.range 9).map (fun i =>
        if (topmost d.rects ((2 * i + 1) * 8 / 18) 0).any (fun r => decide (r.fill.rgb ≠ (255, 255, 255))) then 1 else 0)))
    | _ => none) = some [1, 0, 1, 1] := by decide +kernel

/-- C97. So the data of a symbol can be read from a resized image by a scanner that knows how many modules there are. -/
theorem C97_read {α : Type} (b : Build) (k : Kind) (s : List Char) (ms : List Nat) (h : Drawn b k s ms)
    (scan : List Nat → Option α) (t : α) (hr : scan ms = some t) (b' : Build) (g : Image.Image) (hx : 0 < g.xdim)
    (hrot : g.rotation = .zero) (hne : g.foreground ≠ g.background) (hsz : ms.length * g.xdim < 2 ^ 32)
    (hs : 4 * (ms.length * g.xdim) * g.height < 2 ^ 63) :
    ∃ buf, Image.generateBuffer b' g ms = .ok buf ∧
      ∀ (w' h' : Nat) (px' : Nat → Nat → Image.Color), Resized buf.w buf.h buf.px w' h' px' → 2 * ms.length ≤ w' →
        ∀ j < h', scan (centres ms.length ((List.range w').map (fun i => if px' i j = g.background then 0 else 1))) = some t := by
  obtain ⟨buf, h1, h2⟩ := C97_image ms (drawn_binary b k s ms h) b' g hx hne hsz hs
  refine ⟨buf, h1, fun w' h' px' hres hw j hj => ?_⟩
  rw [hrot] at h2
  have := h2 w' h' px' hres (by simpa [headingOf, pictureLine] using hw) j hj
  simp only [headingOf, pictureLine, List.map_map] at this
  have e : centres ms.length ((List.range w').map (fun i => if px' i j = g.background then 0 else 1)) = ms := this
  rw [e, hr]

-- EAN-8 at 1 pixel per module (67) resized to 149 pixels, 2.22... per module, each taken from the middle
example : ∃ x ms, Ean8.new .debug "5512345".toList = .ok x ∧ Ean8.encode .debug x = .ok ms ∧ ms.length = 67 ∧
    (∀ i < 149, Overlap 149 67 i ((2 * i + 1) * 67 / 298)) ∧
    scanEan8 (centres 67 ((List.range 149).map (fun i => ms.getD ((2 * i + 1) * 67 / 298) 0))) =
      some [5, 5, 1, 2, 3, 4, 5, 7] := by
  refine ⟨_, _, rfl, rfl, rfl, ?_, by decide +kernel⟩
  unfold Overlap
  decide +kernel

end Barcoders
