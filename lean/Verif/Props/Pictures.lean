import Verif.Spec.Picture
import Verif.Props.Ascii
import Verif.Props.Json
import Verif.Props.Svg
import Verif.Props.Image
import Verif.Props.Shape
import Verif.Props.Ean
import Verif.Props.EanSupp
import Verif.Props.Code39
import Verif.Props.Code93
import Verif.Props.Code11
import Verif.Props.Codabar
import Verif.Props.TF
import Verif.Props.Code128

/-!
# C44, C46: all generators draw the same barcode, and it can be read back
-/

set_option autoImplicit false

namespace Barcoders

open Spec

/-- The direction in which a rotated image is read. -/
def headingOf : Image.Rotation → Heading
  | .zero => .right
  | .ninety => .down
  | .oneEighty => .left
  | .twoSeventy => .up

theorem cells_eq {α : Type} (x : Nat) (hx : 0 < x) (bits : List Nat) (f : Option Nat → α) :
    (List.range (bits.length * x)).map (fun i => f bits[i / x]?) = bits.flatMap (fun b => List.replicate x (f (some b))) := by
  induction bits with
  | nil => simp
  | cons b bits ih =>
    rw [List.length_cons, Nat.add_mul, Nat.one_mul, Nat.add_comm, List.range_add, List.map_append, List.flatMap_cons]
    congr 1
    · rw [List.eq_replicate_iff]
      refine ⟨by simp, ?_⟩
      intro c hc
      obtain ⟨i, hi, rfl⟩ := List.mem_map.mp hc
      rw [Nat.div_eq_of_lt (List.mem_range.mp hi)]
      rfl
    · rw [← ih, List.map_map]
      apply List.map_congr_left
      intro i _
      simp only [Function.comp]
      rw [show (x + i) / x = i / x + 1 by rw [Nat.add_div_left _ hx]]
      rfl

/-- A line of pixels with the colours of the modules reads as the modules. -/
theorem readColours_line {α : Type} [DecidableEq α] (x : Nat) (hx : 0 < x) (bits : List Nat)
    (h : ∀ b ∈ bits, b = 0 ∨ b = 1) (fg bg : α) (hne : fg ≠ bg) (n : Nat) (hn : n = bits.length * x) (f : Nat → α)
    (hf : ∀ i < n, f i = if bits[i / x]? = some 0 then bg else fg) :
    readColours bg x ((List.range n).map f) = some bits := by
  have hmap : (List.range n).map f = (List.range (bits.length * x)).map
      (fun i => (fun o : Option Nat => if o = some 0 then bg else fg) bits[i / x]?) := by
    subst hn
    exact List.map_congr_left (fun i hi => hf i (List.mem_range.mp hi))
  rw [hmap, cells_eq x hx bits (fun o => if o = some 0 then bg else fg), readColours, List.map_flatMap]
  have : (bits.flatMap fun b => (List.replicate x (if some b = some 0 then bg else fg)).map
      (fun c => if c = bg then 0 else 1)) = bits.flatMap (List.replicate x) := by
    rw [List.flatMap_def, List.flatMap_def]
    congr 1
    apply List.map_congr_left
    intro b hb
    rw [List.map_replicate]
    rcases h b hb with rfl | rfl
    · simp
    · simp [hne]
  rw [this, readAll_uniform x hx]

theorem jsonNumbers_barcode (h x : Nat) (bits : List Nat) :
    jsonNumbers "encoding".toList (barcodeJson h x bits) = some bits := by
  have key : ∀ l : List Nat, (l.map JValue.num).mapM (fun v => match v with
      | .num n => some n
      | _ => none) = some l := by
    intro l
    induction l with
    | nil => rfl
    | cons a l ih => rw [List.map_cons, List.mapM_cons, ih]; rfl
  exact key bits

/-- The modules `bits` can be read from the output of every generator in every configuration with positive height and
module width, provided the picture is not too large, the colours differ (image) and the name space can be written in
XML (SVG). For image files the codec must be able to read what it wrote. -/
structure GeneratorsShow (bits : List Nat) : Prop where
  ascii : ∀ g : Ascii.ASCII, 0 < g.height → 0 < g.xdim →
    ∃ out, Ascii.generate g bits = .ok out ∧ readAscii g.height g.xdim out = some bits
  json : ∀ g : Json.JSON, ∃ out doc, Json.generate g bits = .ok out ∧ parseJson out = some doc ∧
    jsonNumbers "encoding".toList doc = some bits
  svg : ∀ (b : Build) (s : Svg.SVG), 0 < s.height → 0 < s.xdim → bits.length * s.xdim < 2 ^ 32 →
    (∀ x ∈ s.xmlns, ∀ c ∈ x, xmlPlain c = true) →
    ∃ out doc, Svg.generate b s bits = .ok out ∧ readSvg out = some doc ∧ svgModules s.xdim doc = some bits
  image : ∀ (b : Build) (g : Image.Image), 0 < g.xdim → g.foreground ≠ g.background → bits.length * g.xdim < 2 ^ 32 →
    4 * (bits.length * g.xdim) * g.height < 2 ^ 63 →
    ∃ buf, Image.generateBuffer b g bits = .ok buf ∧ lineCount buf.w buf.h (headingOf g.rotation) = g.height ∧
      ∀ j < g.height, readColours g.background g.xdim (pictureLine buf.w buf.h buf.px j (headingOf g.rotation)) = some bits
  imageFile : ∀ (b : Build) (g : Image.Image) (codec : Image.Codec) (decode : List Nat → Option Image.Buffer)
    (out : List Nat), 0 < g.xdim → g.foreground ≠ g.background → bits.length * g.xdim < 2 ^ 32 →
    4 * (bits.length * g.xdim) * g.height < 2 ^ 63 →
    (∀ f buf bytes, codec f buf = some bytes → ∃ buf', decode bytes = some buf' ∧ buf'.w = buf.w ∧ buf'.h = buf.h ∧
      ∀ x y, x < buf.w → y < buf.h → buf'.px x y = buf.px x y) →
    Image.generate codec b g bits = .ok out →
    ∃ buf, decode out = some buf ∧ lineCount buf.w buf.h (headingOf g.rotation) = g.height ∧
      ∀ j < g.height, readColours g.background g.xdim (pictureLine buf.w buf.h buf.px j (headingOf g.rotation)) = some bits

theorem svg_read (b : Build) (s : Svg.SVG) (bits : List Nat) (h : ∀ m ∈ bits, m = 0 ∨ m = 1) (hh : 0 < s.height)
    (hx : 0 < s.xdim) (hw : bits.length * s.xdim < 2 ^ 32) (hn : ∀ x ∈ s.xmlns, ∀ c ∈ x, xmlPlain c = true) :
    ∃ out doc, Svg.generate b s bits = .ok out ∧ readSvg out = some doc ∧ svgModules s.xdim doc = some bits := by
  obtain ⟨out, fg, bg, h1, -, -, h2⟩ := C37_svg_parses b s bits hw hn
  refine ⟨out, _, h1, h2, ?_⟩
  simp only [svgModules]
  rw [if_pos hx, Nat.mul_div_cancel _ hx]
  congr 1
  apply List.ext_getElem
  · simp
  · intro i hi1 hi2
    rw [List.getElem_map, List.getElem_range]
    have hcov : ∀ j, SvgRect.covers ⟨j * s.xdim, 0, s.xdim, s.height, fg⟩ (i * s.xdim) 0 = true ↔ j = i := by
      intro j
      simp only [SvgRect.covers, Bool.and_eq_true, decide_eq_true_eq]
      constructor
      · rintro ⟨⟨⟨a1, a2⟩, -⟩, -⟩
        have := Nat.le_of_mul_le_mul_right a1 hx
        have h3 : i * s.xdim < (j + 1) * s.xdim := by rw [Nat.add_mul, Nat.one_mul]; exact a2
        have := Nat.lt_of_mul_lt_mul_right h3
        omega
      · rintro rfl
        refine ⟨⟨⟨?_, ?_⟩, ?_⟩, ?_⟩ <;> omega
    have hany : (((List.range bits.length).filter (fun i => bits[i]? = some 1)).map
        (fun i => (⟨i * s.xdim, 0, s.xdim, s.height, fg⟩ : SvgRect))).any (·.covers (i * s.xdim) 0) = true ↔
        bits[i]? = some 1 := by
      rw [List.any_eq_true]
      constructor
      · rintro ⟨r, hr, hc⟩
        obtain ⟨j, hj, rfl⟩ := List.mem_map.mp hr
        rw [hcov] at hc
        subst hc
        simpa using (List.mem_filter.mp hj).2
      · intro h1
        refine ⟨_, List.mem_map.mpr ⟨i, List.mem_filter.mpr ⟨List.mem_range.mpr hi2, by simpa using h1⟩, rfl⟩, ?_⟩
        rw [hcov]
    have hm := h bits[i] (List.getElem_mem hi2)
    by_cases h1 : bits[i]? = some 1
    · rw [if_pos (hany.mpr h1)]
      rw [List.getElem?_eq_getElem hi2] at h1
      exact (Option.some.inj h1).symm
    · rw [if_neg (fun h' => h1 (hany.mp h'))]
      rw [List.getElem?_eq_getElem hi2] at h1
      rcases hm with hm | hm
      · exact hm.symm
      · rw [hm] at h1; exact absurd rfl h1

theorem image_lines (g : Image.Image) (bits : List Nat) (h : ∀ m ∈ bits, m = 0 ∨ m = 1)
    (hx : 0 < g.xdim) (hne : g.foreground ≠ g.background) (hw : bits.length * g.xdim < 2 ^ 32)
    (hs : 4 * (bits.length * g.xdim) * g.height < 2 ^ 63) (b : Build) :
    ∃ buf, Image.generateBuffer b g bits = .ok buf ∧
      ∀ buf' : Image.Buffer, buf'.w = buf.w → buf'.h = buf.h → (∀ x y, x < buf.w → y < buf.h → buf'.px x y = buf.px x y) →
      lineCount buf'.w buf'.h (headingOf g.rotation) = g.height ∧
      ∀ j < g.height, readColours g.background g.xdim (pictureLine buf'.w buf'.h buf'.px j (headingOf g.rotation)) = some bits := by
  obtain ⟨buf, h1, h2⟩ := C41_image_read_rotated b g bits hw hs
  have hsize : (g.rotation = .zero ∨ g.rotation = .oneEighty → buf.w = bits.length * g.xdim ∧ buf.h = g.height) ∧
      (g.rotation = .ninety ∨ g.rotation = .twoSeventy → buf.h = bits.length * g.xdim ∧ buf.w = g.height) := by
    have h3 := h1
    rw [Image.generateBuffer, placePixels_eq b g bits hw hs, Outcome.ok.injEq] at h3
    subst h3
    constructor <;> rintro (h4 | h4) <;> rw [h4] <;> exact ⟨rfl, rfl⟩
  refine ⟨buf, h1, ?_⟩
  intro buf' e1 e2 e3
  rw [e1, e2]
  cases hr : g.rotation with
  | zero =>
    obtain ⟨s1, s2⟩ := hsize.1 (by simp [hr])
    refine ⟨s2, fun j hj => ?_⟩
    refine readColours_line g.xdim hx bits h g.foreground g.background hne buf.w s1 _ (fun i hi => ?_)
    rw [e3 i j hi (by omega), h2 i j hi (by omega), hr]
  | ninety =>
    obtain ⟨s1, s2⟩ := hsize.2 (by simp [hr])
    refine ⟨s2, fun j hj => ?_⟩
    refine readColours_line g.xdim hx bits h g.foreground g.background hne buf.h s1 _ (fun i hi => ?_)
    rw [e3 j i (by omega) hi, h2 j i (by omega) hi, hr]
  | oneEighty =>
    obtain ⟨s1, s2⟩ := hsize.1 (by simp [hr])
    refine ⟨s2, fun j hj => ?_⟩
    refine readColours_line g.xdim hx bits h g.foreground g.background hne buf.w s1 _ (fun i hi => ?_)
    rw [e3 _ j (by omega) (by omega), h2 _ j (by omega) (by omega), hr]
    simp only
    rw [show buf.w - 1 - (buf.w - 1 - i) = i by omega]
  | twoSeventy =>
    obtain ⟨s1, s2⟩ := hsize.2 (by simp [hr])
    refine ⟨s2, fun j hj => ?_⟩
    refine readColours_line g.xdim hx bits h g.foreground g.background hne buf.h s1 _ (fun i hi => ?_)
    rw [e3 j _ (by omega) (by omega), h2 j _ (by omega) (by omega), hr]
    simp only
    rw [show buf.h - 1 - (buf.h - 1 - i) = i by omega]

/-- C44. For every slice of zeros and ones, the modules read from the outputs of all generators are that slice. -/
theorem C44_generators_agree (bits : List Nat) (h : ∀ m ∈ bits, m = 0 ∨ m = 1) : GeneratorsShow bits where
  ascii := fun g hh hx => C35_ascii_read g bits h hh hx
  json := fun g => by
    obtain ⟨out, h1, h2⟩ := C36_json_parses g bits
    refine ⟨out, _, h1, h2, ?_⟩
    rw [jsonNumbers_barcode]
    congr 1
    conv => rhs; rw [← List.map_id bits]
    apply List.map_congr_left
    intro m hm
    rcases h m hm with rfl | rfl <;> rfl
  svg := fun b s hh hx hw hn => svg_read b s bits h hh hx hw hn
  image := fun b g hx hne hw hs => by
    obtain ⟨buf, h1, h2⟩ := image_lines g bits h hx hne hw hs b
    exact ⟨buf, h1, h2 buf rfl rfl (fun _ _ _ _ => rfl)⟩
  imageFile := fun b g codec decode out hx hne hw hs hc hg => by
    obtain ⟨buf, h1, h2⟩ := image_lines g bits h hx hne hw hs b
    obtain ⟨k1, k2⟩ := C43_image_generate codec b g bits
    have key : ∀ f, (g.kind = .gif ∧ f = .gif ∨ g.kind = .png ∧ f = .png ∨ g.kind = .webp ∧ f = .webp) →
        codec f buf = some out := by
      intro f hf
      obtain ⟨a1, a2, -⟩ := k2 f hf
      cases hcb : codec f buf with
      | none => rw [a2 buf h1 hcb] at hg; cases hg
      | some o => rw [a1 buf o h1 hcb, Outcome.ok.injEq] at hg; rw [hg]
    have : ∃ f, codec f buf = some out := by
      cases hk : g.kind with
      | gif => exact ⟨.gif, key _ (by simp [hk])⟩
      | png => exact ⟨.png, key _ (by simp [hk])⟩
      | webp => exact ⟨.webp, key _ (by simp [hk])⟩
      | imageBuffer => rw [k1 hk] at hg; cases hg
    obtain ⟨f, hf⟩ := this
    obtain ⟨buf', d1, d2, d3, d4⟩ := hc f buf out hf
    exact ⟨buf', d1, h2 buf' d2 d3 d4⟩

example : GeneratorsShow [1, 0, 1, 1, 0] := C44_generators_agree _ (by decide)

theorem row_shown {n e k : Nat} {bits : List Nat} (h : Row n e k bits) : GeneratorsShow bits :=
  C44_generators_agree bits h.binary

/-- C46. EAN-13, EAN-8, UPC-A and the supplementals: the digits (completed by the check digit) can be read from every
picture. -/
theorem C46_ean (b : Build) (s : List Char) :
    (∀ x, Ean13.new b s = .ok x → ∃ bits, Ean13.encode b x = .ok bits ∧ GeneratorsShow bits ∧
      scanEan13 bits = some ((digitsOf s).take 12 ++ [gs1Digit ((digitsOf s).take 12)])) ∧
    (∀ x, Ean8.new b s = .ok x → ∃ bits, Ean8.encode b x = .ok bits ∧ GeneratorsShow bits ∧
      scanEan8 bits = some ((digitsOf s).take 7 ++ [gs1Digit ((digitsOf s).take 7)])) ∧
    (∀ x, Upca.new b s = .ok x → ∃ bits, Upca.encode b x = .ok bits ∧ GeneratorsShow bits ∧
      scanUpca bits = some ((digitsOf s).take 11 ++ [gs1Digit ((digitsOf s).take 11)])) ∧
    (∀ x, EanSupp.new s = .ok x → ∃ bits, EanSupp.encode b x = .ok bits ∧ GeneratorsShow bits ∧
      scanAddOn bits = some (digitsOf s)) := by
  refine ⟨fun x h => ?_, fun x h => ?_, fun x h => ?_, fun x h => ?_⟩
  · obtain ⟨bits, h1, h2⟩ := C02_ean13_scan b s x h
    exact ⟨bits, h1, row_shown ((C32_ean_rows b b s bits).1 x h h1), h2⟩
  · obtain ⟨bits, h1, h2⟩ := C07_ean8_scan b s x h
    exact ⟨bits, h1, row_shown ((C32_ean_rows b b s bits).2.1 x h h1), h2⟩
  · obtain ⟨bits, h1, h2⟩ := C09_upca_scan b s x h
    exact ⟨bits, h1, row_shown ((C32_ean_rows b b s bits).2.2 x h h1), h2⟩
  · obtain ⟨bits, h1, h2⟩ := C12_eansupp_scan b s x h
    exact ⟨bits, h1, row_shown (C32_supp_row b s x bits h h1), h2⟩

example : ∃ x bits, Ean8.new .debug "5512345".toList = .ok x ∧ Ean8.encode .debug x = .ok bits ∧ GeneratorsShow bits ∧
    scanEan8 bits = some [5, 5, 1, 2, 3, 4, 5, 7] :=
  ⟨_, _, rfl, rfl, C44_generators_agree _ (by decide), by decide +kernel⟩

/-- C46. Code 39, Code 93, Code 11: the text can be read from every picture. -/
theorem C46_text (s : List Char) :
    (∀ x, Code39.new s = .ok x → ∃ bits, Code39.encode x = .ok bits ∧ GeneratorsShow bits ∧ scanCode39 bits = some s) ∧
    (∀ x, Code39.withChecksum s = .ok x → ∃ bits, Code39.encode x = .ok bits ∧ GeneratorsShow bits ∧
      scanCode39Checked bits = some s) ∧
    (∀ x, Code93.new s = .ok x → ∃ bits, Code93.encode x = .ok bits ∧ GeneratorsShow bits ∧ scanCode93 bits = some s) ∧
    (∀ x, Code11.new s = .ok x → ∃ bits, Code11.encode x = .ok bits ∧ GeneratorsShow bits ∧ scanCode11 bits = some s) := by
  refine ⟨fun x h => ?_, fun x h => ?_, fun x h => ?_, fun x h => ?_⟩
  · obtain ⟨bits, h1, h2⟩ := C14_code39_scan s x h
    exact ⟨bits, h1, row_shown ((C32_code39_row s x bits h1).1 h), h2⟩
  · obtain ⟨bits, h1, -, h2⟩ := C14_code39_checksum_scan s x h
    exact ⟨bits, h1, row_shown ((C32_code39_row s x bits h1).2 h), h2⟩
  · obtain ⟨bits, h1, h2⟩ := C17_code93_scan s x h
    exact ⟨bits, h1, row_shown (C32_code93_row s x bits h h1), h2⟩
  · obtain ⟨bits, h1, h2⟩ := C20_code11_scan s x h
    obtain ⟨_, -, -, hr⟩ := C32_code11_row s x bits h h1
    exact ⟨bits, h1, row_shown hr, h2⟩

example : ∃ x bits, Code39.withChecksum "A1".toList = .ok x ∧ Code39.encode x = .ok bits ∧ GeneratorsShow bits ∧
    scanCode39Checked bits = some "A1".toList := ⟨_, _, rfl, rfl, C44_generators_agree _ (by decide), by decide⟩

/-- C46. 2 of 5: the digits can be read from every picture (Interleaved: followed by a check digit if their number is
odd). -/
theorem C46_tf (b : Build) (s : List Char) :
    (∀ x, TF.standard s = .ok x → ∃ bits, TF.encode x = .ok bits ∧ GeneratorsShow bits ∧ scanStf bits = some (digitsOf s)) ∧
    (∀ x, TF.interleaved b s = .ok x → ∃ bits ds, TF.encode x = .ok bits ∧ GeneratorsShow bits ∧ scanItf bits = some ds ∧
      ds.take s.length = digitsOf s ∧ ds.length = s.length + s.length % 2) := by
  refine ⟨fun x h => ?_, fun x h => ?_⟩
  · obtain ⟨bits, h1, h2⟩ := C24_stf_scan s x h
    exact ⟨bits, h1, row_shown (C32_stf_row s x bits h h1), h2⟩
  · obtain ⟨bits, ds, h1, h2, h3⟩ := C25_itf_scan b s x h
    have hl : (digitsOf s).length = s.length := by simp [digitsOf]
    refine ⟨bits, ds, h1, row_shown (C32_itf_row b s x bits h h1), h2, ?_⟩
    rcases h3 with ⟨h4, rfl⟩ | ⟨h4, c, -, rfl⟩
    · exact ⟨by rw [← hl, List.take_length], by omega⟩
    · exact ⟨List.take_left' hl, by rw [List.length_append, hl, h4]; rfl⟩

example : ∃ x bits, TF.interleaved .debug "123".toList = .ok x ∧ TF.encode x = .ok bits ∧ GeneratorsShow bits ∧
    scanItf bits = some [1, 2, 3, 6] := ⟨_, _, rfl, rfl, C44_generators_agree _ (by decide), by decide⟩

/-- C46 (part). Codabar without `+`: the text, with the letters B and C exchanged, can be read from every picture. The full
statement, with `scanCodabar … = some s` for every accepted `s`, is false: see `C23_codabar_b_c_swapped` and
`C23_codabar_plus_unreadable`. -/
theorem C46_codabar_partial (s : List Char) (x : Codabar.Codabar) (h : Codabar.new s = .ok x) (hp : '+' ∉ s) :
    GeneratorsShow (Codabar.encode x) ∧ scanCodabar (Codabar.encode x) = some (s.map swapBC) :=
  ⟨row_shown (C32_codabar_row s x h), C23_codabar_scan_partial s x h hp⟩

example : ∃ x, Codabar.new "A40D".toList = .ok x ∧ GeneratorsShow (Codabar.encode x) ∧
    scanCodabar (Codabar.encode x) = some "A40D".toList := ⟨_, rfl, C44_generators_agree _ (by decide), by decide⟩

/-- C46 (part). Code 128 data of at most 6489 characters: the text, with split digit pairs regrouped, can be read from every
picture. The full statement, with `scanCode128 … = some s` for every accepted `s`, is false: see `C28_code128_split_pair`
and `C29_code128_panics`. -/
theorem C46_code128_partial (b : Build) (s : List Char) (x : Code128.Code128) (h : Code128.new s = .ok x)
    (hl : s.length ≤ 6489) :
    ∃ bits, Code128.encode b x = .ok bits ∧ GeneratorsShow bits ∧ scanCode128 bits = some (code128Regroup s) := by
  obtain ⟨bits, h1, h2⟩ := C28_code128_scan_regrouped_partial b s x h hl
  obtain ⟨_, _, -, -, -, hr⟩ := C32_code128_row b s x bits h h1
  exact ⟨bits, h1, row_shown hr, h2⟩

/-! Concrete cases: a Code 39 symbol drawn as text and as an SVG picture and read back. -/

example : ∃ x bits out, Code39.new "A1".toList = .ok x ∧ Code39.encode x = .ok bits ∧
    Ascii.generate ⟨2, 1⟩ bits = .ok out ∧ (readAscii 2 1 out).bind scanCode39 = some "A1".toList :=
  ⟨_, _, _, rfl, rfl, rfl, by decide +kernel⟩
example : ∃ x bits out, Code39.new "A1".toList = .ok x ∧ Code39.encode x = .ok bits ∧
    Svg.generate .debug { Svg.new 3 with xdim := 2 } bits = .ok out ∧
    ((readSvg out).bind (svgModules 2)).bind scanCode39 = some "A1".toList :=
  ⟨_, _, _, rfl, rfl, rfl, by decide +kernel⟩
/-- A quarter turn: the image is read downwards. -/
example : ∃ x bits buf, Ean8.new .debug "5512345".toList = .ok x ∧ Ean8.encode .debug x = .ok bits ∧
    Image.generateBuffer .debug { Image.png 1 with rotation := .ninety } bits = .ok buf ∧
    (readColours Image.Color.white 1 (pictureLine buf.w buf.h buf.px 0 .down)).bind scanEan8 = some [5, 5, 1, 2, 3, 4, 5, 7] :=
  ⟨_, _, _, rfl, rfl, rfl, by decide +kernel⟩

end Barcoders
