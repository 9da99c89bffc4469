import Verif.Props.Measure

/-!
# C72, C73: default pictures and messages, completing a number
-/

set_option autoImplicit false

namespace Barcoders
open Spec

/-! ## Defaults -/

theorem asciiRow_one (ms : List Nat) : asciiRow 1 ms = ms.map (fun m => if m = 1 then '#' else ' ') := by
  rw [asciiRow]
  induction ms with
  | nil => rfl
  | cons m ms ih => rw [List.flatMap_cons, List.map_cons, ih]; rfl

/-- C72. `ASCII::new().generate(..)` draws every barcode as ten equal lines, one character per module. -/
theorem C72_default_ascii (b : Build) (k : Kind) (s : List Char) (ms : List Nat) (h : Drawn b k s ms) :
    ∃ out, Ascii.generate Ascii.new ms = .ok out ∧
      splitLines out = List.replicate 10 (ms.map (fun m => if m = 1 then '#' else ' ')) ∧ readAscii 10 1 out = some ms := by
  have hb := drawn_binary b k s ms h
  obtain ⟨out, h1, h2⟩ := C35_ascii_read Ascii.new ms hb (by decide) (by decide)
  refine ⟨out, h1, ?_, h2⟩
  rw [C35_ascii_output Ascii.new ms hb, Outcome.ok.injEq] at h1
  rw [← h1, ← asciiRow_one]
  exact splitLines_join _ 9 (asciiRow_no_newline _ _)

example : ∃ ms out, Drawn .debug .supp "05".toList ms ∧ Ascii.generate Ascii.new ms = .ok out ∧ (splitLines out).length = 10 ∧
    readAscii 10 1 out = some ms := ⟨_, _, ⟨_, rfl, rfl⟩, rfl, by decide +kernel⟩

/-- C72. `JSON::new().generate(..)` writes height 10, module width 1 and the modules. -/
theorem C72_default_json (b : Build) (k : Kind) (s : List Char) (ms : List Nat) (h : Drawn b k s ms) :
    ∃ out, Json.generate Json.new ms = .ok out ∧ parseJson out = some (.obj [("height".toList, .num 10), ("xdim".toList, .num 1),
      ("encoding".toList, .arr (ms.map .num))]) := by
  obtain ⟨out, h1, h2⟩ := C36_json_parses Json.new ms
  refine ⟨out, h1, ?_⟩
  have hm : ms.map (fun b => if b = 0 then 0 else 1) = ms := by
    conv => rhs; rw [← List.map_id ms]
    apply List.map_congr_left
    intro m hm
    rcases drawn_binary b k s ms h m hm with rfl | rfl <;> rfl
  rw [h2, hm]
  rfl

example : ∃ ms, Drawn .debug .supp "05".toList ms ∧ ms.length = 20 ∧ ∃ out, Json.generate Json.new ms = .ok out ∧
    (parseJson out).isSome = true := ⟨_, ⟨_, rfl, rfl⟩, by decide, _, rfl, by decide +kernel⟩

/-- C72. `SVG::new(h).generate(..)` is a picture one unit per module wide and `h` high, opaque black bars on opaque white, with
no name space declared. -/
theorem C72_default_svg (b : Build) (ms : List Nat) (height : Nat)
    (hl : ms.length < 2 ^ 32) :
    ∃ out doc, Svg.generate b (Svg.new height) ms = .ok out ∧ readSvg out = some doc ∧
      doc.viewBox = [0, 0, ms.length, height] ∧ doc.xmlns = none ∧
      ∀ x y, x < ms.length → y < height → ∃ r, topmost doc.rects x y = some r ∧ r.fill.opacity = 100 ∧
        (ms[x]? = some 1 → r.fill.rgb = (0, 0, 0)) ∧ (ms[x]? ≠ some 1 → r.fill.rgb = (255, 255, 255)) := by
  obtain ⟨out, fg, bg, h1, hfg, hbg, h2⟩ := C37_svg_parses b (Svg.new height) ms (by simpa [Svg.new] using hl)
    (by intro x hx; cases hx)
  obtain ⟨out', doc, h1', h2', h3, h4⟩ := C38_svg_shows_bars b (Svg.new height) ms (by simpa [Svg.new] using hl)
    (by intro x hx; cases hx)
  rw [h1, Outcome.ok.injEq] at h1'
  subst h1'
  rw [h2, Option.some.injEq] at h2'
  subst h2'
  refine ⟨out, _, h1, h2, by simp [Svg.new], rfl, ?_⟩
  have hop : ∀ p : Paint, ∀ r g b : Nat, p.Shows r g b 255 → p.opacity ≤ 100 ∧ 100 ≤ p.opacity := by
    rintro p r g b ⟨-, h1, h2⟩; omega
  intro x y hx hy
  obtain ⟨r, hr, h5, -⟩ := h4 x y (by simpa [Svg.new] using hx) hy
  have h5' : if ms[x]? = some 1 then r.fill.Shows 0 0 0 255 else r.fill.Shows 255 255 255 255 := by
    have h6 : (x / (Svg.new height).xdim) = x := Nat.div_one x
    rw [h6] at h5
    exact h5
  refine ⟨r, hr, ?_, ?_, ?_⟩
  · split at h5'
    · have := hop _ _ _ _ h5'; omega
    · have := hop _ _ _ _ h5'; omega
  · intro h; rw [if_pos h] at h5'; exact h5'.1
  · intro h; rw [if_neg h] at h5'; exact h5'.1

example : ∃ out doc, Svg.generate .release (Svg.new 7) [1, 0, 1] = .ok out ∧ readSvg out = some doc ∧
    doc.viewBox = [0, 0, 3, 7] ∧ (topmost doc.rects 2 6).map (·.fill.rgb) = some (0, 0, 0) ∧
    (topmost doc.rects 1 6).map (·.fill.rgb) = some (255, 255, 255) :=
  ⟨_, (readSvg (match Svg.generate .release (Svg.new 7) [1, 0, 1] with | .ok o => o | _ => [])).get (by decide +kernel), rfl,
    by decide +kernel, by decide +kernel⟩

/-- C72. The four image constructors draw the same picture by default: one pixel per module, `h` rows, opaque black on opaque
white, not turned. -/
theorem C72_default_image (b : Build) (ms : List Nat) (height : Nat)
    (hl : ms.length < 2 ^ 32) (hs : 4 * ms.length * height < 2 ^ 63) :
    ∀ g ∈ [Image.gif height, Image.png height, Image.webp height, Image.imageBuffer height],
      ∃ buf, Image.generateBuffer b g ms = .ok buf ∧ buf.w = ms.length ∧ buf.h = height ∧
        ∀ x y, x < ms.length → y < height →
          (ms[x]? ≠ some 0 → buf.px x y = ⟨0, 0, 0, 255⟩) ∧ (ms[x]? = some 0 → buf.px x y = ⟨255, 255, 255, 255⟩) := by
  intro g hg
  obtain ⟨-, -, -, -, hc⟩ := C43_image_constructors height
  obtain ⟨h1, h2, h3, h4, h5⟩ := hc g hg
  obtain ⟨buf, e, hw, hh, hp⟩ := C40_image_pixels b g ms h3 (by rw [h2]; omega) (by rw [h1, h2, Nat.mul_one]; exact hs)
  rw [h2, Nat.mul_one] at hw
  rw [h1] at hh
  refine ⟨buf, e, hw, hh, ?_⟩
  intro x y hx hy
  have := hp x y (by omega) (by omega)
  rw [h2, Nat.div_one, h4, h5] at this
  constructor
  · intro hm; rw [this, if_neg hm]; rfl
  · intro hm; rw [this, if_pos hm]; rfl

example : ∃ buf, Image.generateBuffer .debug (Image.webp 4) [1, 0] = .ok buf ∧ buf.w = 2 ∧ buf.h = 4 ∧
    buf.px 0 3 = ⟨0, 0, 0, 255⟩ ∧ buf.px 1 0 = ⟨255, 255, 255, 255⟩ := ⟨_, rfl, by decide⟩

/-- C72. Each of the four errors has its own message, which names what is wrong: the length, the checksum, the generation or the
data. -/
theorem C72_messages :
    (∀ e e' : Error, e.display = e'.display → e = e') ∧
    "length".toList <:+: Error.length.display.toList ∧ "checksum".toList <:+: Error.checksum.display.toList ∧
    "generate".toList <:+: Error.generate.display.toList ∧ "data is invalid".toList <:+: Error.character.display.toList := by
  refine ⟨?_, ?_, ?_, ?_, ?_⟩
  · intro e e'; cases e <;> cases e' <;> decide
  · exact ⟨"Barcode data ".toList, " is invalid".toList, by decide⟩
  · exact ⟨"Invalid ".toList, [], by decide⟩
  · exact ⟨"Could not ".toList, " barcode data".toList, by decide⟩
  · exact ⟨"Barcode ".toList, [], by decide⟩

example : ∃ ms, Drawn .debug .code39 "A".toList ms ∧ ∃ out, Ascii.generate Ascii.new ms = .ok out ∧
    (splitLines out).head? = some "#  # ## ## # ## # #  # ## #  # ## ## #".toList := by
  refine ⟨_, ⟨_, Or.inl rfl, rfl⟩, _, rfl, by decide +kernel⟩
example : Json.generate Json.new [1, 0, 1] = .ok "{\"height\":10,\"xdim\":1,\"encoding\":[1,0,1]}".toList := by decide
example : Svg.generate .debug (Svg.new 7) [1, 0] = .ok ("<svg version=\"1.1\" viewBox=\"0 0 2 7\">".toList ++
    "<rect x=\"0\" y=\"0\" width=\"2\" height=\"7\" fill=\"#ffffff\"/>".toList ++
    "<rect x=\"0\" y=\"0\" width=\"1\" height=\"7\" fill=\"#000000\"/></svg>".toList) := by decide +kernel

/-! ## Completing a number -/

theorem complete_number {T : Type} (mk : List Nat → T) (n : Nat) (hn : n < 2 ^ 31) (new : List Char → Outcome T)
    (hnew : ∀ s, new s = if byteLen s % 2 ^ 32 ≠ n ∧ byteLen s % 2 ^ 32 ≠ n + 1 then Outcome.err Error.length
      else if ¬ AllDigits s then .err .character
      else if s.length = n + 1 ∧ ¬ Gs1Valid (digitsOf s) then .err .checksum
      else .ok (mk ((digitsOf s).take n))) (s : List Char) (hD : AllDigits s) (hl : s.length = n) :
    ∃ c x, c.isDigit = true ∧ new s = .ok x ∧ new (s ++ [c]) = .ok x ∧
      ∀ c' x', new (s ++ [c']) = .ok x' → c' = c := by
  have hg := gs1Digit_lt (digitsOf s)
  obtain ⟨hc1, hc2⟩ := natDigitChar_spec _ hg
  have hdig : ∀ c : Char, digitsOf (s ++ [c]) = digitsOf s ++ [digitValue c] := fun c => by simp [digitsOf]
  have hD' : AllDigits (s ++ [Nat.digitChar (gs1Digit (digitsOf s))]) := by
    intro c hc
    rcases List.mem_append.mp hc with hc | hc
    · exact hD c hc
    · rw [List.mem_singleton.mp hc]; exact hc1
  have hlen : (digitsOf s).length = n := by simp [digitsOf, hl]
  refine ⟨Nat.digitChar (gs1Digit (digitsOf s)), mk (digitsOf s), hc1, ?_, ?_, ?_⟩
  · rw [hnew, digits_byteLen s hD, hl, Nat.mod_eq_of_lt (by omega), if_neg (by omega), if_neg (not_not_intro hD),
      if_neg (by omega), ← hlen, List.take_length]
  · rw [hnew, digits_byteLen _ hD', List.length_append, hl, List.length_singleton, Nat.mod_eq_of_lt (by omega), if_neg (by omega),
      if_neg (not_not_intro hD'), if_neg, hdig, List.take_append_of_le_length (by omega), ← hlen, List.take_length]
    rintro ⟨-, hv⟩
    refine hv ?_
    rw [hdig, gs1Valid_append _ _ (by rw [digitValue]; show _ - 48 < 10; omega)]
    exact hc2
  · intro c' x' h
    rw [hnew] at h
    obtain ⟨-, hD'', -, -, hv⟩ := decision_ok mk n _ x' h
    have hv := hv (by simp [hl])
    have hc' := hD'' c' (by simp)
    have hr := (toNat_isDigit c').mp hc'
    rw [hdig, gs1Valid_append _ _ (by rw [digitValue]; show _ - 48 < 10; omega)] at hv
    have h48 : c'.toNat = (Nat.digitChar (gs1Digit (digitsOf s))).toNat := by
      have hr' := (toNat_isDigit _).mp hc1
      have : c'.toNat - 48 = gs1Digit (digitsOf s) := hv
      omega
    exact Char.toNat_inj.mp h48

/-- C73. EAN-13: exactly one character can be put after 12 digits; the number with it gives the same value as without. -/
theorem C73_ean13_completion (b : Build) (s : List Char) (hD : AllDigits s) (hl : s.length = 12) :
    ∃ c x, c.isDigit = true ∧ Ean13.new b s = .ok x ∧ Ean13.new b (s ++ [c]) = .ok x ∧
      ∀ c' x', Ean13.new b (s ++ [c']) = .ok x' → c' = c :=
  complete_number Ean13.EAN13.mk 12 (by decide) _ (ean13_new b) s hD hl

example : Ean13.new .debug "750103131130".toList = Ean13.new .debug ("750103131130".toList ++ ['9']) ∧
    Ean13.new .debug ("750103131130".toList ++ ['8']) = .err .checksum := by decide

/-- C73. EAN-8: exactly one character can be put after 7 digits. -/
theorem C73_ean8_completion (b : Build) (s : List Char) (hD : AllDigits s) (hl : s.length = 7) :
    ∃ c x, c.isDigit = true ∧ Ean8.new b s = .ok x ∧ Ean8.new b (s ++ [c]) = .ok x ∧
      ∀ c' x', Ean8.new b (s ++ [c']) = .ok x' → c' = c :=
  complete_number Ean8.EAN8.mk 7 (by decide) _ (ean8_new b) s hD hl

example : ("0123456789".toList.filter (fun c => (Ean8.new .release ("5512345".toList ++ [c])).isOk)) = ['7'] := by decide

/-- C73. UPC-A: exactly one character can be put after 11 digits. -/
theorem C73_upca_completion (b : Build) (s : List Char) (hD : AllDigits s) (hl : s.length = 11) :
    ∃ c x, c.isDigit = true ∧ Upca.new b s = .ok x ∧ Upca.new b (s ++ [c]) = .ok x ∧
      ∀ c' x', Upca.new b (s ++ [c']) = .ok x' → c' = c :=
  complete_number Upca.UPCA.mk 11 (by decide) _ (upca_new b) s hD hl

example : ("0123456789".toList.filter (fun c => (Ean13.new .debug ("750103131130".toList ++ [c])).isOk)) = ['9'] := by decide

end Barcoders
