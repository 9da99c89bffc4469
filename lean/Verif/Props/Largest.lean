import Verif.Props.Distinct
import Verif.Props.Pictures
import Verif.Props.Target
import Verif.Props.ExactTF

/-!
# C85: the largest symbols, and that all can be drawn
-/

set_option autoImplicit false

namespace Barcoders
open Spec

/-- The number of modules of the longest symbol of each kind; for Code 128 with data of at most 6489 characters, as for longer
data a symbol need not exist (C52). -/
def mostModules : Kind → Nat
  | .ean13 | .upca => 95
  | .ean8 => 67
  | .supp => 47
  | .code39 => 3366
  | .code93 => 2341
  | .code11 => 2079
  | .codabar => 3327
  | .stf => 3600
  | .itf => 2312
  | .code128 => 71403

/-- C85. No symbol is longer. -/
theorem C85_longest (b : Build) (k : Kind) (s : List Char) (ms : List Nat) (h : Drawn b k s ms) (hs : byteLen s < 2 ^ 32)
    (h128 : k = .code128 → s.length ≤ 6489) : ms.length ≤ mostModules k ∧ ∀ m ∈ ms, m = 0 ∨ m = 1 := by
  cases k with
  | ean13 => obtain ⟨x, h1, h2⟩ := h; have := (C32_ean_rows b b s ms).1 x h1 h2; exact ⟨Nat.le_of_eq this.length, this.binary⟩
  | ean8 => obtain ⟨x, h1, h2⟩ := h; have := (C32_ean_rows b b s ms).2.1 x h1 h2; exact ⟨Nat.le_of_eq this.length, this.binary⟩
  | upca => obtain ⟨x, h1, h2⟩ := h; have := (C32_ean_rows b b s ms).2.2 x h1 h2; exact ⟨Nat.le_of_eq this.length, this.binary⟩
  | supp =>
    obtain ⟨x, h1, h2⟩ := h
    have := C32_supp_row b s x ms h1 h2
    refine ⟨?_, this.binary⟩
    rw [this.length]
    show _ ≤ 47
    split <;> omega
  | code39 =>
    obtain ⟨x, h1 | h1, h2⟩ := h
    · have h3 := (C13_code39_accepts s hs).1.mp ⟨x, h1⟩
      have := (C32_code39_row s x ms h2).1 h1
      refine ⟨?_, this.binary⟩
      rw [this.length]
      show _ ≤ 3366
      omega
    · have h3 := (C13_code39_accepts s hs).2.mp ⟨x, h1⟩
      have := (C32_code39_row s x ms h2).2 h1
      refine ⟨?_, this.binary⟩
      rw [this.length]
      show _ ≤ 3366
      omega
  | code93 =>
    obtain ⟨x, h1, h2⟩ := h
    have h3 := (C16_code93_accepts s hs).mp ⟨x, h1⟩
    have := C32_code93_row s x ms h1 h2
    refine ⟨?_, this.binary⟩
    rw [this.length]
    show _ ≤ 2341
    omega
  | code11 =>
    obtain ⟨x, h1, h2⟩ := h
    have h3 := (C19_code11_accepts s hs).mp ⟨x, h1⟩
    obtain ⟨t, -, h4, this⟩ := C32_code11_row s x ms h1 h2
    refine ⟨?_, this.binary⟩
    rw [this.length, h4]
    show _ ≤ 2079
    split <;> omega
  | codabar =>
    obtain ⟨x, h1, rfl⟩ := h
    have h3 := (C22_codabar_accepts s hs).mp ⟨x, h1⟩
    have := C32_codabar_row s x h1
    refine ⟨?_, this.binary⟩
    rw [this.length]
    have h4 : ∀ t : List Char, t.countP (fun c => c ∈ ":/.ABCD".toList) + 3 * t.count '+' ≤ 3 * t.length := by
      intro t
      induction t with
      | nil => simp
      | cons c t ih =>
        rw [List.countP_cons, List.count_cons, List.length_cons]
        by_cases h5 : c = '+'
        · subst h5
          rw [if_neg (by decide), if_pos (by decide)]
          omega
        · have : (c == '+') = false := by simpa using h5
          rw [this]
          simp only [Bool.false_eq_true, if_false]
          split <;> omega
    have := h4 s
    show _ ≤ 3327
    omega
  | stf =>
    obtain ⟨x, h1, h2⟩ := h
    have h3 := (C24_stf_accepts s hs).mp ⟨x, h1⟩
    have := C32_stf_row s x ms h1 h2
    refine ⟨?_, this.binary⟩
    rw [this.length]
    show _ ≤ 3600
    omega
  | itf =>
    obtain ⟨x, h1, h2⟩ := h
    have h3 : s.length ≤ 256 := by
      have h4 := C26_itf_new b s hs
      rw [h1] at h4
      split at h4
      · cases h4
      · next h5 =>
        split at h4
        · cases h4
        · next hD =>
          have := digits_byteLen s (Decidable.not_not.mp hD)
          omega
    have := C32_itf_row b s x ms h1 h2
    refine ⟨?_, this.binary⟩
    rw [this.length]
    show _ ≤ 2312
    omega
  | code128 =>
    obtain ⟨x, h1, h2⟩ := h
    have h3 := h128 rfl
    obtain ⟨n, vs, h4, -, -, this⟩ := C32_code128_row b s x ms h1 h2
    refine ⟨?_, this.binary⟩
    rw [this.length]
    show _ ≤ 71403
    omega

example : ∃ ms, Drawn .debug .codabar "A+B".toList ms ∧ ms.length = 34 ∧ mostModules .codabar = 3327 :=
  ⟨_, ⟨_, rfl, rfl⟩, by decide +kernel⟩

theorem replicate_mem (n : Nat) (c : Char) (l : List Char) (h : c ∈ l) : ∀ d ∈ List.replicate n c, d ∈ l := by
  intro d hd
  rw [(List.mem_replicate.mp hd).2]
  exact h

theorem code11_long : (code11Text (List.replicate 256 '3')).countP (fun c => c = '0' ∨ c = '9' ∨ c = '-') = 0 ∧
    (code11Text (List.replicate 256 '3')).length = 258 := by decide +kernel

theorem byteLen_le4 (s : List Char) : byteLen s ≤ 4 * s.length := by
  induction s with
  | nil => decide
  | cons c s ih =>
    have := Char.utf8Size_le_four c
    rw [byteLen_cons, List.length_cons]
    omega

theorem setCDigits_fnc1 (n : Nat) : setCDigits .A ('À' :: List.replicate n fnc1) = 0 := by
  have h : ∀ n, setCDigits .A (List.replicate n fnc1) = 0 := by
    intro n
    induction n with
    | zero => rfl
    | succ n ih =>
      rw [List.replicate_succ, setCDigits, if_neg (by decide), if_neg (by decide), if_neg (by decide), if_neg (by decide), ih]
  rw [setCDigits, if_pos rfl, h]

/-- C85. Some symbol is as long. -/
theorem C85_longest_attained (b : Build) (k : Kind) :
    ∃ s ms, Drawn b k s ms ∧ byteLen s < 2 ^ 32 ∧ (k = .code128 → s.length ≤ 6489) ∧ ms.length = mostModules k := by
  cases k with
  | ean13 =>
    obtain ⟨x, hx⟩ := (C01_ean13_accepts b "123456789012".toList (by decide)).mpr ⟨by decide, Or.inl (by decide)⟩
    obtain ⟨ms, he, -⟩ := C02_ean13_scan b _ x hx
    exact ⟨_, ms, ⟨x, hx, he⟩, by decide, (by intro h; cases h), ((C32_ean_rows b b _ ms).1 x hx he).length⟩
  | ean8 =>
    obtain ⟨x, hx⟩ := (C06_ean8_accepts b "1234567".toList (by decide)).mpr ⟨by decide, Or.inl (by decide)⟩
    obtain ⟨ms, he, -⟩ := C07_ean8_scan b _ x hx
    exact ⟨_, ms, ⟨x, hx, he⟩, by decide, (by intro h; cases h), ((C32_ean_rows b b _ ms).2.1 x hx he).length⟩
  | upca =>
    obtain ⟨x, hx⟩ := (C08_upca_accepts b "12345678901".toList (by decide)).mpr ⟨by decide, Or.inl (by decide)⟩
    obtain ⟨ms, he, -⟩ := C09_upca_scan b _ x hx
    exact ⟨_, ms, ⟨x, hx, he⟩, by decide, (by intro h; cases h), ((C32_ean_rows b b _ ms).2.2 x hx he).length⟩
  | supp =>
    obtain ⟨x, hx⟩ := (C11_eansupp_accepts "12345".toList).mpr ⟨by decide, Or.inr (by decide)⟩
    obtain ⟨ms, he, -⟩ := C12_eansupp_scan b _ x hx
    exact ⟨_, ms, ⟨x, hx, he⟩, by decide, (by intro h; cases h), (C32_supp_row b _ x ms hx he).length⟩
  | code39 =>
    have h0 : byteLen (List.replicate 256 'A') < 2 ^ 32 := by decide +kernel
    obtain ⟨x, hx⟩ := (C13_code39_accepts (List.replicate 256 'A') h0).2.mpr ⟨by rw [List.length_replicate]; omega, by rw [List.length_replicate]; omega, replicate_mem _ _ _ (by decide)⟩
    obtain ⟨ms, he⟩ := (C31_encode_ok b b (List.replicate 256 'A')).2.2.2.2.2.1 x hx
    exact ⟨_, ms, ⟨x, Or.inr hx, he⟩, h0, (by intro h; cases h), ((C32_code39_row _ x ms he).2 hx).length.trans (by rw [List.length_replicate]; rfl)⟩
  | code93 =>
    have h0 : byteLen (List.replicate 256 'A') < 2 ^ 32 := by decide +kernel
    obtain ⟨x, hx⟩ := (C16_code93_accepts (List.replicate 256 'A') h0).mpr ⟨by rw [List.length_replicate]; omega, by rw [List.length_replicate]; omega, replicate_mem _ _ _ (by decide)⟩
    obtain ⟨ms, he, -⟩ := C17_code93_scan _ x hx
    exact ⟨_, ms, ⟨x, hx, he⟩, h0, (by intro h; cases h), (C32_code93_row _ x ms hx he).length.trans (by rw [List.length_replicate]; rfl)⟩
  | code11 =>
    have h0 : byteLen (List.replicate 256 '3') < 2 ^ 32 := by decide +kernel
    obtain ⟨x, hx⟩ := (C19_code11_accepts (List.replicate 256 '3') h0).mpr ⟨by rw [List.length_replicate]; omega, by rw [List.length_replicate]; omega, replicate_mem _ _ _ (by decide)⟩
    obtain ⟨hA, he⟩ := code11_symbol _ x hx
    refine ⟨_, _, ⟨x, hx, he⟩, h0, (by intro h; cases h), ?_⟩
    rw [(code11_row _ hA).length, code11_long.1, code11_long.2]
    rfl
  | codabar =>
    have h0 : byteLen (List.replicate 256 '+') < 2 ^ 32 := by decide +kernel
    obtain ⟨x, hx⟩ := (C22_codabar_accepts (List.replicate 256 '+') h0).mpr ⟨by rw [List.length_replicate]; omega, by rw [List.length_replicate]; omega, replicate_mem _ _ _ (by decide)⟩
    refine ⟨_, _, ⟨x, hx, rfl⟩, h0, (by intro h; cases h), ?_⟩
    rw [(C32_codabar_row _ x hx).length]
    decide +kernel
  | stf =>
    have h0 : byteLen (List.replicate 256 '0') < 2 ^ 32 := by decide +kernel
    obtain ⟨x, hx⟩ := (C24_stf_accepts (List.replicate 256 '0') h0).mpr ⟨by
      intro c hc; rw [(List.mem_replicate.mp hc).2]; decide, by rw [List.length_replicate]; omega, by rw [List.length_replicate]; omega⟩
    obtain ⟨ms, he, -⟩ := C24_stf_scan _ x hx
    exact ⟨_, ms, ⟨x, hx, he⟩, h0, (by intro h; cases h), (C32_stf_row _ x ms hx he).length.trans (by rw [List.length_replicate]; rfl)⟩
  | itf =>
    have h0 : byteLen (List.replicate 256 '0') < 2 ^ 32 := by decide +kernel
    have hD : AllDigits (List.replicate 256 '0') := by intro c hc; rw [(List.mem_replicate.mp hc).2]; decide
    obtain ⟨x, ms, hx, he, -⟩ := C51_itf_even b (List.replicate 256 '0') hD (by rw [List.length_replicate])
      (by rw [List.length_replicate]; omega) (by rw [List.length_replicate]; omega)
    exact ⟨_, ms, ⟨x, hx, he⟩, h0, (by intro h; cases h), (C32_itf_row b _ x ms hx he).length.trans (by rw [List.length_replicate]; rfl)⟩
  | code128 =>
    obtain ⟨x, hx, -⟩ := code128_fnc1 6488 (by decide)
    obtain ⟨ms, he⟩ := C31_code128_encode_ok_partial b _ x hx (by rw [List.length_cons, List.length_replicate]; omega)
    obtain ⟨n, vs, h1, -, -, h2⟩ := C32_code128_row b _ x ms hx he
    refine ⟨_, ms, ⟨x, hx, he⟩, ?_, fun _ => by rw [List.length_cons, List.length_replicate]; omega, ?_⟩
    · have := byteLen_le4 ('À' :: List.replicate 6488 fnc1)
      rw [List.length_cons, List.length_replicate] at this
      omega
    · rw [setCDigits_fnc1, List.length_cons, List.length_replicate] at h1
      rw [h2.length]
      show _ = 71403
      omega

example : ∃ ms, Drawn .debug .supp "51499".toList ms ∧ ms.length = mostModules .supp := ⟨_, ⟨_, rfl, rfl⟩, by decide⟩

/-- The conditions under which the generators draw every symbol: modules of at most 60 000 pixels, less than 2^29 rows of them,
and a codec that does not fail. -/
structure AlwaysDrawn (b : Build) (ms : List Nat) : Prop where
  ascii : ∀ g : Ascii.ASCII, ∃ out, Ascii.generate g ms = .ok out
  json : ∀ g : Json.JSON, ∃ out, Json.generate g ms = .ok out
  svg : ∀ g : Svg.SVG, g.xdim ≤ 60000 → ∃ out, Svg.generate b g ms = .ok out
  buffer : ∀ g : Image.Image, g.xdim ≤ 60000 → g.height < 2 ^ 29 → ∃ buf, Image.generateBuffer b g ms = .ok buf
  file : ∀ (g : Image.Image) (codec : Image.Codec), g.xdim ≤ 60000 → g.height < 2 ^ 29 → g.kind ≠ .imageBuffer →
    (∀ f buf, codec f buf ≠ none) → ∃ out, Image.generate codec b g ms = .ok out

theorem always_drawn (b : Build) (ms : List Nat) (hl : ms.length ≤ 71403) (hb : ∀ m ∈ ms, m = 0 ∨ m = 1) :
    AlwaysDrawn b ms := by
  have hw : ∀ x ≤ 60000, ms.length * x < 2 ^ 32 := by
    intro x hx
    have := Nat.mul_le_mul hl hx
    omega
  have hbuf : ∀ g : Image.Image, g.xdim ≤ 60000 → g.height < 2 ^ 29 → ∃ buf, Image.generateBuffer b g ms = .ok buf := by
    intro g hx hh
    have h1 := hw g.xdim hx
    have h2 : ms.length * g.xdim * g.height ≤ 2 ^ 32 * g.height := Nat.mul_le_mul_right _ (Nat.le_of_lt h1)
    obtain ⟨buf, h, -⟩ := C41_image_read_rotated b g ms h1 (by rw [Nat.mul_assoc]; omega)
    exact ⟨buf, h⟩
  refine ⟨fun g => ⟨_, C35_ascii_output g ms hb⟩, fun g => ?_, fun g hx => ?_, hbuf, fun g codec hx hh hk hc => ?_⟩
  · obtain ⟨out, h, -⟩ := C36_json_parses g ms
    exact ⟨out, h⟩
  · exact ⟨_, svg_generate b g ms (hw g.xdim hx)⟩
  · obtain ⟨buf, h⟩ := hbuf g hx hh
    have h1 := (C43_image_generate codec b g ms).2
    cases hk' : g.kind with
    | imageBuffer => exact absurd hk' hk
    | gif =>
      cases hc' : codec .gif buf with
      | none => exact absurd hc' (hc _ _)
      | some out => exact ⟨out, (h1 .gif (Or.inl ⟨hk', rfl⟩)).1 buf out h hc'⟩
    | png =>
      cases hc' : codec .png buf with
      | none => exact absurd hc' (hc _ _)
      | some out => exact ⟨out, (h1 .png (Or.inr (Or.inl ⟨hk', rfl⟩))).1 buf out h hc'⟩
    | webp =>
      cases hc' : codec .webp buf with
      | none => exact absurd hc' (hc _ _)
      | some out => exact ⟨out, (h1 .webp (Or.inr (Or.inr ⟨hk', rfl⟩))).1 buf out h hc'⟩

/-- C85. Every accepted string (for Code 128: of at most 6489 characters) has a symbol, and every generator draws it, in debug
and release builds: no call between the string and the picture fails or panics. For numbers in Interleaved 2 of 5 the
constructor itself may panic in debug builds (C51). -/
theorem C85_always_drawn (b : Build) (s : List Char) (hs : byteLen s < 2 ^ 32) :
    (∀ x, Ean13.new b s = .ok x → ∃ ms, Ean13.encode b x = .ok ms ∧ AlwaysDrawn b ms) ∧
    (∀ x, Ean8.new b s = .ok x → ∃ ms, Ean8.encode b x = .ok ms ∧ AlwaysDrawn b ms) ∧
    (∀ x, Upca.new b s = .ok x → ∃ ms, Upca.encode b x = .ok ms ∧ AlwaysDrawn b ms) ∧
    (∀ x, EanSupp.new s = .ok x → ∃ ms, EanSupp.encode b x = .ok ms ∧ AlwaysDrawn b ms) ∧
    (∀ x, Code39.new s = .ok x → ∃ ms, Code39.encode x = .ok ms ∧ AlwaysDrawn b ms) ∧
    (∀ x, Code39.withChecksum s = .ok x → ∃ ms, Code39.encode x = .ok ms ∧ AlwaysDrawn b ms) ∧
    (∀ x, Code93.new s = .ok x → ∃ ms, Code93.encode x = .ok ms ∧ AlwaysDrawn b ms) ∧
    (∀ x, Code11.new s = .ok x → ∃ ms, Code11.encode x = .ok ms ∧ AlwaysDrawn b ms) ∧
    (∀ x, Codabar.new s = .ok x → AlwaysDrawn b (Codabar.encode x)) ∧
    (∀ x, TF.standard s = .ok x → ∃ ms, TF.encode x = .ok ms ∧ AlwaysDrawn b ms) ∧
    (∀ x, TF.interleaved b s = .ok x → ∃ ms, TF.encode x = .ok ms ∧ AlwaysDrawn b ms) ∧
    (∀ x, Code128.new s = .ok x → s.length ≤ 6489 → ∃ ms, Code128.encode b x = .ok ms ∧ AlwaysDrawn b ms) := by
  have key : ∀ k ms, Drawn b k s ms → (k = .code128 → s.length ≤ 6489) → AlwaysDrawn b ms := by
    intro k ms h h128
    obtain ⟨h1, h2⟩ := C85_longest b k s ms h hs h128
    exact always_drawn b ms (Nat.le_trans h1 (by cases k <;> decide)) h2
  refine ⟨?_, ?_, ?_, ?_, ?_, ?_, ?_, ?_, ?_, ?_, ?_, ?_⟩
  · intro x hx
    obtain ⟨ms, he, -⟩ := C02_ean13_scan b s x hx
    exact ⟨ms, he, key .ean13 ms ⟨x, hx, he⟩ (by intro h; cases h)⟩
  · intro x hx
    obtain ⟨ms, he, -⟩ := C07_ean8_scan b s x hx
    exact ⟨ms, he, key .ean8 ms ⟨x, hx, he⟩ (by intro h; cases h)⟩
  · intro x hx
    obtain ⟨ms, he, -⟩ := C09_upca_scan b s x hx
    exact ⟨ms, he, key .upca ms ⟨x, hx, he⟩ (by intro h; cases h)⟩
  · intro x hx
    obtain ⟨ms, he, -⟩ := C12_eansupp_scan b s x hx
    exact ⟨ms, he, key .supp ms ⟨x, hx, he⟩ (by intro h; cases h)⟩
  · intro x hx
    obtain ⟨ms, he, -⟩ := C14_code39_scan s x hx
    exact ⟨ms, he, key .code39 ms ⟨x, Or.inl hx, he⟩ (by intro h; cases h)⟩
  · intro x hx
    obtain ⟨ms, he, -⟩ := C14_code39_checksum_scan s x hx
    exact ⟨ms, he, key .code39 ms ⟨x, Or.inr hx, he⟩ (by intro h; cases h)⟩
  · intro x hx
    obtain ⟨ms, he, -⟩ := C17_code93_scan s x hx
    exact ⟨ms, he, key .code93 ms ⟨x, hx, he⟩ (by intro h; cases h)⟩
  · intro x hx
    obtain ⟨ms, he, -⟩ := C20_code11_scan s x hx
    exact ⟨ms, he, key .code11 ms ⟨x, hx, he⟩ (by intro h; cases h)⟩
  · intro x hx
    exact key .codabar _ ⟨x, hx, rfl⟩ (by intro h; cases h)
  · intro x hx
    obtain ⟨ms, he, -⟩ := C24_stf_scan s x hx
    exact ⟨ms, he, key .stf ms ⟨x, hx, he⟩ (by intro h; cases h)⟩
  · intro x hx
    obtain ⟨ms, _, he, -⟩ := C25_itf_scan b s x hx
    exact ⟨ms, he, key .itf ms ⟨x, hx, he⟩ (by intro h; cases h)⟩
  · intro x hx hl
    obtain ⟨ms, he⟩ := C31_code128_encode_ok_partial b s x hx hl
    exact ⟨ms, he, key .code128 ms ⟨x, hx, he⟩ (fun _ => hl)⟩

/-- The longest Code 39 symbol, 60 000 pixels to the module, as a PNG of one row. -/
example : ∃ x ms buf, Code39.withChecksum (List.replicate 256 'A') = .ok x ∧ Code39.encode x = .ok ms ∧ ms.length = 3366 ∧
    Image.generateBuffer .debug { Image.png 1 with xdim := 60000 } ms = .ok buf := by
  have h0 : byteLen (List.replicate 256 'A') < 2 ^ 32 := by decide +kernel
  obtain ⟨x, hx⟩ := (C13_code39_accepts (List.replicate 256 'A') h0).2.mpr ⟨by rw [List.length_replicate]; omega,
    by rw [List.length_replicate]; omega, replicate_mem _ _ _ (by decide)⟩
  obtain ⟨ms, he, hd⟩ := (C85_always_drawn .debug _ h0).2.2.2.2.2.1 x hx
  obtain ⟨buf, hb⟩ := hd.buffer { Image.png 1 with xdim := 60000 } (Nat.le_refl _) (by decide)
  exact ⟨x, ms, buf, hx, he, ((C32_code39_row _ x ms he).2 hx).length.trans (by rw [List.length_replicate]), hb⟩

end Barcoders
