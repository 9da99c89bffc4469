import Verif.Props.Migrate
import Verif.Props.TF
import Verif.Props.Ean
set_option autoImplicit false

/-! C116: which symbology prints a number in the least space. -/

namespace Barcoders
open Spec

/-- The symbols of one even number of digits in the seven symbologies that take any digits: what each constructor and encoder
gives, and how wide it is. -/
structure DigitSymbols (b : Build) (s : List Char) (itf c128 c93 c11 cb c39 stf : List Nat) : Prop where
  itf : (TF.interleaved b s >>= TF.encode) = .ok itf
  code128 : (Code128.new ('Ć' :: s) >>= Code128.encode b) = .ok c128
  code93 : (Code93.new s >>= Code93.encode) = .ok c93
  code11 : (Code11.new s >>= Code11.encode) = .ok c11
  codabar : (Codabar.new ('A' :: s ++ ['B']) >>= fun x => .ok (Codabar.encode x)) = .ok cb
  code39 : (Code39.new s >>= Code39.encode) = .ok c39
  stf : (TF.standard s >>= TF.encode) = .ok stf

theorem digit_in_codabar (c : Char) (h : c.isDigit = true) : c ∈ codabarAlphabet :=
  (code11_in_codabar c (digit_in_code11 c h)).1

theorem digit_not_wide (c : Char) (h : c.isDigit = true) : c ∉ ":/.ABCD".toList ∧ c ≠ '+' := by
  have := (mem_digitChars c).2 h
  exact (by decide : ∀ c ∈ Helpers.digitChars, c ∉ ":/.ABCD".toList ∧ c ≠ '+') c this

theorem framed_width (s : List Char) (hd : AllDigits s) :
    ('A' :: s ++ ['B']).countP (fun c => c ∈ ":/.ABCD".toList) = 2 ∧ ('A' :: s ++ ['B']).count '+' = 0 := by
  have h1 : s.countP (fun c => c ∈ ":/.ABCD".toList) = 0 := by
    rw [List.countP_eq_zero]
    intro c hc
    simpa using (digit_not_wide c (hd c hc)).1
  have h2 : s.count '+' = 0 := List.count_eq_zero.2 (fun hc => (digit_not_wide _ (hd _ hc)).2 rfl)
  constructor
  · rw [List.countP_append, List.countP_cons, h1]; decide
  · rw [List.count_append, List.count_cons, h2]; decide

/-- C116. The widths of the symbols of the same even number of digits: 9n + 8 modules as Interleaved 2 of 5, 5.5n + 35 as
Code 128 (set C), 9n + 37 as Code 93, 10n + 21 as Codabar between a start and a stop letter, 13n + 25 as Code 39, 14n + 16 as
Standard 2 of 5, and as Code 11 from 7m + 15 to 8m + 15, where m counts the check characters as well. -/
theorem C116_widths (b : Build) (s : List Char) (hd : AllDigits s) (he : s.length % 2 = 0) (h0 : 0 < s.length)
    (hl : s.length ≤ 254) :
    ∃ itf c128 c93 c11 cb c39 stf, DigitSymbols b s itf c128 c93 c11 cb c39 stf ∧
      itf.length = 9 * s.length + 8 ∧ 2 * c128.length = 11 * s.length + 70 ∧ c93.length = 9 * s.length + 37 ∧
      cb.length = 10 * s.length + 21 ∧ c39.length = 13 * s.length + 25 ∧ stf.length = 14 * s.length + 16 ∧
      7 * (s.length + if s.length > 10 then 2 else 1) + 15 ≤ c11.length ∧
      c11.length ≤ 8 * (s.length + if s.length > 10 then 2 else 1) + 15 := by
  have hb := digits_byteLen s hd
  have h11 : ∀ c ∈ s, c ∈ code11Alphabet := fun c hc => digit_in_code11 c (hd c hc)
  have hti : TF.interleaved b s = .ok (.Interleaved (digitsOf s)) := by
    rw [C26_itf_new b s (by omega), if_neg (by omega), if_neg (not_not_intro hd), if_pos he]
  obtain ⟨itf, -, hei, -, -⟩ := C25_itf_scan b s _ hti
  obtain ⟨z, c128, hz, hez, -, hl128⟩ := C79_digits b s (by omega) hd he
  obtain ⟨y, hy⟩ := (C16_code93_accepts s (by omega)).2
    ⟨by omega, by omega, fun c hc => code39_in_code93 c (code11_in_code39 c (h11 c hc))⟩
  obtain ⟨c93, hey, -⟩ := C17_code93_scan s y hy
  obtain ⟨w, hw⟩ := (C19_code11_accepts s (by omega)).2 ⟨by omega, by omega, h11⟩
  obtain ⟨c11, hew, -⟩ := C20_code11_scan s w hw
  have hfl : ('A' :: s ++ ['B']).length = s.length + 2 := by simp
  have hfA : ∀ c ∈ 'A' :: s ++ ['B'], c ∈ codabarAlphabet := by
    intro c hc
    rcases List.mem_append.1 hc with hc | hc
    · rcases List.mem_cons.1 hc with rfl | hc
      · decide
      · exact digit_in_codabar c (hd c hc)
    · rcases List.mem_singleton.1 hc with rfl
      decide
  have hfb : byteLen ('A' :: s ++ ['B']) < 2 ^ 32 := by
    rw [codabar_byteLen _ hfA, hfl]; omega
  obtain ⟨v, hv⟩ := (C22_codabar_accepts _ hfb).2 ⟨by omega, by omega, hfA⟩
  obtain ⟨u, hu⟩ := (C13_code39_accepts s (by omega)).1.2 ⟨by omega, by omega, fun c hc => code11_in_code39 c (h11 c hc)⟩
  obtain ⟨c39, heu, -⟩ := C14_code39_scan s u hu
  obtain ⟨t, ht⟩ := (C24_stf_accepts s (by omega)).2 ⟨hd, by omega, by omega⟩
  obtain ⟨stf, het, -⟩ := C24_stf_scan s t ht
  have li := (C32_itf_row b s _ itf hti hei).length
  have ly := (C32_code93_row s y c93 hy hey).length
  obtain ⟨r, -, hr, hrow⟩ := C32_code11_row s w c11 hw hew
  have lw := hrow.length
  have lv := (C32_codabar_row _ v hv).length
  have lu := ((C32_code39_row s u c39 heu).1 hu).length
  have lt := (C32_stf_row s t stf ht het).length
  have hc : r.countP (fun c => c = '0' ∨ c = '9' ∨ c = '-') ≤ r.length := List.countP_le_length
  obtain ⟨f1, f2⟩ := framed_width s hd
  rw [f1, f2, hfl] at lv
  refine ⟨itf, c128, c93, c11, Codabar.encode v, c39, stf, ⟨?_, ?_, ?_, ?_, ?_, ?_, ?_⟩, ?_⟩
  · rw [hti]; exact hei
  · rw [hz]; exact hez
  · rw [hy]; exact hey
  · rw [hw]; exact hew
  · rw [hv]; rfl
  · rw [hu]; exact heu
  · rw [ht]; exact het
  · rw [he] at li
    omega

example : ∃ itf c128 c93 c11 cb c39 stf, DigitSymbols .debug "0123456789".toList itf c128 c93 c11 cb c39 stf ∧ itf.length = 98 ∧
    c128.length = 90 ∧ c93.length = 127 ∧ c11.length = 100 ∧ cb.length = 121 ∧ c39.length = 155 ∧ stf.length = 156 :=
  ⟨_, _, _, _, _, _, _, ⟨rfl, rfl, rfl, rfl, rfl, rfl, rfl⟩, by decide +kernel⟩

/-- C116. Up to six digits the Interleaved 2 of 5 symbol is the narrowest of the seven; from ten digits on the Code 128 symbol
is. With eight digits these two take 80 and 79 modules, the Code 11 symbol between 78 and 87, and the others more. -/
theorem C116_narrowest (b : Build) (s : List Char) (hd : AllDigits s) (he : s.length % 2 = 0)
    (itf c128 c93 c11 cb c39 stf : List Nat) (h0 : 0 < s.length) (hl : s.length ≤ 254)
    (h : DigitSymbols b s itf c128 c93 c11 cb c39 stf) :
    (s.length ≤ 6 → ∀ ms ∈ [c128, c93, c11, cb, c39, stf], itf.length < ms.length) ∧
    (10 ≤ s.length → ∀ ms ∈ [itf, c93, c11, cb, c39, stf], c128.length < ms.length) ∧
    (s.length = 8 → itf.length = 80 ∧ c128.length = 79 ∧ 78 ≤ c11.length ∧ c11.length ≤ 87 ∧
      ∀ ms ∈ [c93, cb, c39, stf], 100 < ms.length) := by
  obtain ⟨a1, a2, a3, a4, a5, a6, a7, g, l1, l2, l3, l4, l5, l6, l7, l8⟩ := C116_widths b s hd he h0 hl
  have inj : ∀ {o : Outcome (List Nat)} {p q : List Nat}, o = .ok p → o = .ok q → p.length = q.length := by
    intro o p q h1 h2
    rw [h1] at h2
    cases h2
    rfl
  rw [inj g.itf h.itf] at l1
  rw [inj g.code128 h.code128] at l2
  rw [inj g.code93 h.code93] at l3
  rw [inj g.codabar h.codabar] at l4
  rw [inj g.code39 h.code39] at l5
  rw [inj g.stf h.stf] at l6
  rw [inj g.code11 h.code11] at l7 l8
  simp only [List.mem_cons, List.not_mem_nil, or_false, forall_eq_or_imp, forall_eq]
  refine ⟨fun hs => ?_, fun hs => ?_, fun hs => ?_⟩ <;>
    rcases Nat.lt_or_ge 10 s.length with hc | hc <;>
    simp only [hc, if_true, if_neg (Nat.not_lt.2 hc), gt_iff_lt] at l7 l8 <;> omega

-- ten digits are the limit: with eight zeros the Code 11 symbol is narrower than the other two
example : encodingLength (Code11.new "00000000".toList >>= Code11.encode) = 78 ∧
    encodingLength (Code128.new "Ć00000000".toList >>= Code128.encode .release) = 79 ∧
    encodingLength (TF.interleaved .release "00000000".toList >>= TF.encode) = 80 ∧
    encodingLength (Code11.new "12345678".toList >>= Code11.encode) = 86 := by decide +kernel

/-- C116. The retail symbols are narrower than all of these: EAN-8 has 67 modules for seven or eight digits and Interleaved
2 of 5, Code 128 and the others have at least 78 for eight; EAN-13 and UPC-A have 95 modules for eleven to thirteen digits and
every symbol of twelve digits among the seven has more than 100. -/
theorem C116_retail (b : Build) (s : List Char) (hd : AllDigits s)
    (itf c128 c93 c11 cb c39 stf : List Nat) (h : DigitSymbols b s itf c128 c93 c11 cb c39 stf) :
    (s.length = 8 → ∀ x ms, Ean8.new b s = .ok x → Ean8.encode b x = .ok ms →
      ms.length = 67 ∧ ∀ o ∈ [itf, c128, c93, c11, cb, c39, stf], 78 ≤ o.length) ∧
    (s.length = 12 → ∃ x ms, Ean13.new b s = .ok x ∧ Ean13.encode b x = .ok ms ∧
      ms.length = 95 ∧ ∀ o ∈ [itf, c128, c93, c11, cb, c39, stf], 101 ≤ o.length) ∧
    (s.length = 12 → ∀ x ms, Upca.new b s = .ok x → Upca.encode b x = .ok ms →
      ms.length = 95 ∧ ∀ o ∈ [itf, c128, c93, c11, cb, c39, stf], 101 ≤ o.length) := by
  have inj : ∀ {o : Outcome (List Nat)} {p q : List Nat}, o = .ok p → o = .ok q → p.length = q.length := by
    intro o p q h1 h2
    rw [h1] at h2
    cases h2
    rfl
  have key : 0 < s.length → s.length ≤ 254 → s.length % 2 = 0 →
      (s.length = 8 → ∀ o ∈ [itf, c128, c93, c11, cb, c39, stf], 78 ≤ o.length) ∧
      (s.length = 12 → ∀ o ∈ [itf, c128, c93, c11, cb, c39, stf], 101 ≤ o.length) := by
    intro h0 hl he
    obtain ⟨a1, a2, a3, a4, a5, a6, a7, g, l1, l2, l3, l4, l5, l6, l7, l8⟩ := C116_widths b s hd he h0 hl
    rw [inj g.itf h.itf] at l1
    rw [inj g.code128 h.code128] at l2
    rw [inj g.code93 h.code93] at l3
    rw [inj g.codabar h.codabar] at l4
    rw [inj g.code39 h.code39] at l5
    rw [inj g.stf h.stf] at l6
    rw [inj g.code11 h.code11] at l7 l8
    simp only [List.mem_cons, List.not_mem_nil, or_false, forall_eq_or_imp, forall_eq]
    constructor <;> intro hs <;>
      rcases Nat.lt_or_ge 10 s.length with hc | hc <;>
      simp only [hc, if_true, if_neg (Nat.not_lt.2 hc), gt_iff_lt] at l7 l8 <;> omega
  have hb := digits_byteLen s hd
  refine ⟨fun hs x ms hx hm => ⟨((C32_ean_rows b b s ms).2.1 x hx hm).length, (key (by omega) (by omega) (by omega)).1 hs⟩,
    fun hs => ?_, fun hs x ms hx hm =>
      ⟨((C32_ean_rows b b s ms).2.2 x hx hm).length, (key (by omega) (by omega) (by omega)).2 hs⟩⟩
  obtain ⟨x, hx⟩ := (C01_ean13_accepts b s (by omega)).2 ⟨hd, Or.inl hs⟩
  obtain ⟨d0, ls, rs, -, -, -, -, -, -, hm⟩ := ean13_symbol b s x hx
  exact ⟨x, _, hx, hm b, ((C32_ean_rows b b s _).1 x hx (hm b)).length, (key (by omega) (by omega) (by omega)).2 hs⟩

example : encodingLength (Ean8.new .debug "55123457".toList >>= Ean8.encode .debug) = 67 ∧
    encodingLength (Code128.new "Ć55123457".toList >>= Code128.encode .debug) = 79 ∧
    encodingLength (Ean13.new .debug "750103131130".toList >>= Ean13.encode .debug) = 95 ∧
    encodingLength (Code128.new "Ć750103131130".toList >>= Code128.encode .debug) = 101 := by decide +kernel

end Barcoders
