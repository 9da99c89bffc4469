import Verif.Props.Shape
import Verif.Props.Codabar
import Verif.Props.Code128Ascii
set_option autoImplicit false

/-! C88: moving the same text to another symbology. -/

namespace Barcoders
open Spec

theorem digit_in_code11 (c : Char) (h : c.isDigit = true) : c ∈ code11Alphabet := by
  have := (mem_digitChars c).2 h
  exact (by decide : ∀ c ∈ Helpers.digitChars, c ∈ code11Alphabet) c this

theorem code11_in_code39 : ∀ c ∈ code11Alphabet, c ∈ code39Alphabet := by decide
theorem code11_in_codabar : ∀ c ∈ code11Alphabet, c ∈ codabarAlphabet ∧ c ≠ '+' ∧ c ≠ 'B' ∧ c ≠ 'C' := by decide
theorem code39_in_code93 : ∀ c ∈ code39Alphabet, c ∈ code93Alphabet := by decide
theorem code39_printable : ∀ c ∈ code39Alphabet, 32 ≤ c.toNat ∧ c.toNat < 127 := by decide
theorem code93_rest : ∀ c ∈ code93Alphabet, c ∉ code39Alphabet → c ∈ "()[]".toList := by decide

/-- C88. Every text that Standard 2 of 5 takes is taken by Code 11, and comes back from the Code 11 symbol. -/
theorem C88_stf_to_code11 (s : List Char) (hs : byteLen s < 2 ^ 32) (t : TF.TF) (h : TF.standard s = .ok t) :
    ∃ x ms, Code11.new s = .ok x ∧ Code11.encode x = .ok ms ∧ scanCode11 ms = some s := by
  obtain ⟨hd, h1, h2⟩ := (C24_stf_accepts s hs).1 ⟨t, h⟩
  obtain ⟨x, hx⟩ := (C19_code11_accepts s hs).2 ⟨h1, h2, fun c hc => digit_in_code11 c (hd c hc)⟩
  obtain ⟨ms, hm, hr⟩ := C20_code11_scan s x hx
  exact ⟨x, ms, hx, hm, hr⟩

example : ∃ t x ms, TF.standard "0042".toList = .ok t ∧ Code11.new "0042".toList = .ok x ∧ Code11.encode x = .ok ms ∧
    scanCode11 ms = some "0042".toList := ⟨_, _, _, rfl, rfl, rfl, by decide⟩

/-- C88. Every text that Code 11 takes is taken by Codabar and by Code 39, and comes back from both symbols. -/
theorem C88_code11_to_others (s : List Char) (hs : byteLen s < 2 ^ 32) (x : Code11.Code11) (h : Code11.new s = .ok x) :
    (∃ y, Codabar.new s = .ok y ∧ scanCodabar (Codabar.encode y) = some s) ∧
    ∃ z ms, Code39.new s = .ok z ∧ Code39.encode z = .ok ms ∧ scanCode39 ms = some s := by
  obtain ⟨h1, h2, hA⟩ := (C19_code11_accepts s hs).1 ⟨x, h⟩
  obtain ⟨y, hy⟩ := (C22_codabar_accepts s hs).2 ⟨h1, h2, fun c hc => (code11_in_codabar c (hA c hc)).1⟩
  obtain ⟨z, hz⟩ := (C13_code39_accepts s hs).1.2 ⟨h1, h2, fun c hc => code11_in_code39 c (hA c hc)⟩
  obtain ⟨ms, hm, hr⟩ := C14_code39_scan s z hz
  exact ⟨⟨y, hy, C23_codabar_scan_plain_partial s y hy (fun hc => (code11_in_codabar _ (hA _ hc)).2.1 rfl)
    (fun hc => (code11_in_codabar _ (hA _ hc)).2.2.1 rfl) (fun hc => (code11_in_codabar _ (hA _ hc)).2.2.2 rfl)⟩,
    z, ms, hz, hm, hr⟩

example : ∃ x y, Code11.new "12-3".toList = .ok x ∧ Codabar.new "12-3".toList = .ok y ∧
    scanCodabar (Codabar.encode y) = some "12-3".toList := ⟨_, _, rfl, rfl, by decide⟩

/-- C88. Every text that Code 39 takes is taken by Code 93, and by Code 128 after the letter that selects set B; it comes
back from both symbols. -/
theorem C88_code39_to_others (b : Build) (s : List Char) (hs : byteLen s < 2 ^ 32) (x : Code39.Code39)
    (h : Code39.new s = .ok x) :
    (∃ y ms, Code93.new s = .ok y ∧ Code93.encode y = .ok ms ∧ scanCode93 ms = some s) ∧
    ∃ z ms, Code128.new ('Ɓ' :: s) = .ok z ∧ Code128.encode b z = .ok ms ∧ receiveCode128 ms = some s := by
  obtain ⟨h1, h2, hA⟩ := (C13_code39_accepts s hs).1.1 ⟨x, h⟩
  obtain ⟨y, hy⟩ := (C16_code93_accepts s hs).2 ⟨h1, h2, fun c hc => code39_in_code93 c (hA c hc)⟩
  obtain ⟨ms, hm, hr⟩ := C17_code93_scan s y hy
  obtain ⟨z, ms', hz, he, hv, -⟩ := (C79_one_set b s (by omega)).1 (fun c hc => code39_printable c (hA c hc))
  exact ⟨⟨y, ms, hy, hm, hr⟩, z, ms', hz, he, hv⟩

example : ∃ x z ms, Code39.new "A-1".toList = .ok x ∧ Code128.new ('Ɓ' :: "A-1".toList) = .ok z ∧ Code128.encode .debug z = .ok ms ∧
    receiveCode128 ms = some "A-1".toList := ⟨_, _, _, rfl, rfl, rfl, by decide +kernel⟩

/-- C88. The way back: a text that Code 93 takes is taken by Code 39 unless it has one of `()[]` in it. -/
theorem C88_code93_to_code39 (s : List Char) (hs : byteLen s < 2 ^ 32) (x : Code93.Code93) (h : Code93.new s = .ok x) :
    (∃ y, Code39.new s = .ok y) ↔ ∀ c ∈ s, c ∉ "()[]".toList := by
  obtain ⟨h1, h2, hA⟩ := (C16_code93_accepts s hs).1 ⟨x, h⟩
  rw [(C13_code39_accepts s hs).1]
  constructor
  · intro ⟨_, _, h39⟩ c hc h4
    have := h39 c hc
    revert h4
    exact (by decide : ∀ c ∈ code39Alphabet, c ∉ "()[]".toList) c this
  · intro h4
    refine ⟨h1, h2, fun c hc => ?_⟩
    by_cases hn : c ∈ code39Alphabet
    · exact hn
    · exact absurd (code93_rest c (hA c hc) hn) (h4 c hc)

example : (Code93.new "A[1".toList).isOk = true ∧ Code39.new "A[1".toList = .err .character ∧ (Code93.new "A/1".toList).isOk = true ∧
    (Code39.new "A/1".toList).isOk = true := by decide

/-- C88. What the move costs: of the Code 39, Code 93 and Code 128 (set B) symbols of the same text, the Code 93 symbol is
shorter than the Code 39 one from four characters on, the Code 128 symbol from six on, and the Code 93 symbol is shorter
than the Code 128 one from two characters on. -/
theorem C88_shortest (b : Build) (s : List Char) (x : Code39.Code39) (y : Code93.Code93) (z : Code128.Code128)
    (ms39 ms93 ms128 : List Nat) (hs : byteLen s < 2 ^ 32)
    (hx : Code39.new s = .ok x) (ex : Code39.encode x = .ok ms39)
    (hy : Code93.new s = .ok y) (ey : Code93.encode y = .ok ms93)
    (hz : Code128.new ('Ɓ' :: s) = .ok z) (ez : Code128.encode b z = .ok ms128) :
    (ms93.length < ms39.length ↔ 4 ≤ s.length) ∧ (ms128.length < ms39.length ↔ 6 ≤ s.length) ∧
    (ms93.length < ms128.length ↔ 2 ≤ s.length) := by
  obtain ⟨h1, h2, hA⟩ := (C13_code39_accepts s hs).1.1 ⟨x, hx⟩
  have a := ((C32_code39_row s x ms39 ex).1 hx).length
  have c := (C32_code93_row s y ms93 hy ey).length
  obtain ⟨z', m', hz', ez', -, hl⟩ := (C79_one_set b s (by omega)).1 (fun c hc => code39_printable c (hA c hc))
  rw [hz] at hz'
  cases hz'
  rw [ez] at ez'
  cases ez'
  omega

example : TF.standard "0123".toList = .ok (.Standard [0, 1, 2, 3]) ∧ ∃ x ms, Code11.new "0123".toList = .ok x ∧
    Code11.encode x = .ok ms ∧ scanCode11 ms = some "0123".toList := ⟨by decide, _, _, rfl, rfl, by decide⟩
example : ∃ y, Codabar.new "12-34".toList = .ok y ∧ scanCodabar (Codabar.encode y) = some "12-34".toList := ⟨_, rfl, by decide⟩
example : ∃ y ms, Code93.new "A B/$1".toList = .ok y ∧ Code93.encode y = .ok ms ∧ scanCode93 ms = some "A B/$1".toList :=
  ⟨_, _, rfl, rfl, by decide +kernel⟩
example : ∃ z ms, Code128.new "ƁA B/$1".toList = .ok z ∧ Code128.encode .release z = .ok ms ∧
    receiveCode128 ms = some "A B/$1".toList := ⟨_, _, rfl, rfl, by decide +kernel⟩
example : (Code93.new "A(1)".toList).isOk = true ∧ Code39.new "A(1)".toList = .err .character := ⟨by decide, by decide⟩
example : encodingLength (Code39.new "ABCDEF".toList >>= Code39.encode) = 103 ∧
    encodingLength (Code93.new "ABCDEF".toList >>= Code93.encode) = 91 ∧
    encodingLength (Code128.new "ƁABCDEF".toList >>= Code128.encode .debug) = 101 :=
  ⟨by decide +kernel, by decide +kernel, by decide +kernel⟩

end Barcoders
