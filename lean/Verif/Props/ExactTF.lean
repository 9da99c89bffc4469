import Verif.Props.TF

/-!
# Interleaved 2 of 5, exactly as it is (C51)
-/

set_option autoImplicit false

namespace Barcoders
open Spec

/-- C51: even-length data is encoded as it is, in both builds. -/
theorem C51_itf_even (b : Build) (s : List Char) (hD : AllDigits s) (he : s.length % 2 = 0) (h1 : 1 ≤ s.length)
    (hl : s.length ≤ 256) :
    ∃ t ms, TF.interleaved b s = .ok t ∧ TF.encode t = .ok ms ∧ scanItf ms = some (digitsOf s) := by
  have hbl := digits_byteLen s hD
  have hn : TF.interleaved b s = .ok (.Interleaved (digitsOf s)) := by
    rw [C26_itf_new b s (by omega), if_neg (by omega), if_neg (not_not_intro hD), if_pos he]
  have hlen : (digitsOf s).length % 2 = 0 := by simpa [digitsOf] using he
  exact ⟨_, _, hn, itf_encode_eq _ (digits_lt s hD) hlen, scanItf_paint _ (digits_lt s hD) hlen⟩

example : ∃ t ms, TF.interleaved .debug "0042".toList = .ok t ∧ TF.encode t = .ok ms ∧ scanItf ms = some [0, 0, 4, 2] :=
  ⟨_, _, rfl, rfl, by decide⟩

/-- C51, odd-length data in debug builds: the GS1 digit is appended, or construction panics. -/
theorem C51_itf_odd_debug (s : List Char) (hD : AllDigits s) (ho : s.length % 2 = 1) (hl : s.length ≤ 256) :
    (altSum 3 (digitsOf s).reverse < 256 → ∃ t ms, TF.interleaved .debug s = .ok t ∧ TF.encode t = .ok ms ∧
      scanItf ms = some (digitsOf s ++ [gs1Digit (digitsOf s)])) ∧
    (256 ≤ altSum 3 (digitsOf s).reverse → TF.interleaved .debug s = .panic .overflow) := by
  constructor
  · intro hs
    obtain ⟨t, ms, h1, h2, h3, _⟩ := C26_itf_check_digit_partial .debug s hD ho hl hs
    exact ⟨t, ms, h1, h2, h3⟩
  · exact (C26_itf_debug_panic_iff s hD ho hl).mpr

example : altSum 3 (digitsOf "123".toList).reverse = 14 ∧ gs1Digit (digitsOf "123".toList) = 6 ∧
    256 ≤ altSum 3 (List.replicate 15 9) ∧ TF.interleaved .debug (List.replicate 15 '9') = .panic .overflow := by decide

/-- C51, odd-length data in release builds: the appended digit is the GS1 rule applied to the low eight bits of the sum. -/
theorem C51_itf_odd_release (s : List Char) (hD : AllDigits s) (ho : s.length % 2 = 1) (hl : s.length ≤ 256) :
    ∃ t ms, TF.interleaved .release s = .ok t ∧ TF.encode t = .ok ms ∧
      scanItf ms = some (digitsOf s ++ [(10 - altSum 3 (digitsOf s).reverse % 256 % 10) % 10]) := by
  have hbl := digits_byteLen s hD
  have hn := C26_itf_new .release s (by omega)
  rw [if_neg (by omega), if_neg (not_not_intro hD), if_neg (by omega)] at hn
  have hc' : TF.interleaved .release s =
      .ok (.Interleaved (digitsOf s ++ [(10 - altSum 3 (digitsOf s).reverse % 256 % 10) % 10])) := by
    rw [hn]
    by_cases h : altSum 3 (digitsOf s).reverse < 256
    · rw [if_pos h, gs1Digit, Nat.mod_eq_of_lt h]
    · rw [if_neg h]
  have hd : Digits (digitsOf s ++ [(10 - altSum 3 (digitsOf s).reverse % 256 % 10) % 10]) := by
    intro d hd
    simp only [List.mem_append, List.mem_singleton] at hd
    rcases hd with hd | rfl
    · exact digits_lt s hD d hd
    · omega
  have he : (digitsOf s ++ [(10 - altSum 3 (digitsOf s).reverse % 256 % 10) % 10]).length % 2 = 0 := by
    simp [digitsOf]; omega
  exact ⟨_, _, hc', itf_encode_eq _ hd he, scanItf_paint _ hd he⟩

-- fifteen nines: the sum 279 wraps to 23, and the digit added is 7 instead of 1
example : altSum 3 (List.replicate 15 9) % 256 = 23 ∧ gs1Digit (List.replicate 15 9) = 1 ∧
    ∃ t ms, TF.interleaved .release (List.replicate 15 '9') = .ok t ∧ TF.encode t = .ok ms ∧
      scanItf ms = some (List.replicate 15 9 ++ [7]) := ⟨by decide, by decide, _, _, rfl, rfl, by decide +kernel⟩

theorem altSum_append_zeros (w n : Nat) (l : List Nat) : altSum w (l ++ List.replicate n 0) = altSum w l := by
  have hz : ∀ n w, altSum w (List.replicate n 0) = 0 := by
    intro n
    induction n with
    | zero => intro w; rfl
    | succ n ih => intro w; rw [List.replicate_succ, altSum, ih]; omega
  induction l generalizing w with
  | nil => exact hz n w
  | cons a l ih => rw [List.cons_append, altSum, altSum, ih]

/-- C51: thirteen digits is the limit. For every odd length from 15 on there is data for which debug builds panic and release
builds append a wrong digit. (Up to 13 digits: `C26_itf_check_digit_upto13_partial`.) -/
theorem C51_itf_fails_from_15 (n : Nat) (ho : n % 2 = 1) (h15 : 15 ≤ n) (hl : n ≤ 256) :
    ∃ s, AllDigits s ∧ s.length = n ∧ TF.interleaved .debug s = .panic .overflow ∧
      ∃ t ms c, TF.interleaved .release s = .ok t ∧ TF.encode t = .ok ms ∧ scanItf ms = some (digitsOf s ++ [c]) ∧
        ¬ Gs1Valid (digitsOf s ++ [c]) := by
  refine ⟨List.replicate (n - 15) '0' ++ List.replicate 15 '9', ?_, by simp; omega, ?_⟩
  · intro c hc
    rw [List.mem_append, List.mem_replicate, List.mem_replicate] at hc
    rcases hc with ⟨_, rfl⟩ | ⟨_, rfl⟩ <;> decide
  have hD : AllDigits (List.replicate (n - 15) '0' ++ List.replicate 15 '9') := by
    intro c hc
    rw [List.mem_append, List.mem_replicate, List.mem_replicate] at hc
    rcases hc with ⟨_, rfl⟩ | ⟨_, rfl⟩ <;> decide
  have hlen : (List.replicate (n - 15) '0' ++ List.replicate 15 '9').length = n := by simp; omega
  have hdig : digitsOf (List.replicate (n - 15) '0' ++ List.replicate 15 '9') =
      List.replicate (n - 15) 0 ++ List.replicate 15 9 := by
    simp [digitsOf, digitValue]
  have hsum : altSum 3 (digitsOf (List.replicate (n - 15) '0' ++ List.replicate 15 '9')).reverse = 279 := by
    rw [hdig, List.reverse_append, List.reverse_replicate, List.reverse_replicate, altSum_append_zeros]
    decide
  refine ⟨(C51_itf_odd_debug _ hD (by omega) (by omega)).2 (by omega), ?_⟩
  obtain ⟨t, ms, h1, h2, h3⟩ := C51_itf_odd_release _ hD (by omega) (by omega)
  refine ⟨t, ms, _, h1, h2, h3, ?_⟩
  rw [hsum, gs1Valid_append _ _ (by decide), gs1Digit, hsum]
  decide

example : ∃ s : List Char, AllDigits s ∧ s.length % 2 = 1 ∧ s.length ≤ 256 ∧ 256 ≤ altSum 3 (digitsOf s).reverse :=
  ⟨List.replicate 17 '8', by decide⟩
example : ∃ t ms, TF.interleaved .release (List.replicate 17 '8') = .ok t ∧ TF.encode t = .ok ms ∧
    scanItf ms = some (List.replicate 17 8 ++ [6]) := ⟨_, _, rfl, rfl, by decide +kernel⟩

end Barcoders
