import Verif.Lemmas.TF

/-!
# Standard and Interleaved 2 of 5 (C24, C25, C26)
-/

set_option autoImplicit false

namespace Barcoders
open Spec

/-! ## C24: Standard 2 of 5 -/

/-- C24: `TF::standard` decided for every string shorter than 2^32 bytes. -/
theorem C24_stf_new (s : List Char) (hb : byteLen s < 2 ^ 32) :
    TF.standard s =
      if byteLen s < 1 ∨ byteLen s > 256 then .err .length
      else if ¬ AllDigits s then .err .character
      else .ok (.Standard (digitsOf s)) := by
  rw [stf_new, Nat.mod_eq_of_lt hb]

example : TF.standard "1234".toList = .ok (.Standard [1, 2, 3, 4]) ∧ TF.standard "12x".toList = .err .character ∧
    TF.standard "".toList = .err .length := by decide

/-- C24: it succeeds exactly for 1 to 256 ASCII digits. -/
theorem C24_stf_accepts (s : List Char) (hb : byteLen s < 2 ^ 32) :
    (∃ t, TF.standard s = .ok t) ↔ AllDigits s ∧ 1 ≤ s.length ∧ s.length ≤ 256 := by
  rw [C24_stf_new s hb]
  by_cases hD : AllDigits s
  · rw [digits_byteLen s hD, if_neg (not_not_intro hD)]
    split
    · simp; omega
    · simp [hD]; omega
  · split
    · simp [hD]
    · simp [hD]

example : AllDigits "0042".toList ∧ (TF.standard "0042".toList).isOk = true ∧ (TF.standard (List.replicate 257 '0')).isOk = false := by
  decide +kernel

theorem C24_stf_no_panic (s : List Char) : ¬ (TF.standard s).isPanic := by
  rw [stf_new]; split
  · simp [Outcome.isPanic]
  · split <;> simp [Outcome.isPanic]

example : (TF.standard (List.replicate 256 '9')).isOk = true := by decide +kernel

/-- C24: the symbol of every accepted string is read back as exactly its digits. -/
theorem C24_stf_scan (s : List Char) (t : TF.TF) (h : TF.standard s = .ok t) :
    ∃ ms, TF.encode t = .ok ms ∧ scanStf ms = some (digitsOf s) := by
  rw [stf_new] at h
  split at h
  · simp at h
  · split at h
    · simp at h
    · rename_i hD
      have hd := digits_lt s (by simpa using hD)
      simp only [Outcome.ok.injEq] at h
      subst h
      exact ⟨_, stf_encode_eq _ hd, scanStf_paint _ hd⟩

example : ∃ t ms, TF.standard "1234567".toList = .ok t ∧ TF.encode t = .ok ms ∧ scanStf ms = some [1, 2, 3, 4, 5, 6, 7] :=
  ⟨_, _, rfl, rfl, by decide⟩
example : TF.standard [] = .err .length := by decide
example : TF.standard "1234er".toList = .err .character := by decide

/-! ## C25: Interleaved 2 of 5 -/

/-- C25: in both builds, whenever `TF::interleaved` succeeds, the symbol is read back as the digits of the string, followed
by one further digit exactly when their number is odd. -/
theorem C25_itf_scan (b : Build) (s : List Char) (t : TF.TF) (h : TF.interleaved b s = .ok t) :
    ∃ ms ds, TF.encode t = .ok ms ∧ scanItf ms = some ds ∧
      ((s.length % 2 = 0 ∧ ds = digitsOf s) ∨ (s.length % 2 = 1 ∧ ∃ c < 10, ds = digitsOf s ++ [c])) := by
  have hl : (digitsOf s).length = s.length := by simp [digitsOf]
  have key : ∀ c < 10, AllDigits s → s.length % 2 = 1 →
      TF.encode (.Interleaved (digitsOf s ++ [c])) = .ok (paint (itfWidths (digitsOf s ++ [c]))) ∧
      scanItf (paint (itfWidths (digitsOf s ++ [c]))) = some (digitsOf s ++ [c]) := by
    intro c hc hD ho
    have hd : Digits (digitsOf s ++ [c]) := by
      intro d hd
      simp only [List.mem_append, List.mem_singleton] at hd
      rcases hd with hd | rfl
      · exact digits_lt s hD d hd
      · exact hc
    have he : (digitsOf s ++ [c]).length % 2 = 0 := by
      rw [List.length_append, hl, List.length_singleton]; omega
    exact ⟨itf_encode_eq _ hd he, scanItf_paint _ hd he⟩
  rw [itf_new] at h
  split at h
  · simp at h
  split at h
  · simp at h
  rename_i hD
  have hD : AllDigits s := by simpa using hD
  split at h
  · rename_i he
    simp only [Outcome.ok.injEq] at h
    subst h
    have he' : (digitsOf s).length % 2 = 0 := by omega
    exact ⟨_, _, itf_encode_eq _ (digits_lt s hD) he', scanItf_paint _ (digits_lt s hD) he', Or.inl ⟨he, rfl⟩⟩
  rename_i he
  have ho : s.length % 2 = 1 := by omega
  split at h
  · simp only [Outcome.ok.injEq] at h
    subst h
    have := key _ (gs1Digit_lt (digitsOf s)) hD ho
    exact ⟨_, _, this.1, this.2, Or.inr ⟨ho, _, gs1Digit_lt _, rfl⟩⟩
  · cases b with
    | debug => simp at h
    | release =>
      simp only [Outcome.ok.injEq] at h
      subst h
      have hlt : (10 - altSum 3 (digitsOf s).reverse % 256 % 10) % 10 < 10 := Nat.mod_lt _ (by omega)
      have := key _ hlt hD ho
      exact ⟨_, _, this.1, this.2, Or.inr ⟨ho, _, hlt, rfl⟩⟩

example : ∃ t ms, TF.interleaved .debug "1234567".toList = .ok t ∧ TF.encode t = .ok ms ∧
    scanItf ms = some [1, 2, 3, 4, 5, 6, 7, 0] := ⟨_, _, rfl, rfl, by decide⟩
example : ∃ t ms, TF.interleaved .debug "123456".toList = .ok t ∧ TF.encode t = .ok ms ∧
    scanItf ms = some [1, 2, 3, 4, 5, 6] := ⟨_, _, rfl, rfl, by decide⟩

/-! ## C26: the check digit of odd-length data -/

/-- C26, complete description: `TF::interleaved` on every string shorter than 2^32 bytes. The weighted sum is the one of the
GS1 rule (weights 3, 1, 3, … from the right). -/
theorem C26_itf_new (b : Build) (s : List Char) (hb : byteLen s < 2 ^ 32) :
    TF.interleaved b s =
      if byteLen s < 1 ∨ byteLen s > 256 then .err .length
      else if ¬ AllDigits s then .err .character
      else if s.length % 2 = 0 then .ok (.Interleaved (digitsOf s))
      else if altSum 3 (digitsOf s).reverse < 256 then .ok (.Interleaved (digitsOf s ++ [gs1Digit (digitsOf s)]))
      else match b with
        | .debug => .panic .overflow
        | .release => .ok (.Interleaved (digitsOf s ++ [(10 - altSum 3 (digitsOf s).reverse % 256 % 10) % 10])) := by
  rw [itf_new, Nat.mod_eq_of_lt hb]
  cases b <;> rfl

example : TF.interleaved .debug "123".toList = .ok (.Interleaved [1, 2, 3, 6]) ∧
    TF.interleaved .debug "1234".toList = .ok (.Interleaved [1, 2, 3, 4]) ∧ TF.interleaved .debug "1x".toList = .err .character := by
  decide

/-- Full C26 claims: for every odd-length digit string of at most 256 digits, construction does not panic and the scanner
reads the digits followed by the GS1 check digit. Proved here for weighted sums below 256; missing are larger sums, where
the claim is false (`C26_itf_debug_panics`, `C26_itf_release_wrong_digit`). -/
theorem C26_itf_check_digit_partial (b : Build) (s : List Char) (hD : AllDigits s) (ho : s.length % 2 = 1)
    (hl : s.length ≤ 256) (hs : altSum 3 (digitsOf s).reverse < 256) :
    ∃ t ms, TF.interleaved b s = .ok t ∧ TF.encode t = .ok ms ∧
      scanItf ms = some (digitsOf s ++ [gs1Digit (digitsOf s)]) ∧ Gs1Valid (digitsOf s ++ [gs1Digit (digitsOf s)]) := by
  have hbl := digits_byteLen s hD
  have hn : TF.interleaved b s = .ok (.Interleaved (digitsOf s ++ [gs1Digit (digitsOf s)])) := by
    rw [C26_itf_new b s (by omega), if_neg (by omega), if_neg (not_not_intro hD), if_neg (by omega), if_pos hs]
  have hd : Digits (digitsOf s ++ [gs1Digit (digitsOf s)]) := by
    intro d hd
    simp only [List.mem_append, List.mem_singleton] at hd
    rcases hd with hd | rfl
    · exact digits_lt s hD d hd
    · exact gs1Digit_lt _
  have he : (digitsOf s ++ [gs1Digit (digitsOf s)]).length % 2 = 0 := by
    simp [digitsOf]; omega
  exact ⟨_, _, hn, itf_encode_eq _ hd he, scanItf_paint _ hd he, (gs1Valid_append _ _ (gs1Digit_lt _)).mpr rfl⟩

example : ∃ t ms, TF.interleaved .debug "0750103131130".toList = .ok t ∧ TF.encode t = .ok ms ∧
    scanItf ms = some [0, 7, 5, 0, 1, 0, 3, 1, 3, 1, 1, 3, 0, 9] := ⟨_, _, rfl, rfl, by decide +kernel⟩

theorem altSum_le (l : List Nat) (h : Digits l) :
    altSum 3 l ≤ 18 * l.length + 9 ∧ altSum 1 l ≤ 18 * l.length := by
  induction l with
  | nil => simp [altSum]
  | cons a l ih =>
    have ha := h a (by simp)
    have := ih (fun d hd => h d (by simp [hd]))
    simp only [altSum, List.length_cons, Nat.reduceSub]
    constructor <;> omega

/-- C26 for the usual sizes: up to thirteen digits (ITF-14 and shorter) there is no side condition. -/
theorem C26_itf_check_digit_upto13_partial (b : Build) (s : List Char) (hD : AllDigits s) (ho : s.length % 2 = 1)
    (hl : s.length ≤ 13) :
    ∃ t ms, TF.interleaved b s = .ok t ∧ TF.encode t = .ok ms ∧
      scanItf ms = some (digitsOf s ++ [gs1Digit (digitsOf s)]) ∧ Gs1Valid (digitsOf s ++ [gs1Digit (digitsOf s)]) := by
  apply C26_itf_check_digit_partial b s hD ho (by omega)
  have hd := digits_lt s hD
  have hlen : (digitsOf s).length = s.length := by simp [digitsOf]
  have hr : Digits (digitsOf s).reverse := fun d h => hd d (by simpa using h)
  have := (altSum_le _ hr).1
  rw [List.length_reverse] at this
  omega

example : ∃ t ms, TF.interleaved .debug "1234567890123".toList = .ok t ∧ TF.encode t = .ok ms ∧
    scanItf ms = some [1, 2, 3, 4, 5, 6, 7, 8, 9, 0, 1, 2, 3, 1] := ⟨_, _, rfl, rfl, by decide +kernel⟩

/-- C26, when it fails in debug builds: construction panics exactly when the weighted sum reaches 256. -/
theorem C26_itf_debug_panic_iff (s : List Char) (hD : AllDigits s) (ho : s.length % 2 = 1) (hl : s.length ≤ 256) :
    TF.interleaved .debug s = .panic .overflow ↔ 256 ≤ altSum 3 (digitsOf s).reverse := by
  have hbl := digits_byteLen s hD
  rw [C26_itf_new .debug s (by omega), if_neg (by omega), if_neg (not_not_intro hD), if_neg (by omega)]
  by_cases h : altSum 3 (digitsOf s).reverse < 256
  · rw [if_pos h]; simp; omega
  · rw [if_neg h]; simp; omega

example : altSum 3 (digitsOf (List.replicate 15 '9')).reverse = 279 ∧ altSum 3 (digitsOf (List.replicate 13 '9')).reverse = 243 ∧
    (TF.interleaved .debug (List.replicate 13 '9')).isOk = true := by decide

/-- C26, when it fails in release builds: the appended digit is the GS1 digit exactly when the number of times the sum
wrapped around is a multiple of five. -/
theorem C26_itf_release_digit_iff (s : List Char) (hD : AllDigits s) (ho : s.length % 2 = 1) (hl : s.length ≤ 256) :
    ∃ t ms c, TF.interleaved .release s = .ok t ∧ TF.encode t = .ok ms ∧ scanItf ms = some (digitsOf s ++ [c]) ∧
      (c = gs1Digit (digitsOf s) ↔ (altSum 3 (digitsOf s).reverse / 256) % 5 = 0) := by
  have hbl := digits_byteLen s hD
  have hn := C26_itf_new .release s (by omega)
  rw [if_neg (by omega), if_neg (not_not_intro hD), if_neg (by omega)] at hn
  generalize hc : (10 - altSum 3 (digitsOf s).reverse % 256 % 10) % 10 = c at hn
  have hc' : TF.interleaved .release s = .ok (.Interleaved (digitsOf s ++ [c])) := by
    rw [hn]
    by_cases h : altSum 3 (digitsOf s).reverse < 256
    · rw [if_pos h, ← hc, gs1Digit, Nat.mod_eq_of_lt h]
    · rw [if_neg h]
  have hc10 : c < 10 := by omega
  have hd : Digits (digitsOf s ++ [c]) := by
    intro d hd
    simp only [List.mem_append, List.mem_singleton] at hd
    rcases hd with hd | rfl
    · exact digits_lt s hD d hd
    · exact hc10
  have he : (digitsOf s ++ [c]).length % 2 = 0 := by
    simp [digitsOf]; omega
  refine ⟨_, _, c, hc', itf_encode_eq _ hd he, scanItf_paint _ hd he, ?_⟩
  rw [← hc, gs1Digit]
  omega

-- the sum 279 of fifteen nines wraps once, so the digit is wrong
example : (altSum 3 (List.replicate 15 9) / 256) % 5 = 1 ∧ gs1Digit (List.replicate 15 9) = 1 ∧
    TF.interleaved .release (List.replicate 15 '9') = .ok (.Interleaved (List.replicate 15 9 ++ [7])) := by decide

/-- C26 is false in debug builds: fifteen nines. -/
theorem C26_itf_debug_panics :
    TF.interleaved .debug (List.replicate 15 '9') = .panic .overflow := by decide

/-- C26 is false in release builds: for fifteen nines the appended digit is 7, the GS1 digit is 1. -/
theorem C26_itf_release_wrong_digit :
    TF.interleaved .release (List.replicate 15 '9') = .ok (.Interleaved (List.replicate 15 9 ++ [7])) ∧
      gs1Digit (List.replicate 15 9) = 1 ∧ ¬ Gs1Valid (List.replicate 15 9 ++ [7]) := by decide

example : ∃ s : List Char, AllDigits s ∧ s.length % 2 = 1 ∧ s.length ≤ 13 ∧ altSum 3 (digitsOf s).reverse < 256 :=
  ⟨"1234567890123".toList, by decide⟩

end Barcoders
