import Verif.Lemmas.CheckedNew
import Verif.Lemmas.Gs1

/-!
# EAN-13, EAN-8 and UPC-A (C01-C10)
-/

set_option autoImplicit false

namespace Barcoders
open Spec

/-! ## Constructors -/

/-- C01. The complete behaviour of `EAN13::new` on strings below 4 GiB. -/
theorem C01_ean13_new (b : Build) (s : List Char) (hs : byteLen s < 2 ^ 32) :
    Ean13.new b s =
      if byteLen s ≠ 12 ∧ byteLen s ≠ 13 then .err .length
      else if ¬ AllDigits s then .err .character
      else if s.length = 13 ∧ ¬ Gs1Valid (digitsOf s) then .err .checksum
      else .ok ⟨(digitsOf s).take 12⟩ := by
  rw [ean13_new, Nat.mod_eq_of_lt hs]

example : AllDigits "7501031311309".toList ∧ Gs1Valid (digitsOf "7501031311309".toList) ∧
    ¬ Gs1Valid (digitsOf "7501031311308".toList) := by decide

/-- The strings a checked number symbology with `n` data digits must accept. -/
def AcceptedNumber (n : Nat) (s : List Char) : Prop :=
  AllDigits s ∧ (s.length = n ∨ s.length = n + 1 ∧ Gs1Valid (digitsOf s))

theorem accepted_iff {T : Type} (mk : List Nat → T) (n : Nat) (s : List Char) (hs : byteLen s < 2 ^ 32) (o : Outcome T)
    (h : o = if byteLen s % 2 ^ 32 ≠ n ∧ byteLen s % 2 ^ 32 ≠ n + 1 then Outcome.err Error.length
      else if ¬ AllDigits s then .err .character
      else if s.length = n + 1 ∧ ¬ Gs1Valid (digitsOf s) then .err .checksum
      else .ok (mk ((digitsOf s).take n))) : (∃ x, o = .ok x) ↔ AcceptedNumber n s := by
  constructor
  · rintro ⟨x, hx⟩
    rw [h] at hx
    have hL : byteLen s = n ∨ byteLen s = n + 1 := by
      rw [Nat.mod_eq_of_lt hs] at hx
      split at hx
      · cases hx
      · omega
    obtain ⟨-, hD, -, -, hv⟩ := decision_ok mk n s x hx
    rw [digits_byteLen s hD] at hL
    refine ⟨hD, ?_⟩
    rcases hL with hL | hL
    · exact Or.inl hL
    · exact Or.inr ⟨hL, hv hL⟩
  · rintro ⟨hD, hl⟩
    refine ⟨mk ((digitsOf s).take n), ?_⟩
    rw [h, Nat.mod_eq_of_lt hs, digits_byteLen s hD, if_neg (show ¬ (s.length ≠ n ∧ s.length ≠ n + 1) by omega),
      if_neg (not_not_intro hD), if_neg]
    rintro ⟨h13, hg⟩
    rcases hl with hl | hl
    · omega
    · exact hg hl.2

/-- C01. `EAN13::new` accepts exactly 12 digits, or 13 digits with a right check digit. -/
theorem C01_ean13_accepts (b : Build) (s : List Char) (hs : byteLen s < 2 ^ 32) :
    (∃ x, Ean13.new b s = .ok x) ↔ AcceptedNumber 12 s :=
  accepted_iff Ean13.EAN13.mk 12 s hs _ (ean13_new b s)

example : AcceptedNumber 12 "7501031311309".toList ∧ ¬ AcceptedNumber 12 "7501031311308".toList := by
  unfold AcceptedNumber; decide

/-- C01. `EAN13::new` never panics, whatever the length. -/
theorem C01_ean13_new_no_panic (b : Build) (s : List Char) : (Ean13.new b s).isPanic = false := by
  rw [ean13_new]
  split
  · rfl
  · split
    · rfl
    · split <;> rfl

example : Ean13.new .debug "750103131130".toList = .ok ⟨[7, 5, 0, 1, 0, 3, 1, 3, 1, 1, 3, 0]⟩ := by decide
example : Ean13.new .release "7501031311309".toList = .ok ⟨[7, 5, 0, 1, 0, 3, 1, 3, 1, 1, 3, 0]⟩ := by decide
example : Ean13.new .debug "7501031311308".toList = .err .checksum := by decide
example : Ean13.new .debug "75010313113é".toList = .err .character := by decide
example : Ean13.new .debug "75010313113".toList = .err .length := by decide
example : byteLen "750103131130".toList < 2 ^ 32 := by decide

/-- C06. The complete behaviour of `EAN8::new` on strings below 4 GiB. -/
theorem C06_ean8_new (b : Build) (s : List Char) (hs : byteLen s < 2 ^ 32) :
    Ean8.new b s =
      if byteLen s ≠ 7 ∧ byteLen s ≠ 8 then .err .length
      else if ¬ AllDigits s then .err .character
      else if s.length = 8 ∧ ¬ Gs1Valid (digitsOf s) then .err .checksum
      else .ok ⟨(digitsOf s).take 7⟩ := by
  rw [ean8_new, Nat.mod_eq_of_lt hs]

example : Ean8.new .release "551234éé".toList = .err .length ∧ Ean8.new .release "55123é".toList = .err .character := by decide

/-- C06. `EAN8::new` accepts exactly 7 digits, or 8 digits with a right check digit. -/
theorem C06_ean8_accepts (b : Build) (s : List Char) (hs : byteLen s < 2 ^ 32) :
    (∃ x, Ean8.new b s = .ok x) ↔ AcceptedNumber 7 s :=
  accepted_iff Ean8.EAN8.mk 7 s hs _ (ean8_new b s)

example : AcceptedNumber 7 "55123457".toList ∧ ¬ AcceptedNumber 7 "551234".toList := by unfold AcceptedNumber; decide

/-- C06. `EAN8::new` never panics, whatever the length. -/
theorem C06_ean8_new_no_panic (b : Build) (s : List Char) : (Ean8.new b s).isPanic = false := by
  rw [ean8_new]
  split
  · rfl
  · split
    · rfl
    · split <;> rfl

example : Ean8.new .debug "5512345".toList = .ok ⟨[5, 5, 1, 2, 3, 4, 5]⟩ := by decide
example : Ean8.new .debug "55123457".toList = .ok ⟨[5, 5, 1, 2, 3, 4, 5]⟩ := by decide
example : Ean8.new .debug "55123456".toList = .err .checksum := by decide

/-- C08. The complete behaviour of `UPCA::new` on strings below 4 GiB. -/
theorem C08_upca_new (b : Build) (s : List Char) (hs : byteLen s < 2 ^ 32) :
    Upca.new b s =
      if byteLen s ≠ 11 ∧ byteLen s ≠ 12 then .err .length
      else if ¬ AllDigits s then .err .character
      else if s.length = 12 ∧ ¬ Gs1Valid (digitsOf s) then .err .checksum
      else .ok ⟨(digitsOf s).take 11⟩ := by
  rw [upca_new, Nat.mod_eq_of_lt hs]

example : Upca.new .release "6123456789".toList = .err .length ∧ Upca.new .release "6123456789x".toList = .err .character := by decide

/-- C08. `UPCA::new` accepts exactly 11 digits, or 12 digits with a right check digit. -/
theorem C08_upca_accepts (b : Build) (s : List Char) (hs : byteLen s < 2 ^ 32) :
    (∃ x, Upca.new b s = .ok x) ↔ AcceptedNumber 11 s :=
  accepted_iff Upca.UPCA.mk 11 s hs _ (upca_new b s)

example : AcceptedNumber 11 "612345678907".toList ∧ ¬ AcceptedNumber 11 "612345678901".toList := by unfold AcceptedNumber; decide

/-- C08. `UPCA::new` never panics, whatever the length. -/
theorem C08_upca_new_no_panic (b : Build) (s : List Char) : (Upca.new b s).isPanic = false := by
  rw [upca_new]
  split
  · rfl
  · split
    · rfl
    · split <;> rfl

example : Upca.new .debug "61234567890".toList = .ok ⟨[6, 1, 2, 3, 4, 5, 6, 7, 8, 9, 0]⟩ := by decide
example : Upca.new .debug "612345678907".toList = .ok ⟨[6, 1, 2, 3, 4, 5, 6, 7, 8, 9, 0]⟩ := by decide
example : Upca.new .debug "612345678901".toList = .err .checksum := by decide

/-! ## Scanning back -/

/-- Encoding twelve digits: the symbol, and what the scanner reads. -/
theorem ean13_encode_scan (b : Build) (ds : List Nat) (hl : ds.length = 12) (hd : Digits ds) :
    ∃ bits, Ean13.encode b ⟨ds⟩ = .ok bits ∧ scanEan13 bits = some (ds ++ [gs1Digit ds]) := by
  obtain ⟨d0, d1, ls, rs, rfl, hll, hlr⟩ := split12 ds hl
  refine ⟨_, ean13_encode_eq b d0 d1 ls rs hll hlr hd, ?_⟩
  have hc := gs1Digit_lt (d0 :: d1 :: (ls ++ rs))
  have hv := (gs1Valid_append _ _ hc).mpr rfl
  rw [scanEan13_paint d0 (d1 :: ls) _ (digits_head hd)
    (digits_append (digits_single (digits_head (digits_tail hd))) (digits_left (digits_tail (digits_tail hd))))
    (digits_append (digits_right (digits_tail (digits_tail hd))) (digits_single hc)) (by simp [hll]) (by simp [hlr])]
  · simp
  · simpa using hv

/-- C02. The scanner reads the thirteen digits back from every accepted string, in both builds. -/
theorem C02_ean13_scan (b : Build) (s : List Char) (x : Ean13.EAN13) (h : Ean13.new b s = .ok x) :
    ∃ bits, Ean13.encode b x = .ok bits ∧
      scanEan13 bits = some ((digitsOf s).take 12 ++ [gs1Digit ((digitsOf s).take 12)]) := by
  rw [ean13_new] at h
  obtain ⟨rfl, hD, -, hl, -⟩ := decision_ok Ean13.EAN13.mk 12 s x h
  exact ean13_encode_scan b _ hl (digits_take _ _ (digits_lt s hD))

example : ∃ x bits, Ean13.new .debug "750103131130".toList = .ok x ∧ Ean13.encode .debug x = .ok bits ∧
    scanEan13 bits = some [7, 5, 0, 1, 0, 3, 1, 3, 1, 1, 3, 0, 9] := ⟨_, _, rfl, rfl, by decide +kernel⟩

/-- Encoding seven digits: the symbol, and what the scanner reads. -/
theorem ean8_encode_scan (b : Build) (ds : List Nat) (hl : ds.length = 7) (hd : Digits ds) :
    ∃ bits, Ean8.encode b ⟨ds⟩ = .ok bits ∧ scanEan8 bits = some (ds ++ [gs1Digit ds]) := by
  obtain ⟨ns, ls, rs, rfl, hn, hll, hlr⟩ := split7 ds hl
  refine ⟨_, ean8_encode_eq b ns ls rs hn hll hlr hd, ?_⟩
  have hc := gs1Digit_lt (ns ++ (ls ++ rs))
  have hv := (gs1Valid_append _ _ hc).mpr rfl
  have h1 : Digits (ns ++ ls) := digits_append (digits_left hd) (digits_left (digits_right hd))
  have h2 : Digits (rs ++ [gs1Digit (ns ++ (ls ++ rs))]) :=
    digits_append (digits_right (digits_right hd)) (digits_single hc)
  rw [scanEan8, elements_halves _ _ h1 h2, Option.bind_some, readHalves_widths 4 _ _ h1 h2 (by simp [hn, hll])
    (by simp [hlr]), if_pos]
  · simp
  · simpa using hv

/-- C07. The scanner reads the eight digits back from every accepted string, in both builds. -/
theorem C07_ean8_scan (b : Build) (s : List Char) (x : Ean8.EAN8) (h : Ean8.new b s = .ok x) :
    ∃ bits, Ean8.encode b x = .ok bits ∧
      scanEan8 bits = some ((digitsOf s).take 7 ++ [gs1Digit ((digitsOf s).take 7)]) := by
  rw [ean8_new] at h
  obtain ⟨rfl, hD, -, hl, -⟩ := decision_ok Ean8.EAN8.mk 7 s x h
  exact ean8_encode_scan b _ hl (digits_take _ _ (digits_lt s hD))

example : ∃ x bits, Ean8.new .debug "5512345".toList = .ok x ∧ Ean8.encode .debug x = .ok bits ∧
    scanEan8 bits = some [5, 5, 1, 2, 3, 4, 5, 7] := ⟨_, _, rfl, rfl, by decide +kernel⟩

/-- Encoding eleven digits: the symbol, and what the scanner reads. -/
theorem upca_encode_scan (b : Build) (ds : List Nat) (hl : ds.length = 11) (hd : Digits ds) :
    ∃ bits, Upca.encode b ⟨ds⟩ = .ok bits ∧ scanUpca bits = some (ds ++ [gs1Digit ds]) := by
  obtain ⟨ls, rs, rfl, hll, hlr⟩ := split11 ds hl
  refine ⟨_, upca_encode_eq b ls rs hll hlr hd, ?_⟩
  have hc := gs1Digit_lt (ls ++ rs)
  have hv := (gs1Valid_append _ _ hc).mpr rfl
  have h1 : Digits ls := digits_left hd
  have h2 : Digits (rs ++ [gs1Digit (ls ++ rs)]) := digits_append (digits_right hd) (digits_single hc)
  rw [scanUpca, elements_halves _ _ h1 h2, Option.bind_some, readHalves_widths 6 _ _ h1 h2 hll (by simp [hlr]), if_pos]
  · simp
  · simpa using hv

/-- C09. The scanner reads the twelve digits back from every accepted string, in both builds. -/
theorem C09_upca_scan (b : Build) (s : List Char) (x : Upca.UPCA) (h : Upca.new b s = .ok x) :
    ∃ bits, Upca.encode b x = .ok bits ∧
      scanUpca bits = some ((digitsOf s).take 11 ++ [gs1Digit ((digitsOf s).take 11)]) := by
  rw [upca_new] at h
  obtain ⟨rfl, hD, -, hl, -⟩ := decision_ok Upca.UPCA.mk 11 s x h
  exact upca_encode_scan b _ hl (digits_take _ _ (digits_lt s hD))

example : Ean13.new .release "7501031311309".toList = .ok ⟨(digitsOf "7501031311309".toList).take 12⟩ ∧
    (digitsOf "7501031311309".toList).take 12 ++ [gs1Digit ((digitsOf "7501031311309".toList).take 12)] =
      [7, 5, 0, 1, 0, 3, 1, 3, 1, 1, 3, 0, 9] := by decide

/-! ## The check digit may be supplied or not -/

/-- The character of a digit. -/
def digitChar (d : Nat) : Char := Char.ofNat (48 + d)

theorem digitChar_spec : ∀ d < 10, (digitChar d).isDigit = true ∧ digitValue (digitChar d) = d := by decide

theorem append_check {T : Type} (mk : List Nat → T) (f : List Char → Outcome T) (n : Nat) (hn : n < 100)
    (hf : ∀ s, f s = if byteLen s % 2 ^ 32 ≠ n ∧ byteLen s % 2 ^ 32 ≠ n + 1 then Outcome.err Error.length
      else if ¬ AllDigits s then .err .character
      else if s.length = n + 1 ∧ ¬ Gs1Valid (digitsOf s) then .err .checksum
      else .ok (mk ((digitsOf s).take n))) (s : List Char) (hD : AllDigits s) (hl : s.length = n) :
    f (s ++ [digitChar (gs1Digit (digitsOf s))]) = f s ∧ (∃ x, f s = .ok x) := by
  have hc := digitChar_spec _ (gs1Digit_lt (digitsOf s))
  have hD' : AllDigits (s ++ [digitChar (gs1Digit (digitsOf s))]) := by
    intro c h
    rcases List.mem_append.mp h with h | h
    · exact hD c h
    · rw [List.mem_singleton] at h; rw [h]; exact hc.1
  have hds : digitsOf (s ++ [digitChar (gs1Digit (digitsOf s))]) = digitsOf s ++ [gs1Digit (digitsOf s)] := by
    have := hc.2
    simp only [digitsOf, List.map_append, List.map_cons, List.map_nil] at this ⊢
    rw [this]
  have hlen : (digitsOf s).length = n := by simp [digitsOf, hl]
  have hb : ¬ ((s ++ [digitChar (gs1Digit (digitsOf s))]).length % 2 ^ 32 ≠ n ∧
      (s ++ [digitChar (gs1Digit (digitsOf s))]).length % 2 ^ 32 ≠ n + 1) := by
    simp only [List.length_append, List.length_singleton, hl]; omega
  have hb' : ¬ (s.length % 2 ^ 32 ≠ n ∧ s.length % 2 ^ 32 ≠ n + 1) := by omega
  have e1 : f s = .ok (mk (digitsOf s)) := by
    rw [hf, digits_byteLen s hD, if_neg hb', if_neg (not_not_intro hD), if_neg (by omega),
      List.take_of_length_le (by omega)]
  have e2 : f (s ++ [digitChar (gs1Digit (digitsOf s))]) = .ok (mk (digitsOf s)) := by
    rw [hf, digits_byteLen _ hD', if_neg hb, if_neg (not_not_intro hD'), if_neg, hds, List.take_left' hlen]
    rintro ⟨-, hg⟩
    rw [hds] at hg
    exact hg ((gs1Valid_append _ _ (gs1Digit_lt _)).mpr rfl)
  exact ⟨by rw [e1, e2], _, e1⟩

/-- C03. Appending the right check digit gives the same EAN-13 (hence the same symbol). -/
theorem C03_ean13_check_optional (b : Build) (s : List Char) (hD : AllDigits s) (hl : s.length = 12) :
    Ean13.new b (s ++ [digitChar (gs1Digit (digitsOf s))]) = Ean13.new b s ∧ (∃ x, Ean13.new b s = .ok x) :=
  append_check Ean13.EAN13.mk (Ean13.new b) 12 (by omega) (ean13_new b) s hD hl

example : Ean13.new .debug ("750103131130".toList ++ ['9']) = Ean13.new .debug "750103131130".toList := by decide

/-- C03. Appending the right check digit gives the same EAN-8. -/
theorem C03_ean8_check_optional (b : Build) (s : List Char) (hD : AllDigits s) (hl : s.length = 7) :
    Ean8.new b (s ++ [digitChar (gs1Digit (digitsOf s))]) = Ean8.new b s ∧ (∃ x, Ean8.new b s = .ok x) :=
  append_check Ean8.EAN8.mk (Ean8.new b) 7 (by omega) (ean8_new b) s hD hl

example : AllDigits "5512345".toList ∧ digitChar (gs1Digit (digitsOf "5512345".toList)) = '7' ∧
    Ean8.new .debug "55123457".toList = Ean8.new .debug "5512345".toList := by decide

/-- C03. Appending the right check digit gives the same UPC-A. -/
theorem C03_upca_check_optional (b : Build) (s : List Char) (hD : AllDigits s) (hl : s.length = 11) :
    Upca.new b (s ++ [digitChar (gs1Digit (digitsOf s))]) = Upca.new b s ∧ (∃ x, Upca.new b s = .ok x) :=
  append_check Upca.UPCA.mk (Upca.new b) 11 (by omega) (upca_new b) s hD hl

example : AllDigits "750103131130".toList ∧ digitChar (gs1Digit (digitsOf "750103131130".toList)) = '9' := by decide

/-! ## Errors in a full-length number -/

theorem single_error {T : Type} (mk : List Nat → T) (f : List Char → Outcome T) (n : Nat) (hn : n < 100)
    (hf : ∀ s, f s = if byteLen s % 2 ^ 32 ≠ n ∧ byteLen s % 2 ^ 32 ≠ n + 1 then Outcome.err Error.length
      else if ¬ AllDigits s then .err .character
      else if s.length = n + 1 ∧ ¬ Gs1Valid (digitsOf s) then .err .checksum
      else .ok (mk ((digitsOf s).take n))) (p q : List Char) (a c : Char) (x : T)
    (hl : (p ++ a :: q).length = n + 1) (h : f (p ++ a :: q) = .ok x) (hc : c.isDigit = true) (hne : c ≠ a) :
    f (p ++ c :: q) = .err .checksum := by
  rw [hf] at h
  obtain ⟨-, hD, -, -, hv⟩ := decision_ok mk n _ x h
  have hv := hv hl
  have hD' : AllDigits (p ++ c :: q) := by
    intro y hy
    simp only [List.mem_append, List.mem_cons] at hy
    rcases hy with hy | hy | hy
    · exact hD y (by simp [hy])
    · rw [hy]; exact hc
    · exact hD y (by simp [hy])
  have hl' : (p ++ c :: q).length = n + 1 := by simpa using hl
  rw [hf, digits_byteLen _ hD', hl', if_neg (show ¬ ((n + 1) % 2 ^ 32 ≠ n ∧ (n + 1) % 2 ^ 32 ≠ n + 1) by omega),
    if_neg (not_not_intro hD'), if_pos]
  refine ⟨rfl, ?_⟩
  intro hv'
  have ha := (toNat_isDigit a).mp (hD a (by simp))
  have hc' := (toNat_isDigit c).mp hc
  have e1 : digitsOf (p ++ a :: q) = digitsOf p ++ digitValue a :: digitsOf q := by simp [digitsOf]
  have e2 : digitsOf (p ++ c :: q) = digitsOf p ++ digitValue c :: digitsOf q := by simp [digitsOf]
  rw [e1] at hv
  rw [e2] at hv'
  have z : '0'.toNat = 48 := rfl
  have := gs1Valid_replace _ _ _ _ (by unfold digitValue; omega) (by unfold digitValue; omega) hv hv'
  apply hne
  apply char_eq_of_toNat
  unfold digitValue at this
  omega

/-- C04. Every single-digit error in an accepted 13-digit number is rejected. -/
theorem C04_ean13_single_error (b : Build) (p q : List Char) (a c : Char) (x : Ean13.EAN13)
    (hl : (p ++ a :: q).length = 13) (h : Ean13.new b (p ++ a :: q) = .ok x) (hc : c.isDigit = true) (hne : c ≠ a) :
    Ean13.new b (p ++ c :: q) = .err .checksum :=
  single_error Ean13.EAN13.mk (Ean13.new b) 12 (by omega) (ean13_new b) p q a c x hl h hc hne

example : (Ean13.new .debug ("750103131130".toList ++ ['9'])).isOk = true ∧
    Ean13.new .debug ("750103131130".toList ++ ['0']) = .err .checksum := by decide

/-- C04. Every single-digit error in an accepted 8-digit number is rejected. -/
theorem C04_ean8_single_error (b : Build) (p q : List Char) (a c : Char) (x : Ean8.EAN8)
    (hl : (p ++ a :: q).length = 8) (h : Ean8.new b (p ++ a :: q) = .ok x) (hc : c.isDigit = true) (hne : c ≠ a) :
    Ean8.new b (p ++ c :: q) = .err .checksum :=
  single_error Ean8.EAN8.mk (Ean8.new b) 7 (by omega) (ean8_new b) p q a c x hl h hc hne

example : (Ean8.new .debug ("55".toList ++ '1' :: "23457".toList)).isOk = true ∧
    Ean8.new .debug ("55".toList ++ '9' :: "23457".toList) = .err .checksum := by decide

/-- C04. Every single-digit error in an accepted 12-digit number is rejected. -/
theorem C04_upca_single_error (b : Build) (p q : List Char) (a c : Char) (x : Upca.UPCA)
    (hl : (p ++ a :: q).length = 12) (h : Upca.new b (p ++ a :: q) = .ok x) (hc : c.isDigit = true) (hne : c ≠ a) :
    Upca.new b (p ++ c :: q) = .err .checksum :=
  single_error Upca.UPCA.mk (Upca.new b) 11 (by omega) (upca_new b) p q a c x hl h hc hne

example : Ean13.new .debug ("750103".toList ++ '1' :: "311309".toList) = .ok ⟨[7, 5, 0, 1, 0, 3, 1, 3, 1, 1, 3, 0]⟩ ∧
    Ean13.new .debug ("750103".toList ++ '7' :: "311309".toList) = .err .checksum := by decide

theorem transposition {T : Type} (mk : List Nat → T) (f : List Char → Outcome T) (n : Nat) (hn : n < 100)
    (hf : ∀ s, f s = if byteLen s % 2 ^ 32 ≠ n ∧ byteLen s % 2 ^ 32 ≠ n + 1 then Outcome.err Error.length
      else if ¬ AllDigits s then .err .character
      else if s.length = n + 1 ∧ ¬ Gs1Valid (digitsOf s) then .err .checksum
      else .ok (mk ((digitsOf s).take n))) (p q : List Char) (a c : Char) (x : T)
    (hl : (p ++ a :: c :: q).length = n + 1) (h : f (p ++ a :: c :: q) = .ok x) :
    ((∃ y, f (p ++ c :: a :: q) = .ok y) ↔
      a.toNat = c.toNat ∨ a.toNat = c.toNat + 5 ∨ c.toNat = a.toNat + 5) ∧
    ((∀ y, f (p ++ c :: a :: q) ≠ .ok y) → f (p ++ c :: a :: q) = .err .checksum) := by
  rw [hf] at h
  obtain ⟨-, hD, -, -, hv⟩ := decision_ok mk n _ x h
  have hv := hv hl
  have hD' : AllDigits (p ++ c :: a :: q) := by
    intro y hy
    simp only [List.mem_append, List.mem_cons] at hy
    apply hD y
    simp only [List.mem_append, List.mem_cons]
    rcases hy with hy | hy | hy | hy <;> simp [hy]
  have hl' : (p ++ c :: a :: q).length = n + 1 := by simpa using hl
  have ha := (toNat_isDigit a).mp (hD a (by simp))
  have hc := (toNat_isDigit c).mp (hD c (by simp))
  have e1 : digitsOf (p ++ a :: c :: q) = digitsOf p ++ digitValue a :: digitValue c :: digitsOf q := by simp [digitsOf]
  have e2 : digitsOf (p ++ c :: a :: q) = digitsOf p ++ digitValue c :: digitValue a :: digitsOf q := by simp [digitsOf]
  have z : '0'.toNat = 48 := rfl
  rw [e1] at hv
  have key := gs1Valid_swap _ _ _ _ (by unfold digitValue; omega) (by unfold digitValue; omega) hv
  rw [← e2] at key
  have key2 : Gs1Valid (digitsOf (p ++ c :: a :: q)) ↔
      a.toNat = c.toNat ∨ a.toNat = c.toNat + 5 ∨ c.toNat = a.toNat + 5 := by
    rw [key]; unfold digitValue; omega
  have hfs : f (p ++ c :: a :: q) = if ¬ Gs1Valid (digitsOf (p ++ c :: a :: q)) then .err .checksum
      else .ok (mk ((digitsOf (p ++ c :: a :: q)).take n)) := by
    rw [hf, digits_byteLen _ hD', hl', if_neg (show ¬ ((n + 1) % 2 ^ 32 ≠ n ∧ (n + 1) % 2 ^ 32 ≠ n + 1) by omega),
      if_neg (not_not_intro hD')]
    simp
  rw [hfs, ← key2]
  by_cases hg : Gs1Valid (digitsOf (p ++ c :: a :: q)) <;> simp [hg]

/-- C05. Swapping two adjacent digits of an accepted 13-digit number: accepted iff they differ by 0 or 5, else
`Err(Checksum)`. -/
theorem C05_ean13_transposition (b : Build) (p q : List Char) (a c : Char) (x : Ean13.EAN13)
    (hl : (p ++ a :: c :: q).length = 13) (h : Ean13.new b (p ++ a :: c :: q) = .ok x) :
    ((∃ y, Ean13.new b (p ++ c :: a :: q) = .ok y) ↔
      a.toNat = c.toNat ∨ a.toNat = c.toNat + 5 ∨ c.toNat = a.toNat + 5) ∧
    ((∀ y, Ean13.new b (p ++ c :: a :: q) ≠ .ok y) → Ean13.new b (p ++ c :: a :: q) = .err .checksum) :=
  transposition Ean13.EAN13.mk (Ean13.new b) 12 (by omega) (ean13_new b) p q a c x hl h

example : ('5'.toNat = '0'.toNat + 5) ∧ (Ean13.new .debug ("7".toList ++ '5' :: '0' :: "1031311309".toList)).isOk = true ∧
    (Ean13.new .debug ("7".toList ++ '0' :: '5' :: "1031311309".toList)).isOk = true := by decide

/-- C05. The same for EAN-8. -/
theorem C05_ean8_transposition (b : Build) (p q : List Char) (a c : Char) (x : Ean8.EAN8)
    (hl : (p ++ a :: c :: q).length = 8) (h : Ean8.new b (p ++ a :: c :: q) = .ok x) :
    ((∃ y, Ean8.new b (p ++ c :: a :: q) = .ok y) ↔
      a.toNat = c.toNat ∨ a.toNat = c.toNat + 5 ∨ c.toNat = a.toNat + 5) ∧
    ((∀ y, Ean8.new b (p ++ c :: a :: q) ≠ .ok y) → Ean8.new b (p ++ c :: a :: q) = .err .checksum) :=
  transposition Ean8.EAN8.mk (Ean8.new b) 7 (by omega) (ean8_new b) p q a c x hl h

example : (Ean8.new .debug ("5".toList ++ '5' :: '1' :: "23457".toList)).isOk = true ∧
    Ean8.new .debug ("5".toList ++ '1' :: '5' :: "23457".toList) = .err .checksum := by decide

/-- C05. The same for UPC-A. -/
theorem C05_upca_transposition (b : Build) (p q : List Char) (a c : Char) (x : Upca.UPCA)
    (hl : (p ++ a :: c :: q).length = 12) (h : Upca.new b (p ++ a :: c :: q) = .ok x) :
    ((∃ y, Upca.new b (p ++ c :: a :: q) = .ok y) ↔
      a.toNat = c.toNat ∨ a.toNat = c.toNat + 5 ∨ c.toNat = a.toNat + 5) ∧
    ((∀ y, Upca.new b (p ++ c :: a :: q) ≠ .ok y) → Upca.new b (p ++ c :: a :: q) = .err .checksum) :=
  transposition Upca.UPCA.mk (Upca.new b) 11 (by omega) (upca_new b) p q a c x hl h

-- a detected and an undetected transposition
example : Ean13.new .debug ("75".toList ++ '0' :: '1' :: "031311309".toList) = .ok ⟨[7, 5, 0, 1, 0, 3, 1, 3, 1, 1, 3, 0]⟩ ∧
    Ean13.new .debug ("75".toList ++ '1' :: '0' :: "031311309".toList) = .err .checksum ∧
    Ean13.new .debug ("7".toList ++ '5' :: '0' :: "1031311309".toList) = .ok ⟨[7, 5, 0, 1, 0, 3, 1, 3, 1, 1, 3, 0]⟩ ∧
    Ean13.new .debug ("7".toList ++ '0' :: '5' :: "1031311309".toList) = .ok ⟨[7, 0, 5, 1, 0, 3, 1, 3, 1, 1, 3, 0]⟩ := by
  decide

/-! ## UPC-A and EAN-13 -/

theorem upca_symbol_eq (b : Build) (ds : List Nat) (hl : ds.length = 11) (hd : Digits ds) :
    Upca.encode b ⟨ds⟩ = Ean13.encode b ⟨0 :: ds⟩ := by
  obtain ⟨d1, ls, rs, rfl, hll, hlr⟩ : ∃ d1 ls rs, ds = (d1 :: ls) ++ rs ∧ ls.length = 5 ∧ rs.length = 5 := by
    match ds, hl with
    | d1 :: t, h =>
      refine ⟨d1, t.take 5, t.drop 5, by simp, ?_, ?_⟩ <;> simp at h ⊢ <;> omega
  rw [upca_encode_eq b (d1 :: ls) rs (by simp [hll]) hlr hd]
  have h2 := ean13_encode_eq b 0 d1 ls rs hll hlr (digits_append (digits_single (by omega)) hd)
  rw [gs1Digit_zero_cons] at h2
  rw [show (0 :: (d1 :: ls ++ rs)) = 0 :: d1 :: (ls ++ rs) from rfl, h2]
  have : ((setsOf 0).zip (d1 :: ls)).flatMap wAB = (d1 :: ls).flatMap wA := by
    match ls, hll with
    | [a, b, c, d, e], _ => rfl
  rw [ean13Widths, this]
  rfl

/-- C10. `UPCA::new(s)` and `EAN13::new("0" + s)` fail with the same error or give identical symbols. -/
theorem C10_upca_is_ean13 (b : Build) (s : List Char) (hs : byteLen s + 1 < 2 ^ 32) :
    (Upca.new b s >>= Upca.encode b) = (Ean13.new b ('0' :: s) >>= Ean13.encode b) := by
  have hb : byteLen ('0' :: s) = byteLen s + 1 := by
    rw [← strLen_eq_byteLen, ← strLen_eq_byteLen, strLen, strLen, List.map_cons, List.sum_cons]
    rw [show '0'.utf8Size = 1 from rfl]; omega
  have hdig : AllDigits ('0' :: s) ↔ AllDigits s := by
    simp only [AllDigits, List.mem_cons, forall_eq_or_imp]
    exact ⟨fun h => h.2, fun h => ⟨rfl, h⟩⟩
  have hds : digitsOf ('0' :: s) = 0 :: digitsOf s := rfl
  rw [C08_upca_new b s (by omega), C01_ean13_new b ('0' :: s) (by omega), hb, hds]
  simp only [hdig, gs1Valid_zero_cons, List.length_cons]
  by_cases h1 : byteLen s ≠ 11 ∧ byteLen s ≠ 12
  · rw [if_pos h1, if_pos (show byteLen s + 1 ≠ 12 ∧ byteLen s + 1 ≠ 13 by omega)]; rfl
  · rw [if_neg h1, if_neg (show ¬ (byteLen s + 1 ≠ 12 ∧ byteLen s + 1 ≠ 13) by omega)]
    by_cases hD : AllDigits s
    · rw [if_neg (not_not_intro hD), if_neg (not_not_intro hD)]
      by_cases hg : s.length = 12 ∧ ¬ Gs1Valid (digitsOf s)
      · rw [if_pos hg, if_pos ⟨by omega, hg.2⟩]; rfl
      · rw [if_neg hg, if_neg (show ¬ (s.length + 1 = 13 ∧ ¬ Gs1Valid (digitsOf s)) from
          fun h => hg ⟨by omega, h.2⟩), Outcome.ok_bind, Outcome.ok_bind, List.take_succ_cons]
        rw [digits_byteLen s hD] at h1
        exact upca_symbol_eq b _ (by simp [digitsOf]; omega) (digits_take _ _ (digits_lt s hD))
    · rw [if_pos hD, if_pos hD]; rfl

example : (Upca.new .debug "612345678901".toList >>= Upca.encode .debug) = .err .checksum ∧
    (Ean13.new .debug ('0' :: "612345678901".toList) >>= Ean13.encode .debug) = .err .checksum := by decide

/-- C10. The two constructors agree on errors, separately from the symbols. -/
theorem C10_upca_ean13_same_error (b : Build) (s : List Char) (hs : byteLen s + 1 < 2 ^ 32) (e : Error) :
    Upca.new b s = .err e ↔ Ean13.new b ('0' :: s) = .err e := by
  have h := C10_upca_is_ean13 b s hs
  have hu : ∀ x, Upca.new b s = .ok x → ∃ bits, Upca.encode b x = .ok bits := by
    intro x hx
    obtain ⟨bits, hb, -⟩ := C09_upca_scan b s x hx
    exact ⟨bits, hb⟩
  have he : ∀ x, Ean13.new b ('0' :: s) = .ok x → ∃ bits, Ean13.encode b x = .ok bits := by
    intro x hx
    obtain ⟨bits, hb, -⟩ := C02_ean13_scan b ('0' :: s) x hx
    exact ⟨bits, hb⟩
  cases h1 : Upca.new b s with
  | ok x =>
    obtain ⟨bits, hb⟩ := hu x h1
    cases h2 : Ean13.new b ('0' :: s) with
    | ok y => simp
    | err e' => rw [h1, h2, Outcome.ok_bind, hb] at h; cases h
    | panic q => rw [h1, h2, Outcome.ok_bind, hb] at h; cases h
  | err e' =>
    cases h2 : Ean13.new b ('0' :: s) with
    | ok y =>
      obtain ⟨bits, hb⟩ := he y h2
      rw [h1, h2, Outcome.ok_bind, hb] at h; cases h
    | err e'' => rw [h1, h2] at h; cases h; simp
    | panic q => rw [h1, h2] at h; cases h
  | panic q =>
    have := C08_upca_new_no_panic b s
    rw [h1] at this; cases this

example : ∃ x bits, Upca.new .debug "61234567890".toList = .ok x ∧ Upca.encode .debug x = .ok bits ∧
    (Ean13.new .debug "061234567890".toList >>= Ean13.encode .debug) = .ok bits := by
  exact ⟨_, _, rfl, rfl, rfl⟩

end Barcoders
