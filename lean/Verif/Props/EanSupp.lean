import Verif.Lemmas.EanSupp
import Verif.Props.Ean

/-!
# EAN-2 and EAN-5 add-ons (C11, C12), overflow freedom of the EAN family (C50)
-/

set_option autoImplicit false

namespace Barcoders
open Spec

/-- C11. The complete behaviour of `EANSUPP::new` on strings below 4 GiB. -/
theorem C11_eansupp_new (s : List Char) (hs : byteLen s < 2 ^ 32) :
    EanSupp.new s =
      if byteLen s < 2 ∨ byteLen s > 5 then .err .length
      else if ¬ AllDigits s then .err .character
      else if s.length = 2 then .ok (.EAN2 (digitsOf s))
      else if s.length = 5 then .ok (.EAN5 (digitsOf s))
      else .err .length := by
  rw [supp_new, Nat.mod_eq_of_lt hs]

example : EanSupp.new "05".toList = .ok (.EAN2 [0, 5]) ∧ EanSupp.new "51499".toList = .ok (.EAN5 [5, 1, 4, 9, 9]) ∧
    EanSupp.new "123".toList = .err .length ∧ EanSupp.new "1x".toList = .err .character := by decide

/-- C11. `EANSUPP::new` accepts exactly two or five digits. -/
theorem C11_eansupp_accepts (s : List Char) :
    (∃ x, EanSupp.new s = .ok x) ↔ AllDigits s ∧ (s.length = 2 ∨ s.length = 5) := by
  constructor
  · rintro ⟨x, hx⟩
    rw [supp_new] at hx
    split at hx
    · cases hx
    · split at hx
      · cases hx
      · rename_i hD
        refine ⟨by simpa using hD, ?_⟩
        split at hx
        · exact Or.inl (by assumption)
        · split at hx
          · exact Or.inr (by assumption)
          · cases hx
  · rintro ⟨hD, hl⟩
    rw [supp_new, digits_byteLen s hD, if_neg (by omega), if_neg (not_not_intro hD)]
    rcases hl with hl | hl
    · exact ⟨_, if_pos hl⟩
    · exact ⟨_, by rw [if_neg (by omega), if_pos hl]⟩

example : AllDigits "51499".toList ∧ "51499".toList.length = 5 ∧ (EanSupp.new "51499".toList).isOk = true ∧
    (EanSupp.new "5149".toList).isOk = false := by decide

/-- C11. `EANSUPP::new` never panics, whatever the length. -/
theorem C11_eansupp_new_no_panic (s : List Char) : (EanSupp.new s).isPanic = false := by
  rw [supp_new]
  split
  · rfl
  · split
    · rfl
    · split
      · rfl
      · split <;> rfl

example : EanSupp.new "12".toList = .ok (.EAN2 [1, 2]) := by decide
example : EanSupp.new "51234".toList = .ok (.EAN5 [5, 1, 2, 3, 4]) := by decide
example : EanSupp.new "123".toList = .err .length := by decide
example : EanSupp.new "123456".toList = .err .length := by decide
example : EanSupp.new "1é".toList = .err .character := by decide

/-- C12. The add-on scanner reads the digits back from every accepted string, in both builds. -/
theorem C12_eansupp_scan (b : Build) (s : List Char) (x : EanSupp.EANSUPP) (h : EanSupp.new s = .ok x) :
    ∃ bits, EanSupp.encode b x = .ok bits ∧ scanAddOn bits = some (digitsOf s) := by
  obtain ⟨ws, h1, -, -, h2, -, -⟩ := supp_symbol s x h
  exact ⟨_, h1 b, h2⟩

example : ∃ x bits, EanSupp.new "51234".toList = .ok x ∧ EanSupp.encode .release x = .ok bits ∧
    scanAddOn bits = some [5, 1, 2, 3, 4] := ⟨_, _, rfl, rfl, by decide⟩

/-! ## No overflow: debug and release builds agree -/

/-- C50. EAN-13: construction is independent of the build, for every string. -/
theorem C50_ean13_new_build (s : List Char) : Ean13.new .debug s = Ean13.new .release s := by
  rw [ean13_new, ean13_new]

example : Ean13.new .debug (List.replicate 12 '9') = .ok ⟨List.replicate 12 9⟩ ∧
    Ean13.new .release (List.replicate 12 '9') = .ok ⟨List.replicate 12 9⟩ := by decide

/-- C50. EAN-13: construction and encoding are independent of the build and do not panic (in particular they do not
overflow), for every string. -/
theorem C50_ean13_no_overflow (b b' : Build) (s : List Char) :
    (Ean13.new b s >>= Ean13.encode b) = (Ean13.new b' s >>= Ean13.encode b') ∧
      (Ean13.new b s >>= Ean13.encode b).isPanic = false := by
  have hb : Ean13.new b' s = Ean13.new b s := by rw [ean13_new, ean13_new]
  rw [hb]
  cases h : Ean13.new b s with
  | ok x =>
    rw [Outcome.ok_bind, Outcome.ok_bind]
    rw [ean13_new] at h
    obtain ⟨rfl, hD, -, hl, -⟩ := decision_ok Ean13.EAN13.mk 12 s x h
    obtain ⟨d0, d1, ls, rs, he, hll, hlr⟩ := split12 _ hl
    have hd := digits_take _ 12 (digits_lt s hD)
    rw [he] at hd ⊢
    rw [ean13_encode_eq b d0 d1 ls rs hll hlr hd, ean13_encode_eq b' d0 d1 ls rs hll hlr hd]
    exact ⟨rfl, rfl⟩
  | err e => exact ⟨rfl, rfl⟩
  | panic p =>
    have := C01_ean13_new_no_panic b s
    rw [h] at this
    cases this

-- the largest sum of the digits
example : (Ean13.new .debug (List.replicate 12 '9') >>= Ean13.encode .debug).isOk = true := by decide

/-- C50. The same for EAN-8. -/
theorem C50_ean8_no_overflow (b b' : Build) (s : List Char) :
    (Ean8.new b s >>= Ean8.encode b) = (Ean8.new b' s >>= Ean8.encode b') ∧
      (Ean8.new b s >>= Ean8.encode b).isPanic = false := by
  have hb : Ean8.new b' s = Ean8.new b s := by rw [ean8_new, ean8_new]
  rw [hb]
  cases h : Ean8.new b s with
  | ok x =>
    rw [Outcome.ok_bind, Outcome.ok_bind]
    rw [ean8_new] at h
    obtain ⟨rfl, hD, -, hl, -⟩ := decision_ok Ean8.EAN8.mk 7 s x h
    have hd := digits_take _ 7 (digits_lt s hD)
    obtain ⟨ns, ls, rs, he, hn, hll, hlr⟩ := split7 _ hl
    rw [he] at hd ⊢
    rw [ean8_encode_eq b ns ls rs hn hll hlr hd, ean8_encode_eq b' ns ls rs hn hll hlr hd]
    exact ⟨rfl, rfl⟩
  | err e => exact ⟨rfl, rfl⟩
  | panic p =>
    have := C06_ean8_new_no_panic b s
    rw [h] at this
    cases this

example : (Ean8.new .debug (List.replicate 7 '9') >>= Ean8.encode .debug).isOk = true := by decide

/-- C50. The same for UPC-A. -/
theorem C50_upca_no_overflow (b b' : Build) (s : List Char) :
    (Upca.new b s >>= Upca.encode b) = (Upca.new b' s >>= Upca.encode b') ∧
      (Upca.new b s >>= Upca.encode b).isPanic = false := by
  have hb : Upca.new b' s = Upca.new b s := by rw [upca_new, upca_new]
  rw [hb]
  cases h : Upca.new b s with
  | ok x =>
    rw [Outcome.ok_bind, Outcome.ok_bind]
    rw [upca_new] at h
    obtain ⟨rfl, hD, -, hl, -⟩ := decision_ok Upca.UPCA.mk 11 s x h
    have hd := digits_take _ 11 (digits_lt s hD)
    obtain ⟨ls, rs, he, hll, hlr⟩ := split11 _ hl
    rw [he] at hd ⊢
    rw [upca_encode_eq b ls rs hll hlr hd, upca_encode_eq b' ls rs hll hlr hd]
    exact ⟨rfl, rfl⟩
  | err e => exact ⟨rfl, rfl⟩
  | panic p =>
    have := C08_upca_new_no_panic b s
    rw [h] at this
    cases this

example : (Upca.new .debug (List.replicate 11 '9') >>= Upca.encode .debug).isOk = true := by decide

/-- C50. The same for EAN-2 and EAN-5. -/
theorem C50_eansupp_no_overflow (b b' : Build) (s : List Char) :
    (EanSupp.new s >>= EanSupp.encode b) = (EanSupp.new s >>= EanSupp.encode b') ∧
      (EanSupp.new s >>= EanSupp.encode b).isPanic = false := by
  cases h : EanSupp.new s with
  | ok x =>
    rw [Outcome.ok_bind, Outcome.ok_bind]
    obtain ⟨ws, h1, -⟩ := supp_symbol s x h
    rw [h1 b, h1 b']
    exact ⟨rfl, rfl⟩
  | err e => exact ⟨rfl, rfl⟩
  | panic p =>
    have := C11_eansupp_new_no_panic s
    rw [h] at this
    cases this

example : (Ean13.new .debug "999999999999".toList >>= Ean13.encode .debug).isOk = true ∧
    (EanSupp.new "99999".toList >>= EanSupp.encode .debug).isOk = true := by decide

end Barcoders
