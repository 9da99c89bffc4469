import Verif.Spec.Serial
import Verif.Props.Distinct
import Verif.Props.ExactTF

/-!
# C124: serial numbers
-/

set_option autoImplicit false

namespace Barcoders

open Spec

/-- The digits of a numeral, last one first. -/
def lowDigits : Nat → Nat → List Nat
  | 0, _ => []
  | w + 1, n => n % 10 :: lowDigits w (n / 10)

theorem numeral_char : ∀ d < 10, (Char.ofNat (48 + d)).isDigit = true ∧ digitValue (Char.ofNat (48 + d)) = d := by decide

theorem numeral_length (w n : Nat) : (numeral w n).length = w := by
  induction w generalizing n with
  | zero => rfl
  | succ w ih => simp [numeral, ih]

theorem numeral_digits (w n : Nat) : AllDigits (numeral w n) := by
  induction w generalizing n with
  | zero => intro c hc; simp [numeral] at hc
  | succ w ih =>
    intro c hc
    rcases List.mem_append.mp hc with h | h
    · exact ih _ c h
    · rw [List.mem_singleton] at h; rw [h]; exact (numeral_char _ (Nat.mod_lt _ (by omega))).1

theorem numeral_digitsOf (w n : Nat) : digitsOf (numeral w n) = (lowDigits w n).reverse := by
  induction w generalizing n with
  | zero => rfl
  | succ w ih =>
    have := (numeral_char (n % 10) (Nat.mod_lt _ (by omega))).2
    have ih := ih (n / 10)
    unfold digitsOf at ih ⊢
    simp only [numeral, List.map_append, List.map_cons, List.map_nil, lowDigits, List.reverse_cons, this, ih]

theorem number_append (ds : List Nat) (d : Nat) : number (ds ++ [d]) = 10 * number ds + d := by
  simp [number]

theorem number_numeral (w n : Nat) (h : n < 10 ^ w) : number (digitsOf (numeral w n)) = n := by
  rw [numeral_digitsOf]
  induction w generalizing n with
  | zero => simp at h; subst h; rfl
  | succ w ih =>
    rw [lowDigits, List.reverse_cons, number_append, ih (n / 10) (by rw [Nat.pow_succ] at h; omega)]
    omega

/-- Every digit string is a numeral. -/
theorem numeral_of_digits (s : List Char) (h : AllDigits s) :
    number (digitsOf s) < 10 ^ s.length ∧ numeral s.length (number (digitsOf s)) = s := by
  induction hl : s.length generalizing s with
  | zero => rw [List.length_eq_zero_iff.mp hl]; exact ⟨by decide, rfl⟩
  | succ w ih =>
    have hne : s ≠ [] := by intro h; rw [h] at hl; simp at hl
    have es := List.dropLast_concat_getLast hne
    generalize s.dropLast = t at es
    generalize s.getLast hne = c at es
    subst es
    obtain ⟨h1, h2⟩ := ih t (fun a ha => h a (List.mem_append.mpr (.inl ha))) (by simpa using hl)
    have hc : c.isDigit = true := h c (by simp)
    have hd : digitValue c < 10 := digits_lt [c] (by intro a ha; rw [List.mem_singleton] at ha; rw [ha]; exact hc) _ (by simp [digitsOf])
    have e : digitsOf (t ++ [c]) = digitsOf t ++ [digitValue c] := by simp [digitsOf]
    rw [e, number_append]
    refine ⟨by rw [Nat.pow_succ]; omega, ?_⟩
    rw [numeral, show (10 * number (digitsOf t) + digitValue c) / 10 = number (digitsOf t) by omega, h2,
      show (10 * number (digitsOf t) + digitValue c) % 10 = digitValue c by omega]
    have := numeral_char _ hd
    rw [digitValue_inj _ c this.1 hc this.2]

theorem numeral_take (s : List Char) (h : AllDigits s) (k : Nat) (hk : k ≤ s.length) :
    number ((digitsOf s).take k) < 10 ^ k ∧ numeral k (number ((digitsOf s).take k)) = s.take k := by
  have := numeral_of_digits (s.take k) (fun c hc => h c (List.mem_of_mem_take hc))
  rw [List.length_take, Nat.min_eq_left hk] at this
  simpa only [digitsOf, List.map_take] using this

/-! ## The next number -/

/-- The sum of the first `k` weights, when the first is `v`. -/
def weightSum (v : Nat) : Nat → Nat
  | 0 => 0
  | k + 1 => v + weightSum (4 - v) k

theorem weightSum_eq (k : Nat) : weightSum 3 k = 2 * k + k % 2 ∧ weightSum 1 k = 2 * k - k % 2 := by
  induction k with
  | zero => exact ⟨rfl, rfl⟩
  | succ k ih =>
    simp only [weightSum, show 4 - 3 = 1 from rfl, show 4 - 1 = 3 from rfl, ih]
    omega

theorem altSum_next (w n j v : Nat) (hn : n + 1 < 10 ^ w) (hj : EndsInNines n j) :
    altSum v (lowDigits w (n + 1)) % 10 = (altSum v (lowDigits w n) + weightSum v (j + 1)) % 10 := by
  induction w generalizing n j v with
  | zero => simp at hn
  | succ w ih =>
    obtain ⟨h1, h2⟩ := hj
    rw [lowDigits, lowDigits, altSum, altSum, weightSum]
    by_cases h9 : n % 10 = 9
    · cases j with
      | zero => rw [Nat.zero_add, Nat.pow_one] at h2; omega
      | succ j =>
        have e : (n + 1) / 10 = n / 10 + 1 := by omega
        have e' : n + 1 = 10 * (n / 10 + 1) := by omega
        have hj : EndsInNines (n / 10) j := by
          rw [e', Nat.pow_succ, Nat.mul_comm _ 10, Nat.mul_mod_mul_left] at h1 h2
          exact ⟨by omega, by intro h; rw [h] at h2; omega⟩
        have := ih (n / 10) j (4 - v) (by rw [Nat.pow_succ] at hn; omega) hj
        rw [e, show (n + 1) % 10 = 0 by omega, h9, Nat.mul_zero, Nat.zero_add, this]
        omega
    · cases j with
      | zero =>
        rw [show (n + 1) / 10 = n / 10 by omega, show (n + 1) % 10 = n % 10 + 1 by omega, weightSum, Nat.mul_add]
        congr 1
        omega
      | succ j =>
        exfalso
        rw [Nat.pow_succ, Nat.mul_comm, Nat.mod_mul] at h1
        omega

theorem gs1Digit_next (w n j : Nat) (hn : n + 1 < 10 ^ w) (hj : EndsInNines n j) :
    (gs1Digit (digitsOf (numeral w (n + 1))) + (2 * (j + 1) + (j + 1) % 2)) % 10 = gs1Digit (digitsOf (numeral w n)) := by
  have := altSum_next w n j 3 hn hj
  rw [(weightSum_eq (j + 1)).1] at this
  rw [numeral_digitsOf, numeral_digitsOf, gs1Digit, gs1Digit, List.reverse_reverse, List.reverse_reverse]
  omega

theorem nines_lt (w n j : Nat) (hn : n + 1 < 10 ^ w) (hj : EndsInNines n j) : j < w := by
  have h1 : 10 ^ j ≤ n + 1 := Nat.le_of_dvd (by omega) (Nat.dvd_of_mod_eq_zero hj.1)
  exact (Nat.pow_lt_pow_iff_right (by omega)).mp (Nat.lt_of_le_of_lt h1 hn)

/-! ## The theorems -/

/-- What is needed of a symbology whose numbers have `w` digits and a check digit. -/
theorem retail_number {T : Type} (mk : List Nat → T) (f : List Char → Outcome T) (w : Nat) (hw : w < 100)
    (hf : ∀ s, f s = if byteLen s % 2 ^ 32 ≠ w ∧ byteLen s % 2 ^ 32 ≠ w + 1 then Outcome.err Error.length
      else if ¬ AllDigits s then .err .character
      else if s.length = w + 1 ∧ ¬ Gs1Valid (digitsOf s) then .err .checksum
      else .ok (mk ((digitsOf s).take w))) :
    (∀ n, f (numeral w n) = .ok (mk (digitsOf (numeral w n)))) ∧
    (∀ s x, f s = .ok x → ∃ n < 10 ^ w, f (numeral w n) = .ok x) := by
  have h1 : ∀ n, f (numeral w n) = .ok (mk (digitsOf (numeral w n))) := by
    intro n
    have hD := numeral_digits w n
    have hl := numeral_length w n
    have hb := digits_byteLen _ hD
    rw [hf, if_neg (by omega), if_neg (not_not_intro hD), if_neg (by omega), List.take_of_length_le (by simp [digitsOf, hl])]
  refine ⟨h1, fun s x h => ?_⟩
  rw [hf] at h
  obtain ⟨rfl, hD, hle, -⟩ := decision_ok mk w s x h
  obtain ⟨h2, h3⟩ := numeral_take s hD w hle
  refine ⟨_, h2, ?_⟩
  rw [h1, h3]
  simp [digitsOf]

theorem number_check (w n : Nat) (h : n < 10 ^ w) :
    number (digitsOf (numeral w n) ++ [gs1Digit (digitsOf (numeral w n))]) = 10 * n + gs1Digit (digitsOf (numeral w n)) := by
  rw [number_append, number_numeral w n h]

theorem retail_scan (b : Build) (n : Nat) :
    (∃ ms, Drawn b .ean13 (numeral 12 n) ms ∧ scanEan13 ms = some (digitsOf (numeral 12 n) ++ [gs1Digit (digitsOf (numeral 12 n))])) ∧
    (∃ ms, Drawn b .ean8 (numeral 7 n) ms ∧ scanEan8 ms = some (digitsOf (numeral 7 n) ++ [gs1Digit (digitsOf (numeral 7 n))])) ∧
    (∃ ms, Drawn b .upca (numeral 11 n) ms ∧ scanUpca ms = some (digitsOf (numeral 11 n) ++ [gs1Digit (digitsOf (numeral 11 n))])) := by
  have t : ∀ w, (digitsOf (numeral w n)).take w = digitsOf (numeral w n) := fun w =>
    List.take_of_length_le (by simp [digitsOf, numeral_length])
  refine ⟨?_, ?_, ?_⟩
  · have h := (retail_number Ean13.EAN13.mk (Ean13.new b) 12 (by omega) (ean13_new b)).1 n
    obtain ⟨ms, h1, h2⟩ := C02_ean13_scan b _ _ h
    rw [t] at h2
    exact ⟨ms, ⟨_, h, h1⟩, h2⟩
  · have h := (retail_number Ean8.EAN8.mk (Ean8.new b) 7 (by omega) (ean8_new b)).1 n
    obtain ⟨ms, h1, h2⟩ := C07_ean8_scan b _ _ h
    rw [t] at h2
    exact ⟨ms, ⟨_, h, h1⟩, h2⟩
  · have h := (retail_number Upca.UPCA.mk (Upca.new b) 11 (by omega) (upca_new b)).1 n
    obtain ⟨ms, h1, h2⟩ := C09_upca_scan b _ _ h
    rw [t] at h2
    exact ⟨ms, ⟨_, h, h1⟩, h2⟩

/-- C124. Every number with at most 12, 7 or 11 digits has a symbol, which reads as the number and a check digit. -/
theorem C124_read (b : Build) (n : Nat) :
    (n < 10 ^ 12 → ∃ ms, Drawn b .ean13 (numeral 12 n) ms ∧ ∃ c < 10, (scanEan13 ms).map number = some (10 * n + c)) ∧
    (n < 10 ^ 7 → ∃ ms, Drawn b .ean8 (numeral 7 n) ms ∧ ∃ c < 10, (scanEan8 ms).map number = some (10 * n + c)) ∧
    (n < 10 ^ 11 → ∃ ms, Drawn b .upca (numeral 11 n) ms ∧ ∃ c < 10, (scanUpca ms).map number = some (10 * n + c)) := by
  obtain ⟨⟨a, a1, a2⟩, ⟨c, c1, c2⟩, ⟨d, d1, d2⟩⟩ := retail_scan b n
  refine ⟨fun h => ⟨a, a1, _, gs1Digit_lt (digitsOf (numeral 12 n)), ?_⟩, fun h => ⟨c, c1, _, gs1Digit_lt (digitsOf (numeral 7 n)), ?_⟩,
    fun h => ⟨d, d1, _, gs1Digit_lt (digitsOf (numeral 11 n)), ?_⟩⟩
  · rw [a2, Option.map_some, number_check 12 n h]
  · rw [c2, Option.map_some, number_check 7 n h]
  · rw [d2, Option.map_some, number_check 11 n h]

example : numeral 7 9638507 = "9638507".toList ∧ ∃ ms, Drawn .debug .ean8 (numeral 7 9638507) ms ∧
    (scanEan8 ms).map number = some 96385074 := ⟨by decide, _, ⟨_, rfl, rfl⟩, by decide⟩

theorem drawn_det (b : Build) (k : Kind) (hk : k ≠ .code39) (s : List Char) (ms ms' : List Nat) (h : Drawn b k s ms) (h' : Drawn b k s ms') :
    ms = ms' := by
  cases k <;> first | exact absurd rfl hk | skip
  all_goals
    obtain ⟨x, h1, h2⟩ := h
    obtain ⟨y, g1, g2⟩ := h'
    rw [h1, Outcome.ok.injEq] at g1
    subst g1
    rw [h2] at g2
    first | exact Outcome.ok.inj g2 | exact g2

/-- C124. Every EAN-13, EAN-8 and UPC-A symbol is that of exactly one number. -/
theorem C124_every (b : Build) (s : List Char) (ms : List Nat) :
    (Drawn b .ean13 s ms → ∃ n < 10 ^ 12, Drawn b .ean13 (numeral 12 n) ms ∧ ∀ m < 10 ^ 12, Drawn b .ean13 (numeral 12 m) ms → m = n) ∧
    (Drawn b .ean8 s ms → ∃ n < 10 ^ 7, Drawn b .ean8 (numeral 7 n) ms ∧ ∀ m < 10 ^ 7, Drawn b .ean8 (numeral 7 m) ms → m = n) ∧
    (Drawn b .upca s ms → ∃ n < 10 ^ 11, Drawn b .upca (numeral 11 n) ms ∧ ∀ m < 10 ^ 11, Drawn b .upca (numeral 11 m) ms → m = n) := by
  have uniq : ∀ (k : Kind) (hk : k ≠ .code39) (w : Nat) (scan : List Nat → Option (List Nat)),
      (∀ n < 10 ^ w, ∃ ms, Drawn b k (numeral w n) ms ∧ ∃ c < 10, (scan ms).map number = some (10 * n + c)) →
      ∀ n < 10 ^ w, ∀ m < 10 ^ w, Drawn b k (numeral w n) ms → Drawn b k (numeral w m) ms → m = n := by
    intro k hk w scan hs n hn m hm h1 h2
    obtain ⟨a, a1, c, hc, a2⟩ := hs n hn
    obtain ⟨a', a1', c', hc', a2'⟩ := hs m hm
    have e := drawn_det b k hk _ _ _ a1 h1
    have e' := drawn_det b k hk _ _ _ a1' h2
    subst e; subst e'
    rw [a2, Option.some.injEq] at a2'
    omega
  refine ⟨fun h => ?_, fun h => ?_, fun h => ?_⟩
  · obtain ⟨x, hx, he⟩ := h
    obtain ⟨n, hn, h1⟩ := (retail_number Ean13.EAN13.mk (Ean13.new b) 12 (by omega) (ean13_new b)).2 s x hx
    exact ⟨n, hn, ⟨x, h1, he⟩, fun m hm h2 => uniq .ean13 (by simp) 12 scanEan13 (fun n => (C124_read b n).1) n hn m hm ⟨x, h1, he⟩ h2⟩
  · obtain ⟨x, hx, he⟩ := h
    obtain ⟨n, hn, h1⟩ := (retail_number Ean8.EAN8.mk (Ean8.new b) 7 (by omega) (ean8_new b)).2 s x hx
    exact ⟨n, hn, ⟨x, h1, he⟩, fun m hm h2 => uniq .ean8 (by simp) 7 scanEan8 (fun n => (C124_read b n).2.1) n hn m hm ⟨x, h1, he⟩ h2⟩
  · obtain ⟨x, hx, he⟩ := h
    obtain ⟨n, hn, h1⟩ := (retail_number Upca.UPCA.mk (Upca.new b) 11 (by omega) (upca_new b)).2 s x hx
    exact ⟨n, hn, ⟨x, h1, he⟩, fun m hm h2 => uniq .upca (by simp) 11 scanUpca (fun n => (C124_read b n).2.2) n hn m hm ⟨x, h1, he⟩ h2⟩

/-- With and without check digit: number 9638507. -/
example : ∃ ms, Drawn .debug .ean8 "96385074".toList ms ∧ Drawn .debug .ean8 "9638507".toList ms ∧ Drawn .debug .ean8 (numeral 7 9638507) ms :=
  ⟨_, ⟨_, rfl, rfl⟩, ⟨_, rfl, rfl⟩, ⟨_, rfl, rfl⟩⟩

/-- C124. The check digit of the next number. -/
theorem C124_next (b : Build) (n j r r' : Nat) (ms ms' : List Nat) (hj : EndsInNines n j) :
    (n + 1 < 10 ^ 12 → Drawn b .ean13 (numeral 12 n) ms → Drawn b .ean13 (numeral 12 (n + 1)) ms' →
      (scanEan13 ms).map number = some r → (scanEan13 ms').map number = some r' →
      (r' + 2 * (j + 1) + (j + 1) % 2) % 10 = r % 10 ∧ (r' % 10 = r % 10 ↔ j = 9)) ∧
    (n + 1 < 10 ^ 7 → Drawn b .ean8 (numeral 7 n) ms → Drawn b .ean8 (numeral 7 (n + 1)) ms' →
      (scanEan8 ms).map number = some r → (scanEan8 ms').map number = some r' →
      (r' + 2 * (j + 1) + (j + 1) % 2) % 10 = r % 10 ∧ r' % 10 ≠ r % 10) ∧
    (n + 1 < 10 ^ 11 → Drawn b .upca (numeral 11 n) ms → Drawn b .upca (numeral 11 (n + 1)) ms' →
      (scanUpca ms).map number = some r → (scanUpca ms').map number = some r' →
      (r' + 2 * (j + 1) + (j + 1) % 2) % 10 = r % 10 ∧ (r' % 10 = r % 10 ↔ j = 9)) := by
  have key : ∀ w, w ≤ 12 → n + 1 < 10 ^ w → r = 10 * n + gs1Digit (digitsOf (numeral w n)) →
      r' = 10 * (n + 1) + gs1Digit (digitsOf (numeral w (n + 1))) →
      (r' + 2 * (j + 1) + (j + 1) % 2) % 10 = r % 10 ∧ (r' % 10 = r % 10 ↔ j = 9) := by
    intro w hw hn h h'
    have h1 := gs1Digit_next w n j hn hj
    have h2 := nines_lt w n j hn hj
    have h3 := gs1Digit_lt (digitsOf (numeral w n))
    have h4 := gs1Digit_lt (digitsOf (numeral w (n + 1)))
    omega
  have val : ∀ (k : Kind) (hk : k ≠ .code39) (w n : Nat) (scan : List Nat → Option (List Nat)) (ms : List Nat) (r : Nat), n < 10 ^ w →
      (∃ ms, Drawn b k (numeral w n) ms ∧ scan ms = some (digitsOf (numeral w n) ++ [gs1Digit (digitsOf (numeral w n))])) →
      Drawn b k (numeral w n) ms → (scan ms).map number = some r → r = 10 * n + gs1Digit (digitsOf (numeral w n)) := by
    intro k hk w n scan ms r hn ⟨a, a1, a2⟩ hd hr
    have e := drawn_det b k hk _ _ _ a1 hd
    subst e
    rw [a2, Option.map_some, number_check w n hn, Option.some.injEq] at hr
    exact hr.symm
  refine ⟨fun hn h1 h2 h3 h4 => ?_, fun hn h1 h2 h3 h4 => ?_, fun hn h1 h2 h3 h4 => ?_⟩
  · exact key 12 (by omega) hn (val .ean13 (by simp) 12 n scanEan13 ms r (by omega) (retail_scan b n).1 h1 h3)
      (val .ean13 (by simp) 12 (n + 1) scanEan13 ms' r' hn (retail_scan b (n + 1)).1 h2 h4)
  · have := key 7 (by omega) hn (val .ean8 (by simp) 7 n scanEan8 ms r (by omega) (retail_scan b n).2.1 h1 h3)
      (val .ean8 (by simp) 7 (n + 1) scanEan8 ms' r' hn (retail_scan b (n + 1)).2.1 h2 h4)
    have h5 := nines_lt 7 n j hn hj
    exact ⟨this.1, fun h => by have := this.2.mp h; omega⟩
  · exact key 11 (by omega) hn (val .upca (by simp) 11 n scanUpca ms r (by omega) (retail_scan b n).2.2 h1 h3)
      (val .upca (by simp) 11 (n + 1) scanUpca ms' r' hn (retail_scan b (n + 1)).2.2 h2 h4)

/-- 4006381333931 is followed by 4006381333948, 4006381333993 by 4006381334006. -/
example : ∀ p ∈ [(400638133393, 4006381333931, 0), (400638133394, 4006381333948, 0), (400638133399, 4006381333993, 2),
    (400638133400, 4006381334006, 0)], EndsInNines p.1 p.2.2 ∧ (Ean13.new .debug (numeral 13 p.2.1)).isOk = true ∧
    Ean13.new .debug (numeral 13 p.2.1) = Ean13.new .debug (numeral 12 p.1) := by decide

/-- C124. The symbologies without check digit. -/
theorem C124_plain (b : Build) (w n : Nat) (hn : n < 10 ^ w) :
    (w = 2 ∨ w = 5 → ∃ ms, Drawn b .supp (numeral w n) ms ∧ (scanAddOn ms).map number = some n) ∧
    (1 ≤ w → w ≤ 256 → ∃ ms, Drawn b .stf (numeral w n) ms ∧ (scanStf ms).map number = some n) ∧
    (1 ≤ w → w ≤ 256 → w % 2 = 0 → ∃ ms, Drawn b .itf (numeral w n) ms ∧ (scanItf ms).map number = some n) := by
  have hD := numeral_digits w n
  have hl := numeral_length w n
  have hb := digits_byteLen _ hD
  have hv := number_numeral w n hn
  refine ⟨fun hw => ?_, fun h1 h2 => ?_, fun h1 h2 h3 => ?_⟩
  · obtain ⟨x, hx⟩ := (C11_eansupp_accepts _).mpr ⟨hD, by rw [hl]; exact hw⟩
    obtain ⟨ms, e, r⟩ := C12_eansupp_scan b _ x hx
    exact ⟨ms, ⟨x, hx, e⟩, by rw [r, Option.map_some, hv]⟩
  · obtain ⟨x, hx⟩ := (C24_stf_accepts _ (by omega)).mpr ⟨hD, by omega, by omega⟩
    obtain ⟨ms, e, r⟩ := C24_stf_scan _ x hx
    exact ⟨ms, ⟨x, hx, e⟩, by rw [r, Option.map_some, hv]⟩
  · obtain ⟨t, ms, e1, e2, r⟩ := C51_itf_even b _ hD (by rw [hl]; exact h3) (by omega) (by omega)
    exact ⟨ms, ⟨t, e1, e2⟩, by rw [r, Option.map_some, hv]⟩

example : numeral 6 407 = "000407".toList ∧ ∃ ms, Drawn .release .itf (numeral 6 407) ms ∧ (scanItf ms).map number = some 407 :=
  ⟨by decide, (C124_plain .release 6 407 (by decide)).2.2 (by decide) (by decide) (by decide)⟩

end Barcoders
