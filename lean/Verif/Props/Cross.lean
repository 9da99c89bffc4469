import Verif.Props.Shape
import Verif.Props.Ean
import Verif.Props.EanSupp

/-!
# Properties across symbologies: constructors never panic (C30), encodings are injective (C33), length limits (C45)
-/

set_option autoImplicit false

namespace Barcoders

open Spec

/-! ## C30: constructors never panic -/

/-- C30, partial. No constructor other than `TF::interleaved` panics, on any string of any length, in any build. -/
theorem C30_constructors_no_panic_partial (b : Build) (s : List Char) :
    (Ean13.new b s).isPanic = false ∧ (Ean8.new b s).isPanic = false ∧ (Upca.new b s).isPanic = false ∧
    (EanSupp.new s).isPanic = false ∧ (Code39.new s).isPanic = false ∧ (Code39.withChecksum s).isPanic = false ∧
    (Code93.new s).isPanic = false ∧ (Code11.new s).isPanic = false ∧ (Codabar.new s).isPanic = false ∧
    (TF.standard s).isPanic = false ∧ (Code128.new s).isPanic = false := by
  refine ⟨C01_ean13_new_no_panic b s, C06_ean8_new_no_panic b s, C08_upca_new_no_panic b s, ?_,
    (C13_code39_no_panic s).1, (C13_code39_no_panic s).2, C16_code93_no_panic s, C19_code11_no_panic s,
    C22_codabar_no_panic s, ?_, ?_⟩
  · exact C11_eansupp_new_no_panic s
  · simpa using C24_stf_no_panic s
  · simpa using C27_code128_new_no_panic s

example : Ean13.new .debug "75010313113x".toList = .err .character ∧ Ean13.new .debug [] = .err .length ∧
    Code128.new "é".toList = .err .character ∧ (Codabar.new (List.replicate 300 '1')).isPanic = false := by decide +kernel

/-- C30, partial. `TF::interleaved` panics exactly in debug builds, for an odd number of digits (of a string whose byte
length modulo 2^32 is in range) with a weighted sum of 256 or more; in release builds it never panics. The full
statement — no constructor panics — is therefore false: `C26_itf_debug_panics`. -/
theorem C30_itf_panics_iff_partial (b : Build) (s : List Char) :
    (TF.interleaved b s).isPanic = true ↔
      b = .debug ∧ 1 ≤ byteLen s % 2 ^ 32 ∧ byteLen s % 2 ^ 32 ≤ 256 ∧ AllDigits s ∧ s.length % 2 = 1 ∧
        256 ≤ altSum 3 (digitsOf s).reverse := by
  rw [itf_new]
  split
  · rename_i h
    simp only [Outcome.isPanic, Bool.false_eq_true, false_iff]
    rintro ⟨-, h1, h2, -⟩
    omega
  · split
    · rename_i h
      simp only [Outcome.isPanic, Bool.false_eq_true, false_iff]
      exact fun h' => h h'.2.2.2.1
    · rename_i hlen hD
      split
      · simp only [Outcome.isPanic, Bool.false_eq_true, false_iff]
        rintro ⟨-, -, -, -, h, -⟩
        omega
      · split
        · simp only [Outcome.isPanic, Bool.false_eq_true, false_iff]
          rintro ⟨-, -, -, -, -, h⟩
          omega
        · cases b with
          | debug =>
            rw [show (Outcome.panic Panic.overflow : Outcome TF.TF).isPanic = true from rfl]
            refine ⟨fun _ => ⟨rfl, by omega, by omega, by simpa using hD, by omega, by omega⟩, fun _ => rfl⟩
          | release => simp [Outcome.isPanic]

example : (TF.interleaved .debug (List.replicate 15 '9')).isPanic = true ∧
    (TF.interleaved .release (List.replicate 15 '9')).isPanic = false ∧
    (TF.interleaved .debug (List.replicate 16 '9')).isPanic = false := by decide

/-! ## C33: different data never give the same bars -/

theorem digitValue_inj (a c : Char) (ha : a.isDigit = true) (hc : c.isDigit = true) (h : digitValue a = digitValue c) :
    a = c := by
  have h1 := (toNat_isDigit a).mp ha
  have h2 := (toNat_isDigit c).mp hc
  have h0 : '0'.toNat = 48 := rfl
  unfold digitValue at h
  exact char_eq_of_toNat a c (by omega)

theorem digitsOf_inj (s t : List Char) (hs : AllDigits s) (ht : AllDigits t) (h : digitsOf s = digitsOf t) : s = t := by
  induction s generalizing t with
  | nil => cases t with
    | nil => rfl
    | cons c t => simp [digitsOf] at h
  | cons a s ih => cases t with
    | nil => simp [digitsOf] at h
    | cons c t =>
      simp only [digitsOf, List.map_cons, List.cons.injEq] at h
      rw [digitValue_inj a c (hs a (by simp)) (ht c (by simp)) h.1,
        ih t (fun x hx => hs x (by simp [hx])) (fun x hx => ht x (by simp [hx])) h.2]

theorem allDigits_take (n : Nat) (s : List Char) (h : AllDigits s) : AllDigits (s.take n) :=
  fun c hc => h c (List.mem_of_mem_take hc)

theorem digitsOf_take (n : Nat) (s : List Char) : (digitsOf s).take n = digitsOf (s.take n) := by
  simp [digitsOf, List.map_take]

theorem take_eq_of_digits (n : Nat) (s t : List Char) (hs : AllDigits s) (ht : AllDigits t)
    (h : (digitsOf s).take n = (digitsOf t).take n) : s.take n = t.take n := by
  rw [digitsOf_take, digitsOf_take] at h
  exact digitsOf_inj _ _ (allDigits_take n s hs) (allDigits_take n t ht) h

theorem ean13_digits (b : Build) (s : List Char) (x : Ean13.EAN13) (h : Ean13.new b s = .ok x) : AllDigits s := by
  rw [ean13_new] at h
  exact (decision_ok Ean13.EAN13.mk 12 s x h).2.1

theorem ean8_digits (b : Build) (s : List Char) (x : Ean8.EAN8) (h : Ean8.new b s = .ok x) : AllDigits s := by
  rw [ean8_new] at h
  exact (decision_ok Ean8.EAN8.mk 7 s x h).2.1

theorem upca_digits (b : Build) (s : List Char) (x : Upca.UPCA) (h : Upca.new b s = .ok x) : AllDigits s := by
  rw [upca_new] at h
  exact (decision_ok Upca.UPCA.mk 11 s x h).2.1

/-- C33. Two accepted EAN-13 (EAN-8, UPC-A) strings with the same bars have the same 12 (7, 11) data digits. -/
theorem C33_ean_injective (b b' : Build) (s t : List Char) (ms : List Nat) :
    (∀ x y, Ean13.new b s = .ok x → Ean13.new b' t = .ok y → Ean13.encode b x = .ok ms → Ean13.encode b' y = .ok ms →
      s.take 12 = t.take 12) ∧
    (∀ x y, Ean8.new b s = .ok x → Ean8.new b' t = .ok y → Ean8.encode b x = .ok ms → Ean8.encode b' y = .ok ms →
      s.take 7 = t.take 7) ∧
    (∀ x y, Upca.new b s = .ok x → Upca.new b' t = .ok y → Upca.encode b x = .ok ms → Upca.encode b' y = .ok ms →
      s.take 11 = t.take 11) := by
  refine ⟨fun x y hx hy ex ey => ?_, fun x y hx hy ex ey => ?_, fun x y hx hy ex ey => ?_⟩
  · obtain ⟨m, e1, r1⟩ := C02_ean13_scan b s x hx
    obtain ⟨m', e2, r2⟩ := C02_ean13_scan b' t y hy
    rw [ex] at e1
    rw [ey] at e2
    cases e1
    cases e2
    rw [r1, Option.some.injEq] at r2
    exact take_eq_of_digits 12 s t (ean13_digits b s x hx) (ean13_digits b' t y hy) (List.append_inj_left' r2 rfl)
  · obtain ⟨m, e1, r1⟩ := C07_ean8_scan b s x hx
    obtain ⟨m', e2, r2⟩ := C07_ean8_scan b' t y hy
    rw [ex] at e1
    rw [ey] at e2
    cases e1
    cases e2
    rw [r1, Option.some.injEq] at r2
    exact take_eq_of_digits 7 s t (ean8_digits b s x hx) (ean8_digits b' t y hy) (List.append_inj_left' r2 rfl)
  · obtain ⟨m, e1, r1⟩ := C09_upca_scan b s x hx
    obtain ⟨m', e2, r2⟩ := C09_upca_scan b' t y hy
    rw [ex] at e1
    rw [ey] at e2
    cases e1
    cases e2
    rw [r1, Option.some.injEq] at r2
    exact take_eq_of_digits 11 s t (upca_digits b s x hx) (upca_digits b' t y hy) (List.append_inj_left' r2 rfl)

example : (Ean13.new .debug "750103131130".toList >>= Ean13.encode .debug) ≠
    (Ean13.new .debug "750103131131".toList >>= Ean13.encode .debug) ∧
    (Ean8.new .debug "5512345".toList >>= Ean8.encode .debug) ≠ (Ean8.new .release "5512346".toList >>= Ean8.encode .release) := by
  decide

/-- C33. Two accepted supplemental strings with the same bars are equal. -/
theorem C33_supp_injective (b b' : Build) (s t : List Char) (x y : EanSupp.EANSUPP) (ms : List Nat)
    (hx : EanSupp.new s = .ok x) (hy : EanSupp.new t = .ok y) (ex : EanSupp.encode b x = .ok ms)
    (ey : EanSupp.encode b' y = .ok ms) : s = t := by
  obtain ⟨ws, e1, -, -, r1, d1, -⟩ := supp_symbol s x hx
  obtain ⟨ws', e2, -, -, r2, d2, -⟩ := supp_symbol t y hy
  rw [e1, Outcome.ok.injEq] at ex
  rw [e2, Outcome.ok.injEq] at ey
  rw [ex] at r1
  rw [ey, r1, Option.some.injEq] at r2
  exact digitsOf_inj s t d1 d2 r2

example : (EanSupp.new "12345".toList >>= EanSupp.encode .debug) ≠ (EanSupp.new "12354".toList >>= EanSupp.encode .debug) ∧
    (EanSupp.new "12345".toList >>= EanSupp.encode .debug).isPanic = false := by decide

/-- C33. Two accepted Code 39 (with or without check character), Code 93, Code 11 or Standard 2 of 5 strings with the same
bars are equal. -/
theorem C33_text_injective (s t : List Char) (ms : List Nat) :
    (∀ x y, Code39.new s = .ok x → Code39.new t = .ok y → Code39.encode x = .ok ms → Code39.encode y = .ok ms → s = t) ∧
    (∀ x y, Code39.withChecksum s = .ok x → Code39.withChecksum t = .ok y → Code39.encode x = .ok ms →
      Code39.encode y = .ok ms → s = t) ∧
    (∀ x y, Code93.new s = .ok x → Code93.new t = .ok y → Code93.encode x = .ok ms → Code93.encode y = .ok ms → s = t) ∧
    (∀ x y, Code11.new s = .ok x → Code11.new t = .ok y → Code11.encode x = .ok ms → Code11.encode y = .ok ms → s = t) ∧
    (∀ x y, TF.standard s = .ok x → TF.standard t = .ok y → TF.encode x = .ok ms → TF.encode y = .ok ms → s = t) := by
  refine ⟨fun x y hx hy ex ey => ?_, fun x y hx hy ex ey => ?_, fun x y hx hy ex ey => ?_, fun x y hx hy ex ey => ?_,
    fun x y hx hy ex ey => ?_⟩
  · obtain ⟨m, e1, r1⟩ := C14_code39_scan s x hx
    obtain ⟨m', e2, r2⟩ := C14_code39_scan t y hy
    rw [ex] at e1
    rw [ey] at e2
    cases e1
    cases e2
    rw [r1, Option.some.injEq] at r2
    exact r2
  · obtain ⟨m, e1, -, r1⟩ := C14_code39_checksum_scan s x hx
    obtain ⟨m', e2, -, r2⟩ := C14_code39_checksum_scan t y hy
    rw [ex] at e1
    rw [ey] at e2
    cases e1
    cases e2
    rw [r1, Option.some.injEq] at r2
    exact r2
  · obtain ⟨m, e1, r1⟩ := C17_code93_scan s x hx
    obtain ⟨m', e2, r2⟩ := C17_code93_scan t y hy
    rw [ex] at e1
    rw [ey] at e2
    cases e1
    cases e2
    rw [r1, Option.some.injEq] at r2
    exact r2
  · obtain ⟨m, e1, r1⟩ := C20_code11_scan s x hx
    obtain ⟨m', e2, r2⟩ := C20_code11_scan t y hy
    rw [ex] at e1
    rw [ey] at e2
    cases e1
    cases e2
    rw [r1, Option.some.injEq] at r2
    exact r2
  · obtain ⟨m, e1, r1⟩ := C24_stf_scan s x hx
    obtain ⟨m', e2, r2⟩ := C24_stf_scan t y hy
    rw [ex] at e1
    rw [ey] at e2
    cases e1
    cases e2
    rw [r1, Option.some.injEq] at r2
    exact digitsOf_inj s t (stf_symbol s x hx).1 (stf_symbol t y hy).1 r2

example : (Code39.new "AB".toList >>= Code39.encode) ≠ (Code39.new "BA".toList >>= Code39.encode) ∧
    (Code93.new "AB".toList >>= Code93.encode) ≠ (Code93.new "BA".toList >>= Code93.encode) ∧
    (Code11.new "1-".toList >>= Code11.encode) ≠ (Code11.new "-1".toList >>= Code11.encode) ∧
    (TF.standard "12".toList >>= TF.encode) ≠ (TF.standard "21".toList >>= TF.encode) := by decide +kernel
/-- With and without the check character the same symbol can stand for two texts. -/
example : (Code39.withChecksum "1".toList >>= Code39.encode) = (Code39.new "11".toList >>= Code39.encode) := by decide

theorem flatMap_codes_inj {α : Type} (k : Nat) (hk : 0 < k) (f : α → List Nat) (l m : List α)
    (hl : ∀ a ∈ l, (f a).length = k) (hm : ∀ a ∈ m, (f a).length = k) (inj : ∀ a ∈ l, ∀ c ∈ m, f a = f c → a = c)
    (h : l.flatMap f = m.flatMap f) : l = m := by
  induction l generalizing m with
  | nil =>
    cases m with
    | nil => rfl
    | cons c m =>
      have := congrArg List.length h
      rw [List.flatMap_cons, List.length_append, hm c (by simp)] at this
      simp at this
      omega
  | cons a l ih =>
    cases m with
    | nil =>
      have := congrArg List.length h
      rw [List.flatMap_cons, List.length_append, hl a (by simp)] at this
      simp at this
      omega
    | cons c m =>
      rw [List.flatMap_cons, List.flatMap_cons] at h
      obtain ⟨h1, h2⟩ := List.append_inj h (by rw [hl a (by simp), hm c (by simp)])
      rw [inj a (by simp) c (by simp) h1, ih m (fun x hx => hl x (by simp [hx])) (fun x hx => hm x (by simp [hx]))
        (fun x hx y hy => inj x (by simp [hx]) y (by simp [hy])) h2]

theorem wU_inj : ∀ c ∈ codabarAlphabet, ∀ d ∈ codabarAlphabet, wU (unitOf c) = wU (unitOf d) → c = d := by decide

/-- C33. Two accepted Codabar strings with the same bars are equal, whatever characters they contain. -/
theorem C33_codabar_injective (s t : List Char) (x y : Codabar.Codabar) (hx : Codabar.new s = .ok x)
    (hy : Codabar.new t = .ok y) (h : Codabar.encode x = Codabar.encode y) : s = t := by
  obtain ⟨cs, c, rfl, hA, e1⟩ := codabar_symbol s x hx
  obtain ⟨ds, d, rfl, hB, e2⟩ := codabar_symbol t y hy
  rw [e1, e2] at h
  have h' := congrArg elements h
  rw [codabar_elements, codabar_elements, Option.some.injEq] at h'
  have h2 := congrArg (· ++ [1]) h'
  simp only [codabar_gap] at h2
  have e : ∀ (l : List Char) (a : Char), l.map unitOf ++ [unitOf a] = (l ++ [a]).map unitOf := by simp
  rw [e, e, List.flatMap_map, List.flatMap_map] at h2
  refine flatMap_codes_inj 8 (by omega) _ _ _ ?_ ?_ ?_ h2
  · intro a _; simp [(wU_spec (unitOf a)).2.1]
  · intro a _; simp [(wU_spec (unitOf a)).2.1]
  · intro a ha c hc hac
    exact wU_inj a (hA a ha) c (hB c hc) (List.append_inj_left' hac rfl)

example : ∃ x y, Codabar.new "A1:B".toList = .ok x ∧ Codabar.new "A1/B".toList = .ok y ∧
    (Codabar.encode x).length = (Codabar.encode y).length ∧ Codabar.encode x ≠ Codabar.encode y := ⟨_, _, rfl, rfl, by decide⟩

/-- C33. Two accepted Interleaved 2 of 5 strings with the same bars are equal, or one is the other followed by its check
digit. -/
theorem C33_itf_injective (b b' : Build) (s t : List Char) (x y : TF.TF) (ms : List Nat)
    (hx : TF.interleaved b s = .ok x) (hy : TF.interleaved b' t = .ok y) (ex : TF.encode x = .ok ms)
    (ey : TF.encode y = .ok ms) :
    s = t ∨ (∃ c, s = t ++ [c] ∧ t.length % 2 = 1) ∨ (∃ c, t = s ++ [c] ∧ s.length % 2 = 1) := by
  obtain ⟨ds, d1, v1, -, a1, c1, e1⟩ := itf_symbol b s x hx
  obtain ⟨es, d2, v2, -, a2, c2, e2⟩ := itf_symbol b' t y hy
  rw [e1] at ex
  rw [e2] at ey
  cases ex
  have h : ds = es := by
    have h1 := scanItf_paint ds d1 v1
    have h2 := scanItf_paint es d2 v2
    rw [Outcome.ok.injEq] at ey
    rw [ey, h1, Option.some.injEq] at h2
    exact h2
  subst h
  have split1 : ∀ (u v : List Char) (c : Nat), AllDigits u → AllDigits v → digitsOf u = digitsOf v ++ [c] →
      ∃ a, u = v ++ [a] := by
    intro u v c hu hv h
    have hne : u ≠ [] := by rintro rfl; simp [digitsOf] at h
    refine ⟨u.getLast hne, ?_⟩
    have hcs := List.dropLast_concat_getLast hne
    have h3 : digitsOf u.dropLast = digitsOf v := by
      rw [← hcs, digitsOf, List.map_append] at h
      exact List.append_inj_left' h (by simp)
    have := digitsOf_inj _ _ (fun c hc => hu c (List.dropLast_subset u hc)) hv h3
    rw [← this, hcs]
  rcases c1 with ⟨p1, rfl⟩ | ⟨p1, k1, -, rfl⟩
  · rcases c2 with ⟨p2, h⟩ | ⟨p2, k2, -, h⟩
    · exact Or.inl (digitsOf_inj s t a1 a2 h)
    · obtain ⟨a, ha⟩ := split1 s t k2 a1 a2 h
      exact Or.inr (Or.inl ⟨a, ha, p2⟩)
  · rcases c2 with ⟨p2, h⟩ | ⟨p2, k2, -, h⟩
    · obtain ⟨a, ha⟩ := split1 t s k1 a2 a1 h.symm
      exact Or.inr (Or.inr ⟨a, ha, p1⟩)
    · exact Or.inl (digitsOf_inj s t a1 a2 (List.append_inj_left' h rfl))

example : (TF.interleaved .debug "123".toList >>= TF.encode) = (TF.interleaved .release "1236".toList >>= TF.encode) ∧
    (TF.interleaved .debug "1234".toList >>= TF.encode) ≠ (TF.interleaved .debug "1236".toList >>= TF.encode) := by decide

theorem code128_head_tail (u v : List Char) (h1 : u.head? = v.head?) (h2 : u.tail = v.tail) (hne : u ≠ []) : u = v := by
  cases u with
  | nil => exact absurd rfl hne
  | cons a u => cases v with
    | nil => simp at h1
    | cons c v => simp_all

/-- C33. Two accepted Code 128 strings with the same bars are equal after joining the digit pairs of set C that an FNC1
splits, whatever their length; strings without such split pairs are equal. -/
theorem C33_code128_injective (b b' : Build) (s t : List Char) (x y : Code128.Code128) (ms : List Nat)
    (hx : Code128.new s = .ok x) (hy : Code128.new t = .ok y) (ex : Code128.encode b x = .ok ms)
    (ey : Code128.encode b' y = .ok ms) :
    code128Regroup s = code128Regroup t ∧ (Code128StrictForm s → Code128StrictForm t → s = t) := by
  obtain ⟨set, data, c, h1, h2, h3, rfl⟩ := code128_symbol b s x ms hx ex
  obtain ⟨set', data', c', h1', h2', h3', hp⟩ := code128_symbol b' t y _ hy ey
  have hr := congrArg readCode128 hp
  rw [readCode128_paint _ h3, readCode128_paint _ h3', Option.some.injEq] at hr
  simp only [List.cons_append, List.cons.injEq] at hr
  obtain ⟨hs, hd⟩ := hr
  have hset : set = set' := by
    have := congrArg code128Start hs
    rw [code128Start_start, code128Start_start, Option.some.injEq] at this
    exact this
  have hdata : data = data' := List.append_inj_left' hd rfl
  subst hset hdata
  have hg : code128Regroup s = code128Regroup t := by
    refine code128_head_tail _ _ (h2.trans h2'.symm) ?_ ?_
    · rw [h1, Option.some.injEq] at h1'
      exact h1'
    · intro h0
      rw [h0] at h2
      cases h2
  refine ⟨hg, fun ss st => ?_⟩
  have ws := ((C27_code128_new s).2.1).mp ⟨x, hx⟩
  have wt := ((C27_code128_new t).2.1).mp ⟨y, hy⟩
  rw [← (regroup_eq_iff s ws).mpr ss, ← (regroup_eq_iff t wt).mpr st, hg]

-- Strings that do share their bars: with and without the check digit, and a split digit pair.
example : (Ean13.new .debug "750103131130".toList >>= Ean13.encode .debug) =
    (Ean13.new .debug "7501031311309".toList >>= Ean13.encode .debug) := by decide
example : (TF.interleaved .debug "1234567".toList >>= TF.encode) = (TF.interleaved .debug "12345670".toList >>= TF.encode) := by
  decide

/-! ## C45: length limits -/

/-- C45. The variable-length constructors answer `Length` exactly when the number of bytes, modulo 2^32, is not from 1 to
256, for every string. -/
theorem C45_length_error_iff (b : Build) (s : List Char) :
    (Code39.new s = .err .length ↔ ¬ (1 ≤ byteLen s % 2 ^ 32 ∧ byteLen s % 2 ^ 32 ≤ 256)) ∧
    (Code39.withChecksum s = .err .length ↔ ¬ (1 ≤ byteLen s % 2 ^ 32 ∧ byteLen s % 2 ^ 32 ≤ 256)) ∧
    (Code93.new s = .err .length ↔ ¬ (1 ≤ byteLen s % 2 ^ 32 ∧ byteLen s % 2 ^ 32 ≤ 256)) ∧
    (Code11.new s = .err .length ↔ ¬ (1 ≤ byteLen s % 2 ^ 32 ∧ byteLen s % 2 ^ 32 ≤ 256)) ∧
    (Codabar.new s = .err .length ↔ ¬ (1 ≤ byteLen s % 2 ^ 32 ∧ byteLen s % 2 ^ 32 ≤ 256)) ∧
    (TF.standard s = .err .length ↔ ¬ (1 ≤ byteLen s % 2 ^ 32 ∧ byteLen s % 2 ^ 32 ≤ 256)) ∧
    (TF.interleaved b s = .err .length ↔ ¬ (1 ≤ byteLen s % 2 ^ 32 ∧ byteLen s % 2 ^ 32 ≤ 256)) := by
  have h39 : ∀ k, Code39.init s k = .err .length ↔ ¬ (1 ≤ byteLen s % 2 ^ 32 ∧ byteLen s % 2 ^ 32 ≤ 256) := by
    intro k
    rw [code39_init]
    split
    · simp; omega
    · split <;> simp <;> omega
  refine ⟨h39 false, h39 true, ?_, ?_, ?_, ?_, ?_⟩
  · rw [code93_new]
    split
    · simp; omega
    · split <;> simp <;> omega
  · rw [code11_new]
    split
    · simp; omega
    · split <;> simp <;> omega
  · rw [codabar_new]
    split
    · simp; omega
    · split <;> simp <;> omega
  · rw [stf_new]
    split
    · simp; omega
    · split <;> simp <;> omega
  · rw [itf_new]
    split
    · simp; omega
    · split
      · simp; omega
      · split
        · simp; omega
        · split
          · simp; omega
          · cases b <;> simp <;> omega

example : Code39.new [] = .err .length ∧ Code39.new (List.replicate 257 'A') = .err .length ∧
    Code93.new (List.replicate 128 'é') = .err .character ∧ Code93.new (List.replicate 129 'é') = .err .length := by
  decide +kernel

/-- C45. Both limits are inclusive: strings of one and of 256 characters of the alphabet are accepted, and no string below
4 GiB with no or more than 256 characters is. -/
theorem C45_limits_inclusive (s : List Char) (hs : byteLen s < 2 ^ 32) :
    ((∀ c ∈ s, c ∈ code39Alphabet) → ((∃ x, Code39.new s = .ok x) ↔ 1 ≤ s.length ∧ s.length ≤ 256)) ∧
    ((∀ c ∈ s, c ∈ code39Alphabet) → ((∃ x, Code39.withChecksum s = .ok x) ↔ 1 ≤ s.length ∧ s.length ≤ 256)) ∧
    ((∀ c ∈ s, c ∈ code93Alphabet) → ((∃ x, Code93.new s = .ok x) ↔ 1 ≤ s.length ∧ s.length ≤ 256)) ∧
    ((∀ c ∈ s, c ∈ code11Alphabet) → ((∃ x, Code11.new s = .ok x) ↔ 1 ≤ s.length ∧ s.length ≤ 256)) ∧
    ((∀ c ∈ s, c ∈ codabarAlphabet) → ((∃ x, Codabar.new s = .ok x) ↔ 1 ≤ s.length ∧ s.length ≤ 256)) ∧
    (AllDigits s → ((∃ x, TF.standard s = .ok x) ↔ 1 ≤ s.length ∧ s.length ≤ 256)) ∧
    (AllDigits s → ((∃ x, TF.interleaved .release s = .ok x) ↔ 1 ≤ s.length ∧ s.length ≤ 256)) := by
  refine ⟨fun h => ?_, fun h => ?_, fun h => ?_, fun h => ?_, fun h => ?_, fun h => ?_, fun h => ?_⟩
  · rw [(C13_code39_accepts s hs).1]; exact ⟨fun a => ⟨a.1, a.2.1⟩, fun a => ⟨a.1, a.2, h⟩⟩
  · rw [(C13_code39_accepts s hs).2]; exact ⟨fun a => ⟨a.1, a.2.1⟩, fun a => ⟨a.1, a.2, h⟩⟩
  · rw [C16_code93_accepts s hs]; exact ⟨fun a => ⟨a.1, a.2.1⟩, fun a => ⟨a.1, a.2, h⟩⟩
  · rw [C19_code11_accepts s hs]; exact ⟨fun a => ⟨a.1, a.2.1⟩, fun a => ⟨a.1, a.2, h⟩⟩
  · rw [C22_codabar_accepts s hs]; exact ⟨fun a => ⟨a.1, a.2.1⟩, fun a => ⟨a.1, a.2, h⟩⟩
  · rw [C24_stf_accepts s hs]; exact ⟨fun a => a.2, fun a => ⟨h, a⟩⟩
  · have hb := digits_byteLen s h
    rw [itf_new, Nat.mod_eq_of_lt hs, hb]
    constructor
    · rintro ⟨x, hx⟩
      split at hx
      · cases hx
      · omega
    · rintro ⟨h1, h2⟩
      rw [if_neg (by omega), if_neg (by simpa using h)]
      split
      · exact ⟨_, rfl⟩
      · split <;> exact ⟨_, rfl⟩

example : (∃ x, Code11.new (List.replicate 256 '-') = .ok x) ∧ Code11.new (List.replicate 257 '-') = .err .length :=
  ⟨⟨⟨List.replicate 256 '-'⟩, by decide +kernel⟩, by decide +kernel⟩

theorem ean13_zeros (b : Build) (n : Nat) (h : n % 2 ^ 32 = 12) :
    Ean13.new b (List.replicate n '0') = .ok ⟨List.replicate 12 0⟩ := by
  have hd : AllDigits (List.replicate n '0') := by
    intro c hc
    rw [(List.mem_replicate.mp hc).2]
    decide
  rw [ean13_new, digits_byteLen _ hd, List.length_replicate, if_neg (by omega), if_neg (not_not_intro hd),
    if_neg (by omega)]
  congr 2
  rw [digitsOf, List.map_replicate, List.take_replicate, Nat.min_eq_left (by omega)]
  rfl

theorem code39_as (n : Nat) (h : n % 2 ^ 32 = 1) : ∃ x, Code39.new (List.replicate n 'A') = .ok x := by
  have hA : ∀ c ∈ List.replicate n 'A', c ∈ code39Alphabet := by
    intro c hc
    rw [(List.mem_replicate.mp hc).2]
    decide
  refine ⟨⟨List.replicate n 'A', false⟩, (code39_init _ false).trans ?_⟩
  rw [code39_byteLen _ hA, List.length_replicate, if_neg (by omega), if_pos hA]

/-- C45, and a finding: the length is truncated to 32 bits before it is checked, so strings of 4 GiB and more are accepted
again. Twelve digits are asked for; 4294967308 zeros are accepted, and encoded as twelve. Likewise 4294967297 letters are
accepted by Code 39. -/
theorem C45_huge_strings_accepted (b : Build) :
    Ean13.new b (List.replicate (2 ^ 32 + 12) '0') = .ok ⟨List.replicate 12 0⟩ ∧
    ∃ x, Code39.new (List.replicate (2 ^ 32 + 1) 'A') = .ok x :=
  ⟨ean13_zeros b _ (by omega), code39_as _ (by omega)⟩

end Barcoders
