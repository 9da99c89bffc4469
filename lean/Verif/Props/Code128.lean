import Verif.Lemmas.Code128

/-!
# Code 128 (C27, C28, C29)
-/

set_option autoImplicit false

namespace Barcoders
open Spec

theorem byteLen_cons (c : Char) (s : List Char) : byteLen (c :: s) = c.utf8Size + byteLen s := by
  rw [← strLen_eq_byteLen, ← strLen_eq_byteLen]; simp [strLen]

theorem char_size (set : CodeSet) : set.char.utf8Size = 2 := by cases set <;> decide

theorem wf_byteLen (s : List Char) (h : Code128WellFormed s) : 2 ≤ byteLen s := by
  obtain ⟨set, r, rfl, _⟩ := h
  rw [byteLen_cons, char_size]
  omega

/-! ## C27 -/

theorem code128_parse_ok (s : List Char) (h : Code128WellFormed s) :
    ∃ set r vs us, s = CodeSet.char set :: r ∧ run128 set none r = some vs ∧ Code128.parseUnits s = .ok us ∧
      us.map Code128.Unit.index = set.start :: vs := by
  obtain ⟨set, r, rfl, hD⟩ := h
  have hr := ((run128_iff r).1 set).mpr hD
  rw [Option.isSome_iff_exists] at hr
  obtain ⟨vs, hvs⟩ := hr
  have := parseUnits_eq (set.char :: r)
  simp only [(setOf_iff _ _).mpr rfl, hvs] at this
  obtain ⟨us, h1, h2⟩ := this
  exact ⟨set, r, vs, us, rfl, hvs, h1, h2⟩

theorem code128_parse_err (s : List Char) (hne : s ≠ []) (h : ¬ Code128WellFormed s) :
    Code128.parseUnits s = .err .character := by
  have := parseUnits_eq s
  cases s with
  | nil => exact absurd rfl hne
  | cons c r =>
    simp only [] at this
    cases hs : setOf c with
    | none => simpa only [hs] using this
    | some set =>
      rw [hs] at this
      cases hr : run128 set none r with
      | none => simpa only [hr] using this
      | some vs =>
        exfalso
        apply h
        refine ⟨set, r, by rw [(setOf_iff c set).mp hs], ?_⟩
        rw [← (run128_iff r).1 set, hr]
        rfl

/-- C27: the decision for every string. -/
theorem C27_code128_new (s : List Char) :
    (Code128.new s = .err .length ↔ byteLen s < 2) ∧
    ((∃ x, Code128.new s = .ok x) ↔ Code128WellFormed s) ∧
    (Code128.new s = .err .character ↔ 2 ≤ byteLen s ∧ ¬ Code128WellFormed s) := by
  unfold Code128.new
  rw [strLen_eq_byteLen]
  by_cases hb : byteLen s < 2
  · have hw : ¬ Code128WellFormed s := fun h => by have := wf_byteLen s h; omega
    simp only [hb, if_true]
    refine ⟨by simp, by simp [hw], by simp; omega⟩
  · rw [if_neg hb]
    by_cases hw : Code128WellFormed s
    · obtain ⟨set, r, vs, us, _, _, h, _⟩ := code128_parse_ok s hw
      rw [h]
      refine ⟨by simp; omega, by simp [hw], by simp [hw]⟩
    · rw [code128_parse_err s (by rintro rfl; exact hb (by decide)) hw]
      refine ⟨by simp; omega, by simp [hw], by simp [hw]; omega⟩

example : Code128.new "Ć1".toList = .err .character ∧ Code128.new "".toList = .err .length ∧ (Code128.new "Ć12".toList).isOk = true := by
  decide +kernel

theorem C27_code128_new_no_panic (s : List Char) : ¬ (Code128.new s).isPanic := by
  have h := C27_code128_new s
  by_cases h1 : byteLen s < 2
  · rw [h.1.mpr h1]; simp [Outcome.isPanic]
  · by_cases h2 : Code128WellFormed s
    · obtain ⟨x, hx⟩ := h.2.1.mpr h2
      rw [hx]; simp [Outcome.isPanic]
    · rw [h.2.2.mpr ⟨by omega, h2⟩]; simp [Outcome.isPanic]

example : Code128WellFormed "ÀHIĆ345678".toList := by
  have h : Code128Data .C "345678".toList :=
    .pair '3' '4' 0 _ rfl rfl (.pair '5' '6' 0 _ rfl rfl (.pair '7' '8' 0 _ rfl rfl (.nil _)))
  exact ⟨.A, _, rfl, .single _ 'H' _ (by decide) (.single _ 'I' _ (by decide) (.switch .A .C _ (by decide) h))⟩
example : ∃ x, Code128.new "ÀHIĆ345678".toList = .ok x := ⟨_, rfl⟩
example : Code128.new "ÀHIĆ34567".toList = .err .character := by decide +kernel
example : Code128.new "HI".toList = .err .character := by decide +kernel
example : Code128.new "H".toList = .err .length := by decide +kernel
/-- Switching to the set in force is rejected, a lone code-set character is accepted. -/
example : Code128.new "ÀÀ".toList = .err .character ∧ (Code128.new "À".toList).isOk := by decide +kernel

/-! ## C28, C29 -/

theorem positionSum_le (k : Nat) (vs : List Nat) (h : ∀ v ∈ vs, v < 103) :
    2 * positionSum k vs + 102 * vs.length ≤ 102 * (2 * (k * vs.length) + vs.length * vs.length) := by
  induction vs generalizing k with
  | nil => simp [positionSum]
  | cons v vs ih =>
    have h1 := ih (k + 1) (fun v hv => h v (by simp [hv]))
    have h2 : k * v ≤ k * 102 := Nat.mul_le_mul_left k (by have := h v (by simp); omega)
    simp only [positionSum, List.length_cons]
    generalize vs.length = n at *
    generalize positionSum (k + 1) vs = p at *
    have e1 : (k + 1) * n = k * n + n := by rw [Nat.add_mul, Nat.one_mul]
    have e2 : k * (n + 1) = k * n + k := by rw [Nat.mul_add, Nat.mul_one]
    have e3 : (n + 1) * (n + 1) = n * n + n + n + 1 := by rw [Nat.mul_add, Nat.add_mul]; omega
    rw [e1] at h1
    rw [e2, e3]
    generalize k * n = x at *
    generalize n * n = y at *
    omega

theorem run128_length (s : List Char) (set : CodeSet) (p : Option Char) (vs : List Nat) (h : run128 set p s = some vs) :
    vs.length ≤ s.length := by
  induction s generalizing set p vs with
  | nil => cases p <;> simp [run128] at h; simp [← h]
  | cons c s ih =>
    have push : ∀ set p (v : Nat), (run128 set p s).map (v :: ·) = some vs → vs.length ≤ (c :: s).length := by
      intro set p v h
      rw [Option.map_eq_some_iff] at h
      obtain ⟨ws, hw, rfl⟩ := h
      have := ih set p ws hw
      simp only [List.length_cons]
      omega
    rw [run128_cons] at h
    cases hs : setOf c with
    | some set' =>
      rw [hs] at h
      cases p with
      | some d => cases h
      | none =>
        simp only [Option.bind_eq_some_iff] at h
        obtain ⟨v, _, h⟩ := h
        exact push _ _ v h
    | none =>
      rw [hs] at h
      simp only [] at h
      split at h
      · cases p with
        | none => have := ih _ _ _ h; simp only [List.length_cons]; omega
        | some d =>
          simp only [Option.bind_eq_some_iff] at h
          obtain ⟨v, _, h⟩ := h
          exact push _ _ v h
      · simp only [Option.bind_eq_some_iff] at h
        obtain ⟨v, _, h⟩ := h
        exact push _ _ v h

theorem start_lt (set : CodeSet) : set.start < 106 := by cases set <;> decide

theorem regroup_whole (set : CodeSet) (r : List Char) :
    code128Regroup (set.char :: r) = set.char :: regroup set none r := by cases set <;> rfl

theorem code128Start_start (set : CodeSet) : code128Start set.start = some set := by cases set <;> rfl

/-- Everything about the symbol of an accepted string. -/
theorem code128_symbols (s : List Char) (x : Code128.Code128) (h : Code128.new s = .ok x) :
    ∃ set data, code128Decode set data = some (code128Regroup s).tail ∧
      (code128Regroup s).head? = some (CodeSet.char set) ∧
      (∀ v ∈ data, v < 103) ∧ data.length < s.length ∧
      x.units.map Code128.Unit.index = set.start :: data := by
  have hw := (C27_code128_new s).2.1.mp ⟨x, h⟩
  obtain ⟨set, r, vs, us, rfl, hr, hp, hi⟩ := code128_parse_ok s hw
  have hb := wf_byteLen _ hw
  unfold Code128.new at h
  rw [strLen_eq_byteLen, if_neg (by omega), hp] at h
  simp only [Outcome.ok_bind, Outcome.ok.injEq] at h
  subst h
  have hd := decode_run r set none (by simp) vs hr
  refine ⟨set, vs, ?_, ?_, hd.2, ?_, hi⟩
  · rw [regroup_whole, hd.1]; rfl
  · rw [regroup_whole]; rfl
  · have := run128_length r set none vs hr
    simp only [List.length_cons]
    omega

theorem verifyCode128_ok (start c : Nat) (data : List Nat) (h : c = code128Sum start data % 103) :
    verifyCode128 (start :: data ++ [c]) = some (start, data) := by
  subst h
  simp [verifyCode128]

/-- What `encode` does for every accepted string of fewer than 2^31 characters: everything depends on the (unreduced) check
sum of its symbols. -/
theorem code128_encode_cases (s : List Char) (x : Code128.Code128) (h : Code128.new s = .ok x) (hl : s.length < 2 ^ 31) :
    ∃ set data, code128Decode set data = some (code128Regroup s).tail ∧
      (code128Regroup s).head? = some (CodeSet.char set) ∧ (∀ v ∈ data, v < 103) ∧ data.length < s.length ∧
      (∀ b c, c < 106 → Code128.checksumValue b x = .ok c →
        ∃ ms, Code128.encode b x = .ok ms ∧ readCode128 ms = some (set.start :: data ++ [c])) ∧
      (∀ b p, Code128.checksumValue b x = .panic p → Code128.encode b x = .panic p) ∧
      (∀ b c, 106 ≤ c → Code128.checksumValue b x = .ok c → Code128.encode b x = .panic .bounds) ∧
      (∀ b, code128Sum set.start data < 2 ^ 31 →
        Code128.checksumValue b x = .ok (code128Sum set.start data % 103)) ∧
      (2 ^ 31 ≤ code128Sum set.start data → Code128.checksumValue .debug x = .panic .overflow) ∧
      Code128.checksumValue .release x = .ok (asU8 ((asI32 (code128Sum set.start data : Nat)).tmod 103)) := by
  obtain ⟨set, data, h1, h2, h3, h4, h5⟩ := code128_symbols s x h
  obtain ⟨us⟩ := x
  simp only [] at h5
  have hlt : ∀ v ∈ us.map Code128.Unit.index, v < 106 := by
    rw [h5]
    intro v hv
    rw [List.mem_cons] at hv
    rcases hv with rfl | hv
    · exact start_lt set
    · have := h3 v hv; omega
  refine ⟨set, data, h1, h2, h3, h4, ?_, ?_, ?_, ?_⟩
  · intro b c hc hs
    refine ⟨_, encode128_ok b us c hlt hc hs, ?_⟩
    rw [readCode128_paint, h5]
    intro v hv
    rw [List.mem_append, List.mem_singleton] at hv
    rcases hv with hv | rfl
    · exact hlt v hv
    · exact hc
  · intro b p hp
    unfold Code128.encode Code128.checksumEncoding
    rw [payload128 us hlt, hp]
    rfl
  · intro b c hc hs
    unfold Code128.encode Code128.checksumEncoding
    rw [payload128 us hlt, hs, Outcome.ok_bind, Outcome.ok_bind, unitEncoding_panic _ hc]
    rfl
  · cases us with
    | nil => simp at h5
    | cons u us =>
      simp only [List.map_cons, List.cons.injEq] at h5
      have := checksum128 u us (by
          have : (us.map Code128.Unit.index).length = data.length := by rw [h5.2]
          rw [List.length_map] at this
          omega)
        (fun v hv => hlt v.index (List.mem_map_of_mem hv))
      rw [h5.1, h5.2] at this
      exact this

/-- Full C28: for every accepted string the reader reads exactly the string. Missing: strings of more than 6489 characters,
for which `encode` may panic or write a wrong check symbol (`C29_…` below); and strings in which an FNC1 splits a digit pair
of set C, which are read with the pair moved behind the FNC1 (this theorem, and `C28_code128_split_pair`). -/
theorem C28_code128_scan_regrouped_partial (b : Build) (s : List Char) (x : Code128.Code128) (h : Code128.new s = .ok x)
    (hl : s.length ≤ 6489) :
    ∃ ms, Code128.encode b x = .ok ms ∧ scanCode128 ms = some (code128Regroup s) := by
  obtain ⟨set, data, h1, h2, h3, h4, henc, _, _, hsum, _⟩ := code128_encode_cases s x h (by omega)
  have hS : code128Sum set.start data < 2 ^ 31 := by
    have := positionSum_le 1 data h3
    have hst := start_lt set
    have hn : data.length * data.length ≤ 6488 * 6488 := Nat.mul_le_mul (by omega) (by omega)
    unfold code128Sum
    omega
  obtain ⟨ms, he, hr⟩ := henc b _ (by omega) (hsum b hS)
  refine ⟨ms, he, ?_⟩
  have hlist : code128Regroup s = set.char :: (code128Regroup s).tail := by
    cases hR : code128Regroup s with
    | nil => rw [hR] at h2; cases h2
    | cons a r => rw [hR] at h2; simp at h2; simp [h2]
  simp only [scanCode128, hr, Option.bind_eq_bind, Option.bind_some, verifyCode128_ok _ _ _ rfl, code128Start_start, h1]
  rw [← hlist]

-- a function character between the two digits of a pair comes out before the pair
example : ∃ x ms, Code128.new ['Ć', '1', fnc1, '2'] = .ok x ∧ Code128.encode .debug x = .ok ms ∧
    scanCode128 ms = some ['Ć', fnc1, '1', '2'] ∧ code128Regroup ['Ć', '1', fnc1, '2'] = ['Ć', fnc1, '1', '2'] :=
  ⟨_, _, rfl, rfl, by decide +kernel, by decide⟩

theorem regroup_eq_iff (s : List Char) (h : Code128WellFormed s) : code128Regroup s = s ↔ Code128StrictForm s := by
  obtain ⟨set, r, rfl, hD⟩ := h
  rw [regroup_whole]
  constructor
  · intro h
    simp only [List.cons.injEq, true_and] at h
    exact ⟨set, r, rfl, strict_of_regroup set r hD h⟩
  · rintro ⟨set', r', h1, h2⟩
    simp only [List.cons.injEq] at h1
    obtain ⟨h1, rfl⟩ := h1
    have : set = set' := by
      have := (setOf_iff _ set').mpr h1
      rw [(setOf_iff _ set).mpr rfl] at this
      cases this; rfl
    subst this
    rw [regroup_strict set r h2]

/-- C28 for data whose digit pairs are adjacent: exactly the data is read. -/
theorem C28_code128_scan_partial (b : Build) (s : List Char) (hs : Code128StrictForm s) (hl : s.length ≤ 6489) :
    ∃ x ms, Code128.new s = .ok x ∧ Code128.encode b x = .ok ms ∧ scanCode128 ms = some s := by
  have hw : Code128WellFormed s := by
    obtain ⟨set, r, rfl, h⟩ := hs
    exact ⟨set, r, rfl, data_of_strict set r h⟩
  obtain ⟨x, hx⟩ := (C27_code128_new s).2.1.mpr hw
  obtain ⟨ms, h1, h2⟩ := C28_code128_scan_regrouped_partial b s x hx hl
  exact ⟨x, ms, hx, h1, by rw [h2, (regroup_eq_iff s hw).mpr hs]⟩

example : ∃ x ms, Code128.new "ƁaĆ0042".toList = .ok x ∧ Code128.encode .release x = .ok ms ∧
    scanCode128 ms = some "ƁaĆ0042".toList := ⟨_, _, rfl, rfl, by decide +kernel⟩

/-- C28, exactly when it holds (up to 6489 characters): the data is read back unchanged if and only if no digit pair of set C
is split. -/
theorem C28_code128_scan_iff (b : Build) (s : List Char) (x : Code128.Code128) (h : Code128.new s = .ok x)
    (hl : s.length ≤ 6489) :
    (∃ ms, Code128.encode b x = .ok ms ∧ scanCode128 ms = some s) ↔ Code128StrictForm s := by
  have hw := (C27_code128_new s).2.1.mp ⟨x, h⟩
  obtain ⟨ms, h1, h2⟩ := C28_code128_scan_regrouped_partial b s x h hl
  rw [← regroup_eq_iff s hw]
  constructor
  · rintro ⟨ms', h3, h4⟩
    rw [h1] at h3
    cases h3
    rw [h2] at h4
    exact Option.some.inj h4
  · intro hR
    exact ⟨ms, h1, by rw [h2, hR]⟩

example : ∃ x ms, Code128.new "ƁHiĆ42".toList = .ok x ∧ Code128.encode .release x = .ok ms ∧
    scanCode128 ms = some "ƁHiĆ42".toList := ⟨_, _, rfl, rfl, by decide +kernel⟩

/-- C28 is false when FNC1 splits a pair: two different strings, one picture. -/
theorem C28_code128_split_pair :
    ∃ ms, (Code128.new ['Ć', '1', fnc1, '2'] >>= Code128.encode .debug) = .ok ms ∧
      (Code128.new ['Ć', fnc1, '1', '2'] >>= Code128.encode .debug) = .ok ms ∧
      scanCode128 ms = some ['Ć', fnc1, '1', '2'] :=
  ⟨_, rfl, rfl, by decide +kernel⟩

example : ∃ ms, (Code128.new "ÀHIĆ345678".toList >>= Code128.encode .debug) = .ok ms ∧
    scanCode128 ms = some "ÀHIĆ345678".toList := ⟨_, rfl, by decide +kernel⟩

/-- Full C29: for every accepted string, in both builds, the symbols spell the text and the last one is their
sum modulo 103. Proved for up to 6489
characters; missing are longer strings, for which it is false (below). -/
theorem C29_code128_check_partial (b : Build) (s : List Char) (x : Code128.Code128) (h : Code128.new s = .ok x)
    (hl : s.length ≤ 6489) :
    ∃ ms set data, code128Decode set data = some (code128Regroup s).tail ∧
      (code128Regroup s).head? = some (CodeSet.char set) ∧ Code128.encode b x = .ok ms ∧
      readCode128 ms = some (set.start :: data ++ [code128Sum set.start data % 103]) := by
  obtain ⟨set, data, h1, h2, h3, h4, henc, _, _, hsum, _⟩ := code128_encode_cases s x h (by omega)
  have hS : code128Sum set.start data < 2 ^ 31 := by
    have := positionSum_le 1 data h3
    have hst := start_lt set
    have hn : data.length * data.length ≤ 6488 * 6488 := Nat.mul_le_mul (by omega) (by omega)
    unfold code128Sum
    omega
  obtain ⟨ms, he, hr⟩ := henc b _ (by omega) (hsum b hS)
  exact ⟨ms, set, data, h1, h2, he, hr⟩

example : ∃ x ms, Code128.new "ÀHI".toList = .ok x ∧ Code128.encode .debug x = .ok ms ∧
    readCode128 ms = some [103, 40, 41, (103 + 40 + 2 * 41) % 103] := ⟨_, _, rfl, rfl, by decide +kernel⟩

theorem code128_check_symbol (b : Build) (s : List Char) (x : Code128.Code128) (h : Code128.new s = .ok x)
    (hl : s.length ≤ 6489) :
    ∃ ms start data, Code128.encode b x = .ok ms ∧
      readCode128 ms = some (start :: data ++ [code128Sum start data % 103]) := by
  obtain ⟨ms, set, data, -, -, he, hr⟩ := C29_code128_check_partial b s x h hl
  exact ⟨ms, set.start, data, he, hr⟩

theorem asU8_tmod_neg (w : Int) (h : w < 0) : (w.tmod 103 = 0 ∧ asU8 (w.tmod 103) = 0) ∨ 106 ≤ asU8 (w.tmod 103) := by
  have h1 := Int.lt_tmod_of_pos w (b := 103) (by omega)
  have h2 : w.tmod 103 ≤ 0 := by
    have := Int.tmod_nonneg (a := -w) 103 (by omega)
    rw [Int.neg_tmod] at this
    omega
  unfold asU8
  omega

/-- C29, exact behaviour in debug builds (up to 2^31 characters): `encode` panics exactly when the check sum of the symbols
(those that spell the data) reaches 2^31; otherwise the check symbol is right. -/
theorem C29_code128_debug (s : List Char) (x : Code128.Code128) (h : Code128.new s = .ok x) (hl : s.length < 2 ^ 31) :
    ∃ set data, code128Decode set data = some (code128Regroup s).tail ∧
      (code128Regroup s).head? = some (CodeSet.char set) ∧
      (2 ^ 31 ≤ code128Sum set.start data → Code128.encode .debug x = .panic .overflow) ∧
      (code128Sum set.start data < 2 ^ 31 → ∃ ms, Code128.encode .debug x = .ok ms ∧
        readCode128 ms = some (set.start :: data ++ [code128Sum set.start data % 103])) := by
  obtain ⟨set, data, h1, h2, _, _, henc, hpan, _, hsum, hdbg, _⟩ := code128_encode_cases s x h hl
  exact ⟨set, data, h1, h2, fun hS => hpan _ _ (hdbg hS), fun hS => henc _ _ (by omega) (hsum _ hS)⟩

example : code128Sum 103 [40, 41] = 103 + 40 + 2 * 41 ∧ code128Sum 103 [40, 41] < 2 ^ 31 ∧
    code128Decode .A [40, 41] = some "HI".toList := by decide

/-- C29, exact behaviour in release builds: with `w` the sum wrapped to 32 bits, the check symbol is `w mod 103` if `w` is not
negative, 0 if it is a negative multiple of 103, and otherwise `encode` panics. -/
theorem C29_code128_release (s : List Char) (x : Code128.Code128) (h : Code128.new s = .ok x) (hl : s.length < 2 ^ 31) :
    ∃ set data, ∃ w : Int, code128Decode set data = some (code128Regroup s).tail ∧
      (code128Regroup s).head? = some (CodeSet.char set) ∧
      (-(2 ^ 31) ≤ w ∧ w < 2 ^ 31 ∧ (2 ^ 32 : Int) ∣ code128Sum set.start data - w) ∧
      (w < 0 ∧ ¬ (103 : Int) ∣ w → Code128.encode .release x = .panic .bounds) ∧
      (0 ≤ w ∨ (103 : Int) ∣ w → ∃ ms, Code128.encode .release x = .ok ms ∧
        readCode128 ms = some (set.start :: data ++ [(w % 103).toNat])) := by
  obtain ⟨set, data, h1, h2, _, _, henc, _, hbnd, _, _, hrel⟩ := code128_encode_cases s x h hl
  refine ⟨set, data, asI32 (code128Sum set.start data : Nat), h1, h2, ?_, ?_, ?_⟩
  · unfold asI32; omega
  · rintro ⟨hw, hd⟩
    rcases asU8_tmod_neg _ hw with ⟨h0, _⟩ | h106
    · exact absurd (Int.dvd_of_tmod_eq_zero h0) hd
    · exact hbnd _ _ h106 hrel
  · intro hw
    generalize asI32 (code128Sum set.start data : Nat) = w at *
    by_cases h0 : 0 ≤ w
    · have e : asU8 (w.tmod 103) = (w % 103).toNat := by
        rw [Int.tmod_eq_emod_of_nonneg h0]; unfold asU8; omega
      rw [e] at hrel
      exact henc _ _ (by omega) hrel
    · have hd : (103 : Int) ∣ w := hw.resolve_left h0
      have e : asU8 (w.tmod 103) = (w % 103).toNat := by
        rw [Int.tmod_eq_zero_of_dvd hd, Int.emod_eq_zero_of_dvd hd]; rfl
      rw [e] at hrel
      exact henc _ _ (by omega) hrel

-- below 2^31 the wrapped sum is the sum itself
example : (-(2 ^ 31 : Int) ≤ 225 ∧ (225 : Int) < 2 ^ 31 ∧ (2 ^ 32 : Int) ∣ code128Sum 103 [40, 41] - 225) := by decide

/-! Witnesses: set A followed by many FNC1 characters. -/

theorem data_fnc1 (n : Nat) : Code128Data .A (List.replicate n fnc1) := by
  induction n with
  | zero => exact .nil _
  | succ n ih => exact .single .A fnc1 _ (by decide) ih

theorem run128_fnc1 (n : Nat) : run128 .A none (List.replicate n fnc1) = some (List.replicate n 102) := by
  induction n with
  | zero => rfl
  | succ n ih =>
    rw [List.replicate_succ, run128_cons, show setOf fnc1 = none from by decide]
    simp only [show (fnc1.isDigit = true ∧ CodeSet.A = .C) ↔ False from by decide, if_false,
      show val .A [fnc1] = some 102 from by decide +kernel, ih]
    rfl

theorem positionSum_replicate (k n : Nat) : positionSum k (List.replicate n 102) = 102 * (k * n) + 51 * (n * (n - 1)) := by
  induction n generalizing k with
  | zero => rfl
  | succ n ih =>
    rw [List.replicate_succ, positionSum, ih, Nat.add_sub_cancel]
    cases n with
    | zero => omega
    | succ m =>
      have e1 : (k + 1) * (m + 1) = k * (m + 1) + (m + 1) := by rw [Nat.add_mul, Nat.one_mul]
      have e2 : k * (m + 1 + 1) = k * (m + 1) + k := by rw [Nat.mul_add k (m + 1) 1, Nat.mul_one]
      have e3 : (m + 1 + 1) * (m + 1) = (m + 1) * m + 2 * (m + 1) := by
        rw [Nat.add_mul (m + 1) 1, Nat.one_mul, Nat.mul_add (m + 1) m 1, Nat.mul_one]; omega
      rw [e1, e2, e3, Nat.add_sub_cancel]
      omega

theorem code128_fnc1 (n : Nat) (hn : n < 2 ^ 30) :
    ∃ x, Code128.new ('À' :: List.replicate n fnc1) = .ok x ∧
      (2 ^ 31 ≤ 103 + 102 * n + 51 * (n * (n - 1)) → Code128.encode .debug x = .panic .overflow) ∧
      (∀ c, asU8 ((asI32 (103 + 102 * n + 51 * (n * (n - 1)) : Nat)).tmod 103) = c → c < 106 →
        ∃ ms, Code128.encode .release x = .ok ms ∧ readCode128 ms = some (103 :: List.replicate n 102 ++ [c])) ∧
      (106 ≤ asU8 ((asI32 (103 + 102 * n + 51 * (n * (n - 1)) : Nat)).tmod 103) →
        Code128.encode .release x = .panic .bounds) := by
  have hw : Code128WellFormed ('À' :: List.replicate n fnc1) := ⟨.A, _, rfl, data_fnc1 n⟩
  have hb := wf_byteLen _ hw
  have hp := parseUnits_eq ('À' :: List.replicate n fnc1)
  simp only [show setOf 'À' = some .A from rfl, run128_fnc1] at hp
  obtain ⟨us, h1, h2⟩ := hp
  have hnew : Code128.new ('À' :: List.replicate n fnc1) = .ok ⟨us⟩ := by
    unfold Code128.new
    rw [strLen_eq_byteLen, if_neg (by omega), h1]
    rfl
  have hlt : ∀ v ∈ us.map Code128.Unit.index, v < 106 := by
    rw [h2]
    intro v hv
    rw [List.mem_cons, List.mem_replicate] at hv
    rcases hv with rfl | hv
    · decide
    · omega
  have hS : code128Sum 103 (List.replicate n 102) = 103 + 102 * n + 51 * (n * (n - 1)) := by
    rw [code128Sum, positionSum_replicate, Nat.one_mul, Nat.add_assoc]
  have key : (2 ^ 31 ≤ code128Sum 103 (List.replicate n 102) → Code128.checksumValue .debug ⟨us⟩ = .panic .overflow) ∧
      Code128.checksumValue .release ⟨us⟩ =
        .ok (asU8 ((asI32 (code128Sum 103 (List.replicate n 102) : Nat)).tmod 103)) := by
    cases us with
    | nil => simp at h2
    | cons u us =>
      have h3 := h2
      simp only [List.map_cons, List.cons.injEq] at h3
      have := checksum128 u us (by
          have : (us.map Code128.Unit.index).length = n := by rw [h3.2, List.length_replicate]
          rw [List.length_map] at this
          omega)
        (fun v hv => hlt v.index (List.mem_map_of_mem hv))
      rw [h3.1, h3.2] at this
      exact this.2
  rw [hS] at key
  refine ⟨⟨us⟩, hnew, ?_, ?_, ?_⟩
  · intro h
    unfold Code128.encode Code128.checksumEncoding
    rw [payload128 us hlt, key.1 h]
    rfl
  · intro c hc hc106
    rw [hc] at key
    refine ⟨_, encode128_ok .release us c hlt hc106 key.2, ?_⟩
    rw [readCode128_paint, h2]
    · rfl
    · intro v hv
      rw [List.mem_append, List.mem_singleton] at hv
      rcases hv with hv | rfl
      · exact hlt v hv
      · exact hc106
  · intro h
    unfold Code128.encode Code128.checksumEncoding
    rw [payload128 us hlt, key.2]
    generalize asU8 ((asI32 (103 + 102 * n + 51 * (n * (n - 1)) : Nat)).tmod 103) = c at h
    rw [Outcome.ok_bind, Outcome.ok_bind, unitEncoding_panic ⟨.A, c⟩ h]
    rfl

/-- C29 is false just beyond the bound: `À` and 6489 FNC1 characters (6490 characters) are accepted, but `encode` panics in
both builds. -/
theorem C29_code128_panics :
    ∃ x, Code128.new ('À' :: List.replicate 6489 fnc1) = .ok x ∧
      Code128.encode .debug x = .panic .overflow ∧ Code128.encode .release x = .panic .bounds := by
  obtain ⟨x, h, h1, _, h3⟩ := code128_fnc1 6489 (by omega)
  exact ⟨x, h, h1 (by omega), h3 (by decide +kernel)⟩

/-- C29 is false silently: with 9200 FNC1 characters the release build writes check symbol 97 instead of the right one, and no
reader accepts the picture. -/
theorem C29_code128_wrong_check :
    ∃ x ms, Code128.new ('À' :: List.replicate 9200 fnc1) = .ok x ∧ Code128.encode .release x = .ok ms ∧
      readCode128 ms = some (103 :: List.replicate 9200 102 ++ [97]) ∧
      code128Sum 103 (List.replicate 9200 102) % 103 ≠ 97 ∧ scanCode128 ms = none := by
  obtain ⟨x, h, _, h2, _⟩ := code128_fnc1 9200 (by omega)
  obtain ⟨ms, h3, h4⟩ := h2 97 (by decide +kernel) (by omega)
  have hS : code128Sum 103 (List.replicate 9200 102) % 103 ≠ 97 := by
    rw [code128Sum, positionSum_replicate]; omega
  refine ⟨x, ms, h, h3, h4, hS, ?_⟩
  have hv : verifyCode128 (103 :: List.replicate 9200 102 ++ [97]) = none := by
    simp only [verifyCode128, List.cons_append, List.getLast?_concat, List.dropLast_concat]
    rw [if_neg (fun h => hS h.symm)]
  simp only [scanCode128, h4, Option.bind_eq_bind, Option.bind_some, hv, Option.bind_none]

end Barcoders
