import Verif.Props.TwoDigits
import Verif.Props.TwoSymbols
import Verif.Props.DoubleErrors
import Verif.Props.Code128

/-!
# Illegible digits and characters (C112)

Where a digit or character of a number or symbol cannot be read, the others determine it.
-/

set_option autoImplicit false

namespace Barcoders
open Spec

/-! ## Article numbers -/

theorem illegible_digit {T : Type} (mk : List Nat → T) (f : List Char → Outcome T) (n : Nat) (hn : n < 100)
    (hf : ∀ s, f s = if byteLen s % 2 ^ 32 ≠ n ∧ byteLen s % 2 ^ 32 ≠ n + 1 then Outcome.err Error.length
      else if ¬ AllDigits s then .err .character
      else if s.length = n + 1 ∧ ¬ Gs1Valid (digitsOf s) then .err .checksum
      else .ok (mk ((digitsOf s).take n))) (p q : List Char) (hD : AllDigits (p ++ q)) (hl : (p ++ q).length = n) :
    ∃ c, (f (p ++ c :: q)).isOk = true ∧ ∀ e, (f (p ++ e :: q)).isOk = true → e = c := by
  have hD' : ∀ c : Char, c.isDigit = true → AllDigits (p ++ c :: q) := by
    intro c hc y hy
    simp only [List.mem_append, List.mem_cons] at hy
    rcases hy with hy | rfl | hy
    · exact hD y (by simp [hy])
    · exact hc
    · exact hD y (by simp [hy])
  have hl' : ∀ c : Char, (p ++ c :: q).length = n + 1 := by intro c; rw [← hl]; simp; omega
  have e : ∀ c : Char, (digitsOf (p ++ c :: q)).reverse =
      (digitsOf q).reverse ++ digitValue c :: (digitsOf p).reverse := by intro c; simp [digitsOf]
  have key : ∃ S w : Nat, (w = 1 ∨ w = 3) ∧
      ∀ c : Char, Gs1Valid (digitsOf (p ++ c :: q)) ↔ (S + w * digitValue c) % 10 = 0 := by
    refine ⟨altSum 1 ((digitsOf q).reverse ++ 0 :: (digitsOf p).reverse),
      if (digitsOf q).reverse.length % 2 = 0 then 1 else 4 - 1, ?_, fun c => ?_⟩
    · split <;> simp
    · unfold Gs1Valid
      rw [e, altSum_get 1 (Or.inl rfl)]
  obtain ⟨S, w, hw, key⟩ := key
  have hd : ∃ d < 10, (S + w * d) % 10 = 0 := by
    rcases hw with rfl | rfl
    · exact ⟨(10 - S % 10) % 10, by omega, by omega⟩
    · exact ⟨7 * (10 - S % 10) % 10, by omega, by omega⟩
  obtain ⟨d, hd, hv⟩ := hd
  obtain ⟨h1, h2⟩ := digitChar_spec d hd
  refine ⟨digitChar d, isOk_of' ((complete_number_form mk f n hn hf _ (hD' _ h1) (hl' _)).1.mpr ((key _).mpr (by rw [h2]; exact hv))),
    fun c hc => ?_⟩
  obtain ⟨y, hy⟩ := isOk_of hc
  have hcD := new_digits mk f n hf _ y hy
  have hv' := (key c).mp ((complete_number_form mk f n hn hf _ hcD (hl' _)).1.mp ⟨y, hy⟩)
  have h3 := (toNat_isDigit c).mp (hcD c (by simp))
  have h4 := (toNat_isDigit (digitChar d)).mp h1
  have z : '0'.toNat = 48 := rfl
  have h5 : digitValue c < 10 := by unfold digitValue; omega
  have h6 : digitValue c = d := by rcases hw with rfl | rfl <;> omega
  apply Char.toNat_inj.mp
  rw [← h2] at h6
  unfold digitValue at h6
  omega

/-- C112. If one digit of a complete number is illegible, whichever it is and whatever the others are, exactly one character in
its place makes a number that is accepted. -/
theorem C112_numbers (b : Build) (p q : List Char) (hD : AllDigits (p ++ q)) :
    ((p ++ q).length = 12 → ∃ c, (Ean13.new b (p ++ c :: q)).isOk = true ∧
      ∀ e, (Ean13.new b (p ++ e :: q)).isOk = true → e = c) ∧
    ((p ++ q).length = 7 → ∃ c, (Ean8.new b (p ++ c :: q)).isOk = true ∧
      ∀ e, (Ean8.new b (p ++ e :: q)).isOk = true → e = c) ∧
    ((p ++ q).length = 11 → ∃ c, (Upca.new b (p ++ c :: q)).isOk = true ∧
      ∀ e, (Upca.new b (p ++ e :: q)).isOk = true → e = c) :=
  ⟨illegible_digit Ean13.EAN13.mk (Ean13.new b) 12 (by omega) (ean13_new b) p q hD,
    illegible_digit Ean8.EAN8.mk (Ean8.new b) 7 (by omega) (ean8_new b) p q hD,
    illegible_digit Upca.UPCA.mk (Upca.new b) 11 (by omega) (upca_new b) p q hD⟩

example : "0123456789".toList.filter (fun e => (Ean13.new .debug ("7501".toList ++ e :: "31311309".toList)).isOk) = ['0'] := by
  decide

/-! ## Code 39 and Code 11 -/

theorem code39Value_get : ∀ v < 43, code39Alphabet.getD v ' ' ∈ code39Alphabet ∧ code39Value (code39Alphabet.getD v ' ') = v := by
  decide

/-- C112. An illegible character of a Code 39 symbol with check character: whatever the other characters and the check
character are, there is exactly one character with which the library draws that check character. -/
theorem C112_code39 (p q : List Char) (k : Char) (hp : ∀ c ∈ p ++ q, c ∈ code39Alphabet) (hk : k ∈ code39Alphabet)
    (hl : (p ++ q).length < 256) :
    ∃ c, (∃ x bits, Code39.withChecksum (p ++ c :: q) = .ok x ∧ Code39.encode x = .ok bits ∧
      scanCode39 bits = some (p ++ c :: q ++ [k])) ∧
    ∀ c' x' bits', Code39.withChecksum (p ++ c' :: q) = .ok x' → Code39.encode x' = .ok bits' →
      scanCode39 bits' = some (p ++ c' :: q ++ [k]) → c' = c := by
  have hkl := code39Value_lt k hk
  have hsum : ∀ c : Char, ((p ++ c :: q).map code39Value).sum = ((p ++ q).map code39Value).sum + code39Value c := by
    intro c; simp; omega
  generalize ((p ++ q).map code39Value).sum = S at hsum
  obtain ⟨h1, h2⟩ := code39Value_get ((code39Value k + 43 - S % 43) % 43) (by omega)
  have hv : code39Check (p ++ code39Alphabet.getD ((code39Value k + 43 - S % 43) % 43) ' ' :: q) = k := by
    refine code39Value_inj (code39Check _) k (code39Value_get _ (Nat.mod_lt _ (by omega))).1 hk ?_
    rw [code39Value_check, hsum, h2]
    omega
  generalize code39Alphabet.getD ((code39Value k + 43 - S % 43) % 43) ' ' = c at h1 h2 hv
  have hA : ∀ e ∈ p ++ c :: q, e ∈ code39Alphabet := by
    intro e he
    simp only [List.mem_append, List.mem_cons] at he
    rcases he with he | rfl | he
    · exact hp e (by simp [he])
    · exact h1
    · exact hp e (by simp [he])
  have hlen : (p ++ c :: q).length = (p ++ q).length + 1 := by simp; omega
  have hb : byteLen (p ++ c :: q) = (p ++ c :: q).length := code39_byteLen _ hA
  obtain ⟨x, hx⟩ := (C13_code39_accepts (p ++ c :: q) (by omega)).2.mpr ⟨by omega, by omega, hA⟩
  obtain ⟨bits, he, hs, -⟩ := C14_code39_checksum_scan _ x hx
  refine ⟨c, ⟨x, bits, hx, he, by rw [hs, hv]⟩, fun c' x' bits' hx' he' hs' => ?_⟩
  obtain ⟨h3, h4, -⟩ := code39_checked_text _ x' hx' bits' he' _ k hs'
  have hc' := h4 c' (by simp)
  have := code39Value_lt c' hc'
  rw [hsum] at h3
  exact code39Value_inj _ _ hc' h1 (by omega)

/-- With `B` the symbol of `A?` has the check character `L`. -/
example : code39Alphabet.filter (fun e => code39Check ['A', e] = 'L') = ['B'] := by decide

theorem code11_weights : ∀ w, 1 ≤ w → w ≤ 10 → ∃ u, (w * u) % 11 = 1 := by
  intro w h1 h2
  have key : ∀ w < 11, 1 ≤ w → ∃ u < 11, (w * u) % 11 = 1 := by decide
  obtain ⟨u, -, hu⟩ := key w (by omega) h1
  exact ⟨u, hu⟩

/-- C112. The same for Code 11 up to ten characters. -/
theorem C112_code11 (p q : List Char) (k : Char) (hp : ∀ c ∈ p ++ q, c ∈ code11Alphabet) (hk : k ∈ code11Alphabet)
    (hl : (p ++ q).length < 10) :
    ∃ c, (∃ x bits, Code11.new (p ++ c :: q) = .ok x ∧ Code11.encode x = .ok bits ∧
      readCode11 bits = some (p ++ c :: q ++ [k])) ∧
    ∀ c' x' bits', Code11.new (p ++ c' :: q) = .ok x' → Code11.encode x' = .ok bits' →
      readCode11 bits' = some (p ++ c' :: q ++ [k]) → c' = c := by
  have hkl := code11Value_lt k hk
  have hsum : ∃ S w : Nat, 1 ≤ w ∧ w ≤ 10 ∧ ∀ c : Char,
      cyclicSum 10 0 ((p ++ c :: q).map code11Value).reverse = S + w * code11Value c := by
    refine ⟨cyclicSum 10 0 (q.map code11Value).reverse +
      cyclicSum 10 ((q.map code11Value).reverse.length + 1) (p.map code11Value).reverse,
      (q.map code11Value).reverse.length % 10 + 1, by omega, by omega, fun c => ?_⟩
    simp only [List.map_append, List.map_cons, List.reverse_append, List.reverse_cons, List.append_assoc, List.singleton_append]
    rw [cyclicSum_append, cyclicSum, Nat.zero_add]
    omega
  obtain ⟨S, w, hw1, hw2, hsum⟩ := hsum
  have hex : ∃ v < 11, (S + w * v) % 11 = code11Value k := by
    obtain ⟨u, hu⟩ := code11_weights w hw1 hw2
    refine ⟨u * (code11Value k + 11 - S % 11) % 11, Nat.mod_lt _ (by omega), ?_⟩
    rw [Nat.add_mod, Nat.mul_mod w, Nat.mod_mod, ← Nat.mul_mod, ← Nat.mul_assoc, Nat.mul_mod (w * u), hu, Nat.one_mul, Nat.mod_mod]
    omega
  obtain ⟨v, hv, hvk⟩ := hex
  have hget : ∀ v < 11, code11Alphabet.getD v ' ' ∈ code11Alphabet ∧ code11Value (code11Alphabet.getD v ' ') = v := by decide
  obtain ⟨h1, h2⟩ := hget v hv
  generalize code11Alphabet.getD v ' ' = c at h1 h2
  have hchk : code11Check 10 (p ++ c :: q) = k := by
    apply code11Value_inj _ _ (code11Check_mem _ _) hk
    rw [code11Value_check, hsum, h2, hvk]
  have hA : ∀ e : Char, e ∈ code11Alphabet → ∀ y ∈ p ++ e :: q, y ∈ code11Alphabet := by
    intro e he y hy
    simp only [List.mem_append, List.mem_cons] at hy
    rcases hy with hy | rfl | hy
    · exact hp y (by simp [hy])
    · exact he
    · exact hp y (by simp [hy])
  have hlen : ∀ e : Char, (p ++ e :: q).length = (p ++ q).length + 1 := by intro e; simp; omega
  have htext : ∀ e : Char, code11Text (p ++ e :: q) = p ++ e :: q ++ [code11Check 10 (p ++ e :: q)] := by
    intro e
    unfold code11Text
    rw [if_neg (by rw [hlen]; omega)]
  have hb : byteLen (p ++ c :: q) = (p ++ c :: q).length := code11_byteLen _ (hA c h1)
  obtain ⟨x, hx⟩ := (C19_code11_accepts (p ++ c :: q) (by rw [hb, hlen]; omega)).mpr ⟨by rw [hlen]; omega, by rw [hlen]; omega, hA c h1⟩
  have hread : ∀ e x', Code11.new (p ++ e :: q) = .ok x' → e ∈ code11Alphabet ∧ ∃ bits, Code11.encode x' = .ok bits ∧
      readCode11 bits = some (p ++ e :: q ++ [code11Check 10 (p ++ e :: q)]) := by
    intro e x' hx'
    obtain ⟨rfl, hA'⟩ := code11_new_ok _ x' hx'
    exact ⟨hA' e (by simp), _, code11_encode_eq _ hA', by rw [readCode11_paint _ (code11_text_mem _ hA'), htext]⟩
  obtain ⟨-, bits, he, hr⟩ := hread c x hx
  refine ⟨c, ⟨x, bits, hx, he, by rw [hr, hchk]⟩, fun c' x' bits' hx' he' hr' => ?_⟩
  obtain ⟨hc', bits'', he'', hr''⟩ := hread c' x' hx'
  rw [he'] at he''
  cases he''
  rw [hr'] at hr''
  have h7 : k = code11Check 10 (p ++ c' :: q) := by
    have := (List.append_inj' (Option.some.inj hr'') rfl).2
    simpa using this
  exact code11_data_replace _ _ p q c c' rfl rfl h1 hc' (by rw [hchk, ← h7])

/-- With `3` the symbol of `12?-45` has the check character `5`. -/
example : code11Alphabet.filter (fun e => code11Check 10 ("12".toList ++ e :: "-45".toList) = '5') = ['3'] := by decide

/-! ## Code 93 and Code 128 -/

/-- C112. Two illegible characters (check characters included) of a Code 93 symbol of up to fourteen characters: no two symbols
the library draws agree in all the other characters. -/
theorem C112_code93 (s s' : List Char) (x x' : Code93.Code93) (hx : Code93.new s = .ok x) (hx' : Code93.new s' = .ok x')
    (hl : s.length ≤ 14) (bits bits' : List Nat) (he : Code93.encode x = .ok bits) (he' : Code93.encode x' = .ok bits')
    (p m q : List Char) (a c a' c' : Char) (hr : readCode93 bits = some (p ++ a :: (m ++ c :: q)))
    (hr' : readCode93 bits' = some (p ++ a' :: (m ++ c' :: q))) : s' = s ∧ a' = a ∧ c' = c := by
  obtain ⟨b1, e1, k1⟩ := C17_code93_scan s x hx
  obtain ⟨b2, e2, k2⟩ := C17_code93_scan s' x' hx'
  rw [he] at e1
  cases e1
  rw [he'] at e2
  cases e2
  have hm : ∀ y ∈ p ++ a' :: (m ++ c' :: q), y ∈ code93Alphabet := by
    obtain ⟨rfl, hA⟩ := code93_new_ok s' x' hx'
    rw [code93_encode_eq s' hA] at he'
    cases he'
    rw [readCode93_paint _ (code93_text_mem s' hA), Option.some.injEq] at hr'
    rw [← hr']
    exact code93_text_mem s' hA
  have hac : a' = a ∧ c' = c := by
    by_cases h1 : a' = a
    · by_cases h2 : c' = c
      · exact ⟨h1, h2⟩
      · have := C65_code93_two_errors s x hx hl bits he p m q a c a' c' hr (hm a' (by simp)) (hm c' (by simp)) (Or.inr h2) bits' hr'
        rw [this] at k2
        cases k2
    · have := C65_code93_two_errors s x hx hl bits he p m q a c a' c' hr (hm a' (by simp)) (hm c' (by simp)) (Or.inl h1) bits' hr'
      rw [this] at k2
      cases k2
  obtain ⟨rfl, rfl⟩ := hac
  refine ⟨?_, rfl, rfl⟩
  unfold scanCode93 at k1 k2
  rw [hr] at k1
  rw [hr', k1] at k2
  exact (Option.some.inj k2).symm

/-- The symbols of `AB` and `AC` differ in three characters: `A` is all they have in common. -/
example : ∃ x bits x' bits', Code93.new "AB".toList = .ok x ∧ Code93.encode x = .ok bits ∧ Code93.new "AC".toList = .ok x' ∧
    Code93.encode x' = .ok bits' ∧ readCode93 bits = some "ABV-".toList ∧ readCode93 bits' = some "ACW$".toList :=
  ⟨_, _, _, _, rfl, rfl, rfl, rfl, by decide +kernel, by decide +kernel⟩


/-- C112. An illegible data symbol of a Code 128 symbol, not at a place that is a multiple of 103: no two symbols the library
draws agree in all the others. -/
theorem C112_code128 (b b' : Build) (s s' : List Char) (x x' : Code128.Code128) (hx : Code128.new s = .ok x)
    (hx' : Code128.new s' = .ok x') (hl : s.length ≤ 6489) (hl' : s'.length ≤ 6489) (ms ms' : List Nat)
    (he : Code128.encode b x = .ok ms) (he' : Code128.encode b' x' = .ok ms') (start chk v w : Nat) (p q : List Nat)
    (hp : (p.length + 1) % 103 ≠ 0) (hr : readCode128 ms = some (start :: (p ++ v :: q) ++ [chk]))
    (hr' : readCode128 ms' = some (start :: (p ++ w :: q) ++ [chk])) : w = v := by
  by_cases hv : w = v
  · exact hv
  · have h1 := (C57_code128_rows b s x hx hl ms he start chk (p ++ v :: q) hr ms').2.2.1 p q v w rfl hv hp hr'
    obtain ⟨ms'', h2, h3⟩ := C28_code128_scan_regrouped_partial b' s' x' hx' hl'
    rw [he'] at h2
    cases h2
    rw [h1] at h3
    cases h3

/-- `ƁAB` and `ƁAC` differ in the check symbol too. -/
example : ∃ x ms x' ms', Code128.new "ƁAB".toList = .ok x ∧ Code128.encode .debug x = .ok ms ∧ Code128.new "ƁAC".toList = .ok x' ∧
    Code128.encode .debug x' = .ok ms' ∧ readCode128 ms = some [104, 33, 34, 102] ∧ readCode128 ms' = some [104, 33, 35, 1] :=
  ⟨_, _, _, _, rfl, rfl, rfl, rfl, by decide +kernel, by decide +kernel⟩


end Barcoders
