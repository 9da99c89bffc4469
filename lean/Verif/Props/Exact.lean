import Verif.Lemmas.ScanInj
import Verif.Props.Distinct
import Verif.Props.ExactTF

/-!
# C75: a scanner reads nothing but what the library draws

C02, C07, C09, C12, C14, C17, C20, C24, C25 and C28 say that the library's symbols are read back. Here is the converse: every
row of modules in which the scanner finds a number or a text is the row that the library draws for it, module by module.
-/

set_option autoImplicit false

namespace Barcoders
open Spec

/-- The decimal writing of digits. -/
def asText (ds : List Nat) : List Char := ds.map Nat.digitChar

theorem digitChar_ok : ∀ d < 10, (Nat.digitChar d).isDigit = true ∧ digitValue (Nat.digitChar d) = d := by decide

theorem asText_spec (ds : List Nat) (h : Digits ds) : AllDigits (asText ds) ∧ digitsOf (asText ds) = ds := by
  constructor
  · intro c hc
    obtain ⟨d, hd, rfl⟩ := List.mem_map.mp hc
    exact (digitChar_ok d (h d hd)).1
  · unfold digitsOf asText
    rw [List.map_map]
    conv => rhs; rw [← List.map_id ds]
    exact List.map_congr_left (fun d hd => (digitChar_ok d (h d hd)).2)

theorem complete_eq (n : Nat) (ds : List Nat) (hl : ds.length = n + 1) (hd : Digits ds) (hv : Gs1Valid ds) :
    ds.take n ++ [gs1Digit (ds.take n)] = ds := by
  have hsplit : ds = ds.take n ++ [ds[n]'(by omega)] := by
    have := List.take_append_drop n ds
    conv => lhs; rw [← this]
    rw [List.drop_eq_getElem_cons (by omega), List.drop_of_length_le (by omega)]
  have h1 := hd (ds[n]'(by omega)) (List.getElem_mem _)
  rw [hsplit] at hv
  have := (gs1Valid_append _ _ h1).mp hv
  rw [← this]
  exact hsplit.symm

theorem scanEan13_valid (ms ds : List Nat) (h : scanEan13 ms = some ds) : Digits ds ∧ Gs1Valid ds ∧ ds.length = 13 := by
  unfold scanEan13 at h
  rw [Option.bind_eq_some_iff] at h
  obtain ⟨es, -, h⟩ := h
  obtain ⟨l, r, ps, -, h2, h3, h4, h5, h6, h7⟩ := readEan13_inv es ds h
  refine ⟨?_, h6, h7⟩
  have hr : ∀ d ∈ ds.drop 7, d < 10 := readN_values (fun d => d < 10) 4 readA (fun w d h => position_lt w d h) _ _ _ _ h3
  have hl : ∀ p ∈ ps, p.2 < 10 := by
    refine readN_values (fun p => p.2 < 10) 4 readAB (fun w p h => ?_) _ _ _ _ h2
    unfold readAB at h
    split at h
    · next d e => cases h; exact position_lt _ _ e
    · rw [Option.map_eq_some_iff] at h
      obtain ⟨d, hd, rfl⟩ := h
      exact position_lt _ _ hd
  have h0 : ds.getD 0 0 < 10 := by
    by_cases hlt : ds.getD 0 0 < 10
    · exact hlt
    · rw [List.getElem?_eq_none (by show ean13Sets.length ≤ _; exact Nat.le_of_not_lt hlt)] at h4
      cases h4
  intro d hd
  match ds, h7, hd with
  | d0 :: rest, h7, hd =>
    rcases List.mem_cons.mp hd with rfl | hd
    · simpa using h0
    · rw [← List.take_append_drop 6 rest] at hd
      rcases List.mem_append.mp hd with hd | hd
      · have : d ∈ ps.map Prod.snd := by rw [h5]; simpa using hd
        obtain ⟨p, hp, rfl⟩ := List.mem_map.mp this
        exact hl p hp
      · exact hr d (by simpa using hd)

theorem scanHalves_valid (n : Nat) (ms ds : List Nat) (h : (elements ms).bind (readHalves n) = some ds) :
    Digits ds ∧ Gs1Valid ds ∧ ds.length = n + n := by
  rw [Option.bind_eq_some_iff] at h
  obtain ⟨es, -, h⟩ := h
  obtain ⟨l, r, -, h2, h3, h4, h5⟩ := readHalves_inv n es ds h
  refine ⟨?_, h4, h5⟩
  have hr : ∀ d ∈ ds.drop n, d < 10 := readN_values (fun d => d < 10) 4 readA (fun w d h => position_lt w d h) _ _ _ _ h3
  have hl : ∀ d ∈ ds.take n, d < 10 := readN_values (fun d => d < 10) 4 readA (fun w d h => position_lt w d h) _ _ _ _ h2
  intro d hd
  rw [← List.take_append_drop n ds] at hd
  rcases List.mem_append.mp hd with hd | hd
  · exact hl d hd
  · exact hr d hd

/-- The exact correspondence, for a symbology whose scanner is faithful and complete. -/
theorem number_exact (n : Nat) (scan : List Nat → Option (List Nat)) (D : List Char → List Nat → Prop)
    (hinj : ∀ ms ms' ds, scan ms = some ds → scan ms' = some ds → ms = ms')
    (hval : ∀ ms ds, scan ms = some ds → Digits ds ∧ Gs1Valid ds ∧ ds.length = n + 1)
    (hacc : ∀ s, AcceptedNumber n s → ∃ ms, D s ms)
    (hok : ∀ s ms, D s ms → AllDigits s ∧ (s.length = n + 1 → Gs1Valid (digitsOf s)) ∧
      scan ms = some ((digitsOf s).take n ++ [gs1Digit ((digitsOf s).take n)]))
    (ms ds : List Nat) :
    scan ms = some ds ↔ ∃ s, s.length = n + 1 ∧ digitsOf s = ds ∧ D s ms := by
  constructor
  · intro h
    obtain ⟨hd, hv, hl⟩ := hval ms ds h
    obtain ⟨h1, h2⟩ := asText_spec ds hd
    have hlen : (asText ds).length = n + 1 := by simp [asText, hl]
    obtain ⟨ms', h3⟩ := hacc (asText ds) ⟨h1, Or.inr ⟨hlen, by rw [h2]; exact hv⟩⟩
    have h4 := (hok _ _ h3).2.2
    rw [h2, complete_eq n ds hl hd hv] at h4
    have := hinj ms ms' ds h h4
    subst this
    exact ⟨_, hlen, h2, h3⟩
  · rintro ⟨s, hl, rfl, h⟩
    obtain ⟨h1, h2, h3⟩ := hok s ms h
    rw [h3, complete_eq n _ (by simpa [digitsOf] using hl) (digits_lt s h1) (h2 hl)]

theorem accepted_byteLen (n : Nat) (s : List Char) (h : AcceptedNumber n s) (hn : n < 100) : byteLen s < 2 ^ 32 := by
  rw [digits_byteLen s h.1]
  rcases h.2 with h | h <;> omega

/-- C75. The rows from which the EAN-13 scanner reads a number are exactly the rows the library draws, and the number read
is the one written in the row. -/
theorem C75_ean13 (b : Build) (ms ds : List Nat) :
    scanEan13 ms = some ds ↔ ∃ s, s.length = 13 ∧ digitsOf s = ds ∧ Drawn b .ean13 s ms := by
  refine number_exact 12 scanEan13 (Drawn b .ean13) scanEan13_inj scanEan13_valid (fun s h => ?_) (fun s ms h => ?_) ms ds
  · obtain ⟨x, hx⟩ := (C01_ean13_accepts b s (accepted_byteLen 12 s h (by omega))).mpr h
    obtain ⟨ms, h1, -⟩ := C02_ean13_scan b s x hx
    exact ⟨ms, x, hx, h1⟩
  · obtain ⟨x, hx, he⟩ := h
    obtain ⟨ms', h1, h2⟩ := C02_ean13_scan b s x hx
    rw [he, Outcome.ok.injEq] at h1
    subst h1
    have h3 := ean13_new b s
    rw [hx] at h3
    obtain ⟨-, hD, -, -, hv⟩ := decision_ok Ean13.EAN13.mk 12 s x h3.symm
    exact ⟨hD, hv, h2⟩

example : ∃ ms, Drawn .debug .ean13 "7501031311309".toList ms ∧ scanEan13 ms = some [7, 5, 0, 1, 0, 3, 1, 3, 1, 1, 3, 0, 9] :=
  ⟨_, ⟨_, rfl, rfl⟩, by decide +kernel⟩

/-- C75. The same for EAN-8. -/
theorem C75_ean8 (b : Build) (ms ds : List Nat) :
    scanEan8 ms = some ds ↔ ∃ s, s.length = 8 ∧ digitsOf s = ds ∧ Drawn b .ean8 s ms := by
  refine number_exact 7 scanEan8 (Drawn b .ean8) (scanHalves_inj 4) (scanHalves_valid 4) (fun s h => ?_) (fun s ms h => ?_) ms ds
  · obtain ⟨x, hx⟩ := (C06_ean8_accepts b s (accepted_byteLen 7 s h (by omega))).mpr h
    obtain ⟨ms, h1, -⟩ := C07_ean8_scan b s x hx
    exact ⟨ms, x, hx, h1⟩
  · obtain ⟨x, hx, he⟩ := h
    obtain ⟨ms', h1, h2⟩ := C07_ean8_scan b s x hx
    rw [he, Outcome.ok.injEq] at h1
    subst h1
    have h3 := ean8_new b s
    rw [hx] at h3
    obtain ⟨-, hD, -, -, hv⟩ := decision_ok Ean8.EAN8.mk 7 s x h3.symm
    exact ⟨hD, hv, h2⟩

example : ∃ ms, Drawn .debug .ean8 "55123457".toList ms ∧ scanEan8 ms = some (digitsOf "55123457".toList) :=
  ⟨_, ⟨_, rfl, rfl⟩, by decide +kernel⟩

/-- C75. The same for UPC-A. -/
theorem C75_upca (b : Build) (ms ds : List Nat) :
    scanUpca ms = some ds ↔ ∃ s, s.length = 12 ∧ digitsOf s = ds ∧ Drawn b .upca s ms := by
  refine number_exact 11 scanUpca (Drawn b .upca) (scanHalves_inj 6) (scanHalves_valid 6) (fun s h => ?_) (fun s ms h => ?_) ms ds
  · obtain ⟨x, hx⟩ := (C08_upca_accepts b s (accepted_byteLen 11 s h (by omega))).mpr h
    obtain ⟨ms, h1, -⟩ := C09_upca_scan b s x hx
    exact ⟨ms, x, hx, h1⟩
  · obtain ⟨x, hx, he⟩ := h
    obtain ⟨ms', h1, h2⟩ := C09_upca_scan b s x hx
    rw [he, Outcome.ok.injEq] at h1
    subst h1
    have h3 := upca_new b s
    rw [hx] at h3
    obtain ⟨-, hD, -, -, hv⟩ := decision_ok Upca.UPCA.mk 11 s x h3.symm
    exact ⟨hD, hv, h2⟩

example : ∃ ms, Drawn .release .upca "012345678905".toList ms ∧ scanUpca ms = some [0, 1, 2, 3, 4, 5, 6, 7, 8, 9, 0, 5] :=
  ⟨_, ⟨_, rfl, rfl⟩, by decide +kernel⟩

theorem addOn_two_or_five (sets : List Bool) (ds : List Nat) (h : addOnOk sets ds = true) : ds.length = 2 ∨ ds.length = 5 := by
  unfold addOnOk at h
  split at h
  · simp
  · simp
  · cases h

theorem scanAddOn_valid (ms ds : List Nat) (h : scanAddOn ms = some ds) : Digits ds ∧ (ds.length = 2 ∨ ds.length = 5) := by
  unfold scanAddOn at h
  rw [Option.bind_eq_some_iff] at h
  obtain ⟨es, -, h⟩ := h
  obtain ⟨l, f, e, m, -, h2, h3, h4, h5⟩ := readAddOn_inv es ds h
  have key : ∀ w (p : Bool × Nat), readAB w = some p → p.2 < 10 := by
    intro w p h
    unfold readAB at h
    split at h
    · next d e => cases h; exact position_lt _ _ e
    · rw [Option.map_eq_some_iff] at h
      obtain ⟨d, hd, rfl⟩ := h
      exact position_lt _ _ hd
  have hf : ∀ p ∈ f, p.2 < 10 := readN_values (fun p => p.2 < 10) 4 readAB key _ _ _ _ h2
  have hm : ∀ p ∈ m, p.2 < 10 := by
    refine readAll_values (fun p => p.2 < 10) 6 (by omega) readAddOnDigit (fun w p h => ?_) _ _ h3
    unfold readAddOnDigit at h
    rw [Option.bind_eq_some_iff] at h
    obtain ⟨r, -, h⟩ := h
    exact key r p h
  refine ⟨fun d hd => ?_, addOn_two_or_five _ _ h5⟩
  rw [h4] at hd
  obtain ⟨p, hp, rfl⟩ := List.mem_map.mp hd
  rcases List.mem_append.mp hp with hp | hp
  · exact hf p hp
  · exact hm p hp

/-- C75. The same for the add-ons. -/
theorem C75_supp (b : Build) (ms ds : List Nat) :
    scanAddOn ms = some ds ↔ ∃ s, digitsOf s = ds ∧ Drawn b .supp s ms := by
  constructor
  · intro h
    obtain ⟨hd, hl⟩ := scanAddOn_valid ms ds h
    obtain ⟨h1, h2⟩ := asText_spec ds hd
    have hlen : (asText ds).length = ds.length := by simp [asText]
    obtain ⟨x, hx⟩ := (C11_eansupp_accepts (asText ds)).mpr ⟨h1, by rw [hlen]; exact hl⟩
    obtain ⟨ms', h3, h4⟩ := C12_eansupp_scan b _ x hx
    rw [h2] at h4
    have := scanAddOn_inj ms ms' ds h h4
    subst this
    exact ⟨_, h2, x, hx, h3⟩
  · rintro ⟨s, rfl, x, hx, he⟩
    obtain ⟨ms', h3, h4⟩ := C12_eansupp_scan b _ x hx
    rw [he, Outcome.ok.injEq] at h3
    subst h3
    exact h4

example : ∃ ms, Drawn .debug .supp "51234".toList ms ∧ scanAddOn ms = some [5, 1, 2, 3, 4] ∧
    scanAddOn (ms.set 8 (1 - ms.getD 8 0)) = none := ⟨_, ⟨_, rfl, rfl⟩, by decide +kernel⟩

theorem alphabet_byteLen39 (s : List Char) (h : ∀ c ∈ s, c ∈ code39Alphabet) (hl : s.length ≤ 256) : byteLen s < 2 ^ 32 := by
  rw [code39_byteLen s h]; omega

/-- C75. The rows from which the Code 39 scanner reads a text of 1 to 256 characters are the rows the library draws for that
text without check character. -/
theorem C75_code39 (ms : List Nat) (t : List Char) (h1 : 1 ≤ t.length) (h2 : t.length ≤ 256) :
    scanCode39 ms = some t ↔ ∃ x, Code39.new t = .ok x ∧ Code39.encode x = .ok ms := by
  constructor
  · intro h
    have hA := scanCode39_chars ms t h
    obtain ⟨x, hx⟩ := (C13_code39_accepts t (alphabet_byteLen39 t hA h2)).1.mpr ⟨h1, h2, hA⟩
    obtain ⟨ms', h3, h4⟩ := C14_code39_scan t x hx
    have := scanCode39_inj ms ms' t h h4
    subst this
    exact ⟨x, hx, h3⟩
  · rintro ⟨x, hx, he⟩
    obtain ⟨ms', h3, h4⟩ := C14_code39_scan t x hx
    rw [he, Outcome.ok.injEq] at h3
    subst h3
    exact h4

example : ∃ x ms, Code39.new "A-1".toList = .ok x ∧ Code39.encode x = .ok ms ∧ scanCode39 ms = some "A-1".toList :=
  ⟨_, _, rfl, rfl, by decide +kernel⟩

/-- C75. The rows from which the checking Code 39 scanner reads a text are the rows the library draws with check character. -/
theorem C75_code39_checked (ms : List Nat) (t : List Char) (h1 : 1 ≤ t.length) (h2 : t.length ≤ 256) :
    scanCode39Checked ms = some t ↔ ∃ x, Code39.withChecksum t = .ok x ∧ Code39.encode x = .ok ms := by
  constructor
  · intro h
    have h' := scanCode39Checked_inv ms t h
    have hA : ∀ c ∈ t, c ∈ code39Alphabet := fun c hc => scanCode39_chars ms _ h' c (by simp [hc])
    obtain ⟨x, hx⟩ := (C13_code39_accepts t (alphabet_byteLen39 t hA h2)).2.mpr ⟨h1, h2, hA⟩
    obtain ⟨ms', h3, h4, -⟩ := C14_code39_checksum_scan t x hx
    have := scanCode39_inj ms ms' _ h' h4
    subst this
    exact ⟨x, hx, h3⟩
  · rintro ⟨x, hx, he⟩
    obtain ⟨ms', h3, -, h4⟩ := C14_code39_checksum_scan t x hx
    rw [he, Outcome.ok.injEq] at h3
    subst h3
    exact h4

example : ∃ x ms, Code39.withChecksum "A-1".toList = .ok x ∧ Code39.encode x = .ok ms ∧
    scanCode39Checked ms = some "A-1".toList ∧ scanCode39 ms ≠ some "A-1".toList := ⟨_, _, rfl, rfl, by decide +kernel⟩

/-- C75. The same for Code 93. -/
theorem C75_code93 (b : Build) (ms : List Nat) (t : List Char) (h1 : 1 ≤ t.length) (h2 : t.length ≤ 256) :
    scanCode93 ms = some t ↔ Drawn b .code93 t ms := by
  constructor
  · intro h
    have hA := scanCode93_chars ms t h
    obtain ⟨x, hx⟩ := (C16_code93_accepts t (by rw [code93_byteLen t hA]; omega)).mpr ⟨h1, h2, hA⟩
    obtain ⟨ms', h3, h4⟩ := C17_code93_scan t x hx
    have := scanCode93_inj ms ms' t h h4
    subst this
    exact ⟨x, hx, h3⟩
  · rintro ⟨x, hx, he⟩
    obtain ⟨ms', h3, h4⟩ := C17_code93_scan t x hx
    rw [he, Outcome.ok.injEq] at h3
    subst h3
    exact h4

example : ∃ ms, Drawn .debug .code93 "TEST93".toList ms ∧ scanCode93 ms = some "TEST93".toList :=
  ⟨_, ⟨_, rfl, rfl⟩, by decide +kernel⟩

/-- C75. The same for Code 11. -/
theorem C75_code11 (b : Build) (ms : List Nat) (t : List Char) (h1 : 1 ≤ t.length) (h2 : t.length ≤ 256) :
    scanCode11 ms = some t ↔ Drawn b .code11 t ms := by
  constructor
  · intro h
    have hA := scanCode11_chars ms t h
    obtain ⟨x, hx⟩ := (C19_code11_accepts t (by rw [code11_byteLen t hA]; omega)).mpr ⟨h1, h2, hA⟩
    obtain ⟨ms', h3, h4⟩ := C20_code11_scan t x hx
    have := scanCode11_inj ms ms' t h h4
    subst this
    exact ⟨x, hx, h3⟩
  · rintro ⟨x, hx, he⟩
    obtain ⟨ms', h3, h4⟩ := C20_code11_scan t x hx
    rw [he, Outcome.ok.injEq] at h3
    subst h3
    exact h4

example : ∃ ms, Drawn .debug .code11 "123-45".toList ms ∧ scanCode11 ms = some "123-45".toList :=
  ⟨_, ⟨_, rfl, rfl⟩, by decide +kernel⟩

theorem swapBC_twice (s : List Char) : (s.map swapBC).map swapBC = s := by
  rw [List.map_map]
  conv => rhs; rw [← List.map_id s]
  apply List.map_congr_left
  intro c _
  simp only [Function.comp, swapBC, id]
  repeat' split
  all_goals simp_all

theorem swapBC_mem : ∀ c ∈ codabarAlphabet, swapBC c ∈ codabarAlphabet := by decide

theorem swapBC_plus (s : List Char) (h : '+' ∉ s) : '+' ∉ s.map swapBC := by
  intro hm
  obtain ⟨c, hc, he⟩ := List.mem_map.mp hm
  have : c = '+' := by
    unfold swapBC at he
    split at he
    · cases he
    · split at he
      · cases he
      · exact he
  exact h (this ▸ hc)

/-- C75. A row from which the Codabar scanner reads a text without `+` is what the library draws when `B` and `C` are exchanged
in it (the library draws each for the other). -/
theorem C75_codabar (b : Build) (ms : List Nat) (t : List Char) (h1 : 1 ≤ t.length) (h2 : t.length ≤ 256) (hp : '+' ∉ t) :
    scanCodabar ms = some t ↔ Drawn b .codabar (t.map swapBC) ms := by
  have hp' := swapBC_plus t hp
  constructor
  · intro h
    have hA := scanCodabar_chars ms t h
    have hA' : ∀ c ∈ t.map swapBC, c ∈ codabarAlphabet := by
      intro c hc
      obtain ⟨d, hd, rfl⟩ := List.mem_map.mp hc
      exact swapBC_mem d (hA d hd)
    obtain ⟨x, hx⟩ := (C22_codabar_accepts (t.map swapBC) (by rw [codabar_byteLen _ hA', List.length_map]; omega)).mpr
      ⟨by simpa using h1, by simpa using h2, hA'⟩
    have h4 := C23_codabar_scan_partial _ x hx hp'
    rw [swapBC_twice] at h4
    exact ⟨x, hx, (scanCodabar_inj ms _ t h h4).symm⟩
  · rintro ⟨x, hx, he⟩
    have h4 := C23_codabar_scan_partial _ x hx hp'
    rw [swapBC_twice, he] at h4
    exact h4

example : ∃ ms, Drawn .debug .codabar "B12C".toList ms ∧ scanCodabar ms = some "C12B".toList :=
  ⟨_, ⟨_, rfl, rfl⟩, by decide +kernel⟩

/-- C75. A row from which the Code 128 scanner reads a text of up to 6489 characters is what the library draws for it. -/
theorem C75_code128 (b : Build) (ms : List Nat) (t : List Char) (hl : t.length ≤ 6489) (h : scanCode128 ms = some t) :
    Drawn b .code128 t ms := by
  obtain ⟨es, set, data, r, -, -, h3, rfl⟩ := scanCode128_inv ms t h
  obtain ⟨x, ms', h4, h5, h6⟩ := C28_code128_scan_partial b (set.char :: r) ⟨set, r, rfl, code128Decode_strict set data r h3⟩ hl
  have := scanCode128_inj ms ms' _ h h6
  subst this
  exact ⟨x, h4, h5⟩

example : ∃ ms, Drawn .debug .code128 "ÀA1".toList ms ∧ scanCode128 ms = some "ÀA1".toList := ⟨_, ⟨_, rfl, rfl⟩, by decide +kernel⟩

/-- C75. A row from which the Interleaved 2 of 5 scanner reads up to 256 digits has the narrow and wide elements of what the
library draws for them. -/
theorem C75_itf (b : Build) (ms ds : List Nat) (h1 : 1 ≤ ds.length) (h2 : ds.length ≤ 256) (h : scanItf ms = some ds) :
    ∃ s ms', digitsOf s = ds ∧ Drawn b .itf s ms' ∧ narrowWide ms = narrowWide ms' := by
  obtain ⟨hd, he⟩ := scanItf_digits ms ds h
  obtain ⟨h3, h4⟩ := asText_spec ds hd
  have hlen : (asText ds).length = ds.length := by simp [asText]
  obtain ⟨x, ms', h5, h6, h7⟩ := C51_itf_even b (asText ds) h3 (by omega) (by omega) (by omega)
  rw [h4] at h7
  exact ⟨_, ms', h4, ⟨x, h5, h6⟩, scanItf_inj ms ms' ds h h7⟩

example : ∃ ms, Drawn .debug .itf "1234".toList ms ∧ scanItf ms = some (digitsOf "1234".toList) :=
  ⟨_, ⟨_, rfl, rfl⟩, by decide +kernel⟩

/-- C75. The same for Standard 2 of 5, up to the last bar. -/
theorem C75_stf (b : Build) (ms ds : List Nat) (h1 : 1 ≤ ds.length) (h2 : ds.length ≤ 256) (h : scanStf ms = some ds) :
    ∃ s ms', digitsOf s = ds ∧ Drawn b .stf s ms' ∧ narrowWideBars ms = narrowWideBars ms' := by
  have hd := scanStf_digits ms ds h
  obtain ⟨h3, h4⟩ := asText_spec ds hd
  have hlen : (asText ds).length = ds.length := by simp [asText]
  obtain ⟨x, hx⟩ := (C24_stf_accepts (asText ds) (by rw [digits_byteLen _ h3]; omega)).mpr ⟨h3, by omega, by omega⟩
  obtain ⟨ms', h6, h7⟩ := C24_stf_scan _ x hx
  rw [h4] at h7
  exact ⟨_, ms', h4, ⟨x, hx, h6⟩, scanStf_inj ms ms' ds h h7⟩

example : ∃ ms, scanEan8 ms = some [5, 5, 1, 2, 3, 4, 5, 7] ∧ scanEan8 (ms.set 5 (1 - ms.getD 5 0)) = none := by
  refine ⟨_, ((C75_ean8 .debug _ _).mpr ⟨"55123457".toList, by decide, by decide, _, rfl, rfl⟩), by decide⟩

/-- A row whose wide elements have width 2 throughout: not drawn by the library, which uses 3, but read. -/
example : scanItf (paint [1, 1, 1, 1, 1, 2, 1, 1, 2, 1, 2, 2, 1, 1, 2, 1, 1]) =
    scanItf (paint [1, 1, 1, 1, 1, 3, 1, 1, 3, 1, 3, 3, 1, 1, 2, 1, 1]) ∧
    (scanItf (paint [1, 1, 1, 1, 1, 2, 1, 1, 2, 1, 2, 2, 1, 1, 2, 1, 1])).isSome := by decide

example : ∃ ms, scanCode128 ms = some "ÀHIĆ345678".toList ∧ Drawn .release .code128 "ÀHIĆ345678".toList ms :=
  ⟨_, by decide +kernel, _, rfl, rfl⟩

end Barcoders
