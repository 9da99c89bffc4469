import Verif.Props.ManyErrors
import Verif.Spec.Correction

/-!
# Whether one wrong character can be put right (C136)

One check character tells that a character is wrong, not which: every place can be the wrong one, and for every place there is one
correction. The two check characters of Code 93 tell which one it is, up to fourteen characters.
-/

set_option autoImplicit false

namespace Barcoders
open Spec

/-- One correction in each of the places that are `good`, none in the others. -/
theorem exactly_one_wrong {α : Type} (P : List α → Prop) (u : List α) (good : Nat → Bool) (hu : ¬ P u)
    (h : ∀ i < u.length, good i = true → Exactly 1 (fun t => AgreeOff [i] u t ∧ P t))
    (hbad : ∀ i < u.length, good i = false → ∀ t, AgreeOff [i] u t → ¬ P t) :
    Exactly ((List.range u.length).countP good) (fun t => OneWrong u t ∧ P t) := by
  have hf : ∀ i, ∃ t, i < u.length → good i = true → AgreeOff [i] u t ∧ P t ∧ ∀ t', AgreeOff [i] u t' → P t' → t' = t := by
    intro i
    by_cases hi : i < u.length
    · by_cases hg : good i = true
      · obtain ⟨l, -, hl, hm⟩ := h i hi hg
        obtain ⟨t, rfl⟩ := List.length_eq_one_iff.mp hl
        refine ⟨t, fun _ _ => ?_⟩
        obtain ⟨h1, h2⟩ := (hm t).mp (by simp)
        exact ⟨h1, h2, fun t' h1' h2' => by simpa using (hm t').mpr ⟨h1', h2'⟩⟩
      · exact ⟨u, fun _ h => absurd h hg⟩
    · exact ⟨u, fun h => absurd h hi⟩
  obtain ⟨f, hf⟩ := Classical.axiomOfChoice hf
  refine ⟨((List.range u.length).filter good).map f, ?_, ?_, fun t => ?_⟩
  · refine (List.pairwise_map).mpr ?_
    refine List.Pairwise.imp_of_mem ?_ ((List.nodup_range (n := u.length)).filter (fun i => good i))
    intro i j hi hj hne he
    obtain ⟨hi1, hi2⟩ := List.mem_filter.mp hi
    obtain ⟨hj1, hj2⟩ := List.mem_filter.mp hj
    obtain ⟨a1, a2, -⟩ := hf i (List.mem_range.mp hi1) hi2
    obtain ⟨b1, -, -⟩ := hf j (List.mem_range.mp hj1) hj2
    apply hu
    have : f i = u := by
      apply List.ext_getElem?
      intro k
      by_cases hk : k = i
      · rw [he]
        exact b1.2 k (by rw [List.mem_singleton, hk]; exact hne)
      · exact a1.2 k (by rw [List.mem_singleton]; exact hk)
    rw [← this]
    exact a2
  · rw [List.length_map, List.countP_eq_length_filter]
  · rw [List.mem_map]
    constructor
    · rintro ⟨i, hi, rfl⟩
      obtain ⟨hi1, hi2⟩ := List.mem_filter.mp hi
      obtain ⟨a1, a2, -⟩ := hf i (List.mem_range.mp hi1) hi2
      exact ⟨⟨fun e => hu (e ▸ a2), i, a1⟩, a2⟩
    · rintro ⟨⟨hne, i, hag⟩, hP⟩
      have hil : i < u.length := by
        refine Decidable.byContradiction fun hi => hne ?_
        apply List.ext_getElem?
        intro k
        by_cases hk : k = i
        · have := hag.1
          rw [List.getElem?_eq_none (by omega), List.getElem?_eq_none (by omega)]
        · exact hag.2 k (by rw [List.mem_singleton]; exact hk)
      have hg : good i = true := by
        refine Decidable.byContradiction fun hg => hbad i hil (by simpa using hg) t hag hP
      exact ⟨i, List.mem_filter.mpr ⟨List.mem_range.mpr hil, hg⟩, ((hf i hil hg).2.2 t hag hP).symm⟩

/-- One correction in every place. -/
theorem exactly_one_wrong_all {α : Type} (P : List α → Prop) (u : List α) (hu : ¬ P u)
    (h : ∀ i < u.length, Exactly 1 (fun t => AgreeOff [i] u t ∧ P t)) :
    Exactly u.length (fun t => OneWrong u t ∧ P t) := by
  have := exactly_one_wrong P u (fun _ => true) hu (fun i hi _ => h i hi) (fun i _ h => by cases h)
  rwa [List.countP_true, List.length_range] at this

/-! ## Article numbers -/

/-- C136. A string of 13 digits that EAN-13 refuses can be put right in exactly thirteen ways by changing one digit; the same for
the eight digits of EAN-8 and the twelve of UPC-A. -/
theorem C136_numbers (b : Build) (u : List Char) (hD : AllDigits u) :
    (u.length = 13 → (Ean13.new b u).isOk = false → Exactly 13 (fun t => OneWrong u t ∧ (Ean13.new b t).isOk = true)) ∧
    (u.length = 8 → (Ean8.new b u).isOk = false → Exactly 8 (fun t => OneWrong u t ∧ (Ean8.new b t).isOk = true)) ∧
    (u.length = 12 → (Upca.new b u).isOk = false → Exactly 12 (fun t => OneWrong u t ∧ (Upca.new b t).isOk = true)) := by
  have hK : ∀ i < u.length, _ := fun i hi => C133_numbers b u hD [i] (by simp) (by simp) (by simpa using hi)
  refine ⟨fun hl hn => ?_, fun hl hn => ?_, fun hl hn => ?_⟩
  · have := exactly_one_wrong_all (fun t => (Ean13.new b t).isOk = true) u (by simp [hn]) (fun i hi => by simpa using (hK i hi).2.1 hl)
    rwa [hl] at this
  · have := exactly_one_wrong_all (fun t => (Ean8.new b t).isOk = true) u (by simp [hn]) (fun i hi => by simpa using (hK i hi).2.2.1 hl)
    rwa [hl] at this
  · have := exactly_one_wrong_all (fun t => (Upca.new b t).isOk = true) u (by simp [hn]) (fun i hi => by simpa using (hK i hi).2.2.2 hl)
    rwa [hl] at this

/-- The eight corrections of 55123450. -/
example : (Ean8.new .debug "55123450".toList).isOk = false ∧
    ["45123450", "52123450", "55023450", "55193450", "55122450", "55123150", "55123440", "55123457"].all
      (fun t => (Ean8.new .debug t.toList).isOk) = true := by decide +kernel

/-! ## One check character -/

/-- C136. A reading of Code 39 that has the wrong check character can be put right in every place, in one way each. -/
theorem C136_code39 (u : List Char) (huA : ∀ c ∈ u, c ∈ code39Alphabet) (h1 : 2 ≤ u.length) (h2 : u.length ≤ 257)
    (hn : ¬ ∃ s x ms, Code39.withChecksum s = .ok x ∧ Code39.encode x = .ok ms ∧ scanCode39 ms = some u) :
    Exactly u.length (fun t => OneWrong u t ∧
      ∃ s x ms, Code39.withChecksum s = .ok x ∧ Code39.encode x = .ok ms ∧ scanCode39 ms = some t) :=
  exactly_one_wrong_all _ u hn (fun i hi => by
    simpa using (C133_code39 u huA h1 h2 [i] (by simp) (by simp) (by simpa using hi)).2)

/-- C136. The same for Code 11 with one check character. -/
theorem C136_code11 (b : Build) (u : List Char) (huA : ∀ c ∈ u, c ∈ code11Alphabet) (h1 : 2 ≤ u.length) (h2 : u.length ≤ 11)
    (hn : ¬ ∃ s ms, Drawn b .code11 s ms ∧ readCode11 ms = some u) :
    Exactly u.length (fun t => OneWrong u t ∧ ∃ s ms, Drawn b .code11 s ms ∧ readCode11 ms = some t) :=
  exactly_one_wrong_all _ u hn (fun i hi => by
    simpa using (C133_code11 b u huA h1 h2 [i] (by simp) (by simp) (by simpa using hi)).2)

/-- `AB3` is no reading of a checksummed Code 39 symbol. Its three corrections are `ZB3`, `A-3` and `ABL`. -/
example : code39Check "AB".toList = 'L' ∧ code39Check "ZB".toList = '3' ∧ code39Check "A-".toList = '3' ∧
    (code39Alphabet.filter (fun c => code39Check [c, 'B'] = '3')) = ['Z'] ∧
    (code39Alphabet.filter (fun c => code39Check ['A', c] = '3')) = ['-'] := by decide +kernel

/-! ## Code 128 -/

/-- The rest of a reading behind the start symbol passes exactly if it is some data and their check symbol. -/
theorem code128_valid (b : Build) (set : CodeSet) (n : Nat) (hn : n ≤ 3244) (t : List Nat) (htl : t.length = n + 1) :
    ((∀ v ∈ t, v < 103) ∧ ∃ s ms, s.length ≤ 6489 ∧ Drawn b .code128 s ms ∧ readCode128 ms = some (set.start :: t)) ↔
      ∃ data : List Nat, (∀ v ∈ data, v < 103) ∧ data ++ [code128Sum set.start data % 103] = t := by
  constructor
  · rintro ⟨htA, s, ms, hs, ⟨x, hx, he⟩, hr⟩
    obtain ⟨ms', set', data, -, -, he', hr'⟩ := C29_code128_check_partial b s x hx hs
    rw [he, Outcome.ok.injEq] at he'
    subst he'
    rw [hr, Option.some.injEq, List.cons_append] at hr'
    obtain ⟨h2, h3⟩ := List.cons.inj hr'
    have := start_inj _ _ h2
    subst this
    subst h3
    exact ⟨data, fun v hv => htA v (by simp [hv]), rfl⟩
  · rintro ⟨data, hd, rfl⟩
    have hvs : ∀ v ∈ data ++ [code128Sum set.start data % 103], v < 103 := by
      intro v hv
      rcases List.mem_append.mp hv with hv | hv
      · exact hd v hv
      · rw [List.mem_singleton.mp hv]; exact Nat.mod_lt _ (by omega)
    have hr : readCode128 (paint (code128Widths (set.start :: (data ++ [code128Sum set.start data % 103])))) =
        some (set.start :: (data ++ [code128Sum set.start data % 103])) := by
      refine readCode128_paint _ (fun v hv => ?_)
      rcases List.mem_cons.mp hv with rfl | hv
      · exact start_lt set
      · have := hvs v hv; omega
    obtain ⟨t, ht, htl'⟩ := code128Decode_all set data hd
    have hscan := scan128_if _ set.start _ data hr
    rw [if_pos rfl, start_set, Option.bind_some, ht, Option.map_some] at hscan
    rw [List.length_append, List.length_singleton] at htl
    have hlen : (set.char :: t).length ≤ 6489 := by rw [List.length_cons]; omega
    exact ⟨hvs, _, _, hlen, C75_code128 b _ _ hlen hscan, hr⟩

/-- How many of the first numbers are no multiples of 103. -/
theorem count_103 (n : Nat) : (List.range n).countP (fun i => decide ((i + 1) % 103 ≠ 0)) = n - n / 103 := by
  induction n with
  | zero => rfl
  | succ n ih =>
    rw [List.range_succ, List.countP_append, ih, List.countP_singleton]
    split <;> simp_all <;> omega

/-- C136. Code 128: a reading that does not pass (behind a right start symbol) can be put right in one way in every place but the
103rd, 206th, … data symbol, and there not at all. -/
theorem C136_code128 (b : Build) (set : CodeSet) (n : Nat) (hn : n ≤ 3244) (u : List Nat) (huA : ∀ v ∈ u, v < 103)
    (hu : u.length = n + 1)
    (hx : ¬ ∃ s ms, s.length ≤ 6489 ∧ Drawn b .code128 s ms ∧ readCode128 ms = some (set.start :: u)) :
    Exactly (n + 1 - n / 103) (fun t => OneWrong u t ∧ (∀ v ∈ t, v < 103) ∧
      ∃ s ms, s.length ≤ 6489 ∧ Drawn b .code128 s ms ∧ readCode128 ms = some (set.start :: t)) := by
  have h := exactly_one_wrong (fun t => (∀ v ∈ t, v < 103) ∧
      ∃ s ms, s.length ≤ 6489 ∧ Drawn b .code128 s ms ∧ readCode128 ms = some (set.start :: t)) u
    (fun i => decide (i = n ∨ (i + 1) % 103 ≠ 0)) (fun h => hx h.2)
    (fun i hi hg => by
      simpa using (C133_code128 b set n hn u huA hu [i] (by simp) (by simpa [← hu] using hi)
        ⟨i, by simp, of_decide_eq_true hg⟩).2)
    (fun i hi hg t hag hP => by
      have hg' := of_decide_eq_false hg
      rw [not_or, Decidable.not_not] at hg'
      obtain ⟨data, hd, rfl⟩ := (code128_valid b set n hn t (by rw [hag.1, hu])).mp hP
      obtain ⟨p, q, a, c, rfl, e, hp⟩ := agreeOff_one u _ i hi hag
      have hq : q ≠ [] := by
        rintro rfl
        simp at hu
        omega
      obtain ⟨r, k, rfl⟩ : ∃ r k, q = r ++ [k] := ⟨_, _, (List.dropLast_concat_getLast hq).symm⟩
      rw [show p ++ c :: (r ++ [k]) = (p ++ c :: r) ++ [k] by simp] at e
      obtain ⟨rfl, ek⟩ := List.append_inj' e rfl
      have ek := List.cons.inj ek
      apply hx
      refine ((code128_valid b set n hn _ hu).mpr ⟨p ++ a :: r, fun v hv => huA v (by simp only [List.mem_append, List.mem_cons] at hv ⊢; rcases hv with h | h | h <;> simp [h]), ?_⟩).2
      rw [show p ++ a :: (r ++ [k]) = (p ++ a :: r) ++ [k] by simp, ← ek.1]
      congr 2
      have e1 : ∀ z, code128Sum set.start (p ++ z :: r) % 103 =
          (set.start + positionSum 1 p + positionSum (1 + p.length + 1) r) % 103 := by
        intro z
        obtain ⟨m, hm⟩ : ∃ m, 1 + p.length = 103 * m := ⟨(1 + p.length) / 103, by omega⟩
        rw [code128Sum, positionSum_append, positionSum, hm, Nat.mul_assoc]
        omega
      rw [e1, e1])
  rw [hu, List.range_succ, List.countP_append, List.countP_singleton] at h
  have e2 : (List.range n).countP (fun i => decide (i = n ∨ (i + 1) % 103 ≠ 0)) =
      (List.range n).countP (fun i => decide ((i + 1) % 103 ≠ 0)) := by
    apply List.countP_congr
    intro i hi
    have := List.mem_range.mp hi
    simp
    omega
  rw [e2, count_103] at h
  simp only [true_or, decide_true, if_true] at h
  rwa [show n - n / 103 + 1 = n + 1 - n / 103 by omega] at h

/-- Two data symbols and a check symbol: three corrections. -/
example : (List.range 103).filter (fun v => code128Sum 104 [v, 34] % 103 = 0) = [34] ∧
    (List.range 103).filter (fun v => code128Sum 104 [33, v] % 103 = 0) = [86] ∧ code128Sum 104 [33, 34] % 103 = 102 := by
  decide +kernel

/-! ## Code 93 -/

/-- Two sequences that agree off two places agree off two places from left to right. -/
theorem agreeOff_pair {α : Type} (t t' : List α) (i j : Nat) (hl : 2 ≤ t.length) (h : AgreeOff [i, j] t t') :
    ∃ i' j', i' < j' ∧ j' < t.length ∧ AgreeOff [i', j'] t t' := by
  have key : ∀ i' j', (∀ k < t.length, k = i ∨ k = j → k = i' ∨ k = j') → AgreeOff [i', j'] t t' := by
    intro i' j' hk
    refine ⟨h.1, fun k hne => ?_⟩
    by_cases hkl : k < t.length
    · refine h.2 k (fun hm => hne ?_)
      simp only [List.mem_cons, List.not_mem_nil, or_false] at hm ⊢
      exact hk k hkl hm
    · have := h.1
      rw [List.getElem?_eq_none (by omega), List.getElem?_eq_none (by omega)]
  by_cases h1 : i < j ∧ j < t.length
  · exact ⟨i, j, h1.1, h1.2, h⟩
  by_cases h2 : j < i ∧ i < t.length
  · exact ⟨j, i, h2.1, h2.2, key j i (by omega)⟩
  by_cases h3 : 0 < i ∧ i < t.length
  · exact ⟨0, i, h3.1, h3.2, key 0 i (by omega)⟩
  by_cases h4 : 0 < j ∧ j < t.length
  · exact ⟨0, j, h4.1, h4.2, key 0 j (by omega)⟩
  · exact ⟨0, 1, by omega, by omega, key 0 1 (by omega)⟩

/-- C136. Code 93 up to fourteen characters: whatever was read, at most one symbol of the library differs from it in one character
or less. -/
theorem C136_code93 (b : Build) (u t t' : List Char) (hl : u.length ≤ 16) (s s' : List Char) (ms ms' : List Nat)
    (hs : Drawn b .code93 s ms) (hr : readCode93 ms = some t) (hs' : Drawn b .code93 s' ms') (hr' : readCode93 ms' = some t')
    (h : t = u ∨ OneWrong u t) (h' : t' = u ∨ OneWrong u t') : t = t' ∧ s = s' := by
  have ag : ∀ w, w = u ∨ OneWrong u w → ∃ i, AgreeOff [i] u w := by
    rintro w (rfl | ⟨-, hw⟩)
    · exact ⟨0, agreeOff_refl _ _⟩
    · exact hw
  obtain ⟨i, hi⟩ := ag t h
  obtain ⟨j, hj⟩ := ag t' h'
  have hij : AgreeOff [i, j] t t' := by
    refine ⟨by rw [hi.1, hj.1], fun k hk => ?_⟩
    simp only [List.mem_cons, List.not_mem_nil, or_false, not_or] at hk
    rw [hi.2 k (by simpa using hk.1), hj.2 k (by simpa using hk.2)]
  obtain ⟨x, hx, he⟩ := hs
  obtain ⟨x', hx', he'⟩ := hs'
  have htl : t.length = s.length + 2 := by
    obtain ⟨h3, h4⟩ := code93_symbol s x hx
    rw [he, Outcome.ok.injEq] at h4
    rw [h4, readCode93_paint _ h3, Option.some.injEq] at hr
    rw [← hr, code93Text_length]
  obtain ⟨i', j', h1, h2, hag⟩ := agreeOff_pair t t' i j (by omega) hij
  obtain ⟨p, m, q, a, c, a', c', rfl, rfl⟩ := agreeOff_two t t' i' j' h1 h2 hag
  obtain ⟨hss, rfl, rfl⟩ := C112_code93 s s' x x' hx hx' (by have := hi.1; omega) ms ms' he he' p m q a c a' c' hr hr'
  exact ⟨rfl, hss.symm⟩

/-- `AC` with the check characters of `AB` differs from the symbol of `AB` in one character. -/
example : ∃ ms, Drawn .debug .code93 "AB".toList ms ∧ readCode93 ms = some "ABV-".toList ∧
    OneWrong "ACV-".toList "ABV-".toList := by
  refine ⟨_, ⟨_, rfl, rfl⟩, by decide +kernel, by decide, 1, rfl, ?_⟩
  intro i hi
  match i, hi with
  | 0, _ => rfl
  | 2, _ => rfl
  | 3, _ => rfl
  | _ + 4, _ => rfl

/-- One character put for another. -/
theorem oneWrong_mid (p q : List Char) (a c : Char) (hac : a ≠ c) : OneWrong (p ++ a :: q) (p ++ c :: q) := by
  refine ⟨fun h => hac ?_, p.length, by simp, fun i hi => ?_⟩
  · have := List.append_cancel_left h
    exact (List.cons.inj this).1.symm
  · rw [List.mem_singleton] at hi
    by_cases h : i < p.length
    · rw [List.getElem?_append_left h, List.getElem?_append_left h]
    · rw [List.getElem?_append_right (by omega), List.getElem?_append_right (by omega)]
      obtain ⟨m, hm⟩ : ∃ m, i - p.length = m + 1 := ⟨i - p.length - 1, by omega⟩
      rw [hm, List.getElem?_cons_succ, List.getElem?_cons_succ]

/-- C136. From fifteen characters on there are readings of Code 93 that differ in one character from each of two symbols. -/
theorem C136_code93_sharp (b : Build) (n : Nat) (hn : 15 ≤ n) (hn2 : n ≤ 256) :
    ∃ u t t' s s' ms ms', s.length = n ∧ s'.length = n ∧ s ≠ s' ∧ Drawn b .code93 s ms ∧ readCode93 ms = some t ∧
      Drawn b .code93 s' ms' ∧ readCode93 ms' = some t' ∧ OneWrong u t ∧ OneWrong u t' := by
  obtain ⟨s, s', x, x', ms, ms', y, z, hl, hl', rfl, rfl, hx, hx', he, he', hr, hr', -, -⟩ := C65_code93_two_errors_missed n hn hn2
  obtain ⟨k, rfl⟩ : ∃ k, n = k + 15 := ⟨n - 15, by omega⟩
  rw [show k + 15 - 15 = k by omega] at *
  have e : List.replicate (k + 15) '0' = List.replicate k '0' ++ '0' :: "00000".toList ++ '0' :: "00000000".toList := by
    rw [show k + 15 = k + (1 + 5 + 1 + 8) by omega, ← List.replicate_append_replicate, List.append_assoc]
    congr 1
  refine ⟨List.replicate k '0' ++ '.' :: "00000".toList ++ '0' :: "00000000".toList ++ [y, z], _, _, _, _, ms, ms', hl, hl', ?_,
    ⟨x, hx, he⟩, hr, ⟨x', hx', he'⟩, hr', ?_, ?_⟩
  · rw [e]
    intro h
    rw [List.append_assoc, List.append_assoc] at h
    have := List.append_cancel_left h
    cases this
  · rw [e]
    have := oneWrong_mid (List.replicate k '0') ("00000".toList ++ '0' :: "00000000".toList ++ [y, z]) '.' '0' (by decide)
    simpa [List.append_assoc] using this
  · have := oneWrong_mid (List.replicate k '0' ++ '.' :: "00000".toList) ("00000000".toList ++ [y, z]) '0' '1' (by decide)
    simpa [List.append_assoc] using this

/-- C136. The two check characters of Code 11 do not suffice at any length. -/
theorem C136_code11_two (b : Build) (n : Nat) (hn : 11 ≤ n) (hn2 : n ≤ 256) :
    ∃ u t t' s s' ms ms', s.length = n ∧ s'.length = n ∧ s ≠ s' ∧ Drawn b .code11 s ms ∧ readCode11 ms = some t ∧
      Drawn b .code11 s' ms' ∧ readCode11 ms' = some t' ∧ OneWrong u t ∧ OneWrong u t' := by
  obtain ⟨p, m, q, a, c, hl, ha, hc, x, x', ms, ms', k, hx, hx', he, he', hr, hr', -, -⟩ :=
    C65_code11_two_errors_missed n (by omega) hn2
  refine ⟨p ++ a :: (m ++ '0' :: q) ++ k, _, _, _, _, ms, ms', ?_, hl, ?_, ⟨x, hx, he⟩, hr, ⟨x', hx', he'⟩, hr', ?_, ?_⟩
  · rw [← hl]; simp
  · intro h
    have := List.append_cancel_left h
    exact ha (List.cons.inj this).1.symm
  · have := oneWrong_mid p (m ++ '0' :: q ++ k) a '0' ha
    simpa [List.append_assoc] using this
  · have := oneWrong_mid (p ++ a :: m) (q ++ k) '0' c (Ne.symm hc)
    simpa [List.append_assoc] using this

end Barcoders
