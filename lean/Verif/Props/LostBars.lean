import Verif.Spec.Lost
import Verif.Props.OneElement
import Verif.Props.ExactCodabar

/-!
# C87: lost bars and filled spaces

Every character of a symbology has the same number of bars and spaces. A symbol that has lost a few of them is therefore not read,
whatever the widths that remain.
-/

set_option autoImplicit false

namespace Barcoders
open Spec

theorem swallowed_length (n : Nat) (es es' : List Nat) (h : SwallowedTimes n es es') : es'.length + 2 * n = es.length := by
  induction h with
  | zero es => simp
  | succ n es es' es'' h1 _ ih =>
    cases h1 <;> simp at ih ⊢ <;> omega

/-- A scanner that reads only rows with a number of elements that leaves the remainder `r` modulo `k`. -/
def Counted {α : Type} (k r : Nat) (scan : List Nat → Option α) : Prop :=
  ∀ ms t, scan ms = some t → ∃ es, elements ms = some es ∧ es.length % k = r

theorem Counted.lost {α β : Type} {k r : Nat} {scan : List Nat → Option α} {scan' : List Nat → Option β} (h : Counted k r scan)
    (h2 : Counted k r scan') (ms ms' : List Nat) (t : α) (hs : scan ms = some t) (n : Nat) (h1 : 0 < n) (hn : 2 * n < k)
    (hm : Lost n ms ms') : scan' ms' = none := by
  obtain ⟨es, es', e1, e2, e3⟩ := hm
  have := swallowed_length n es es' e3
  cases h' : scan' ms' with
  | none => rfl
  | some t' =>
    obtain ⟨fs, f1, f2⟩ := h ms t hs
    obtain ⟨fs', f1', f2'⟩ := h2 ms' t' h'
    rw [e1, Option.some.injEq] at f1
    rw [e2, Option.some.injEq] at f1'
    subst f1 f1'
    exfalso
    have d1 := Nat.div_add_mod es.length k
    have d2 := Nat.div_add_mod es'.length k
    rw [f2] at d1
    rw [f2'] at d2
    have : k * (es.length / k) = k * (es'.length / k) + 2 * n := by omega
    rcases Nat.lt_or_ge (es'.length / k) (es.length / k) with hlt | hge
    · have := Nat.mul_le_mul_left k (show es'.length / k + 1 ≤ es.length / k from hlt)
      rw [Nat.mul_succ] at this
      omega
    · have := Nat.mul_le_mul_left k hge
      omega

/-- Groups of `k` elements, with a fixed number of elements before and after them. -/
theorem groups_counted {α : Type} (k : Nat) (hk : 0 < k) (f : List Nat → Option α) (body : List Nat) (l : List α)
    (h : readAll k f body = some l) (r : Nat) : (body.length + r) % k = r % k := by
  obtain ⟨ws, rfl, a2, -⟩ := readAll_groups k hk f body l h
  rw [groups_length k ws a2, Nat.mul_add_mod]

theorem code39_counted : Counted 10 9 scanCode39 := by
  intro ms t h
  obtain ⟨es, a1, a2, -⟩ := scanCode39_inv ms t h
  have := groups_counted 10 (by omega) _ _ _ a2 0
  simp at this
  exact ⟨es, a1, by omega⟩

theorem code39Checked_counted : Counted 10 9 scanCode39Checked := fun ms t h => code39_counted ms _ (scanCode39Checked_inv ms t h)

theorem code93_counted : Counted 6 1 scanCode93 := by
  intro ms t h
  obtain ⟨body, a1, a2, -⟩ := scanCode93_inv ms t h
  have := groups_counted 6 (by omega) _ _ _ a2 1
  exact ⟨_, a1, by simpa using this⟩

theorem code11_counted : Counted 6 5 scanCode11 := by
  intro ms t h
  obtain ⟨es, a1, a2, -⟩ := scanCode11_inv ms t h
  have := groups_counted 6 (by omega) _ _ _ a2 0
  simp at this
  exact ⟨es, a1, by omega⟩

theorem codabar_counted : Counted 8 7 scanCodabar := by
  intro ms t h
  unfold scanCodabar at h
  simp only [Option.bind_eq_bind, Option.bind_eq_some_iff] at h
  obtain ⟨es, a1, a2⟩ := h
  have := groups_counted 8 (by omega) _ _ _ a2 0
  simp at this
  exact ⟨es, a1, by omega⟩

theorem ownCodabar_counted : Counted 8 7 scanOwnCodabar := by
  intro ms t h
  unfold scanOwnCodabar at h
  simp only [Option.bind_eq_bind, Option.bind_eq_some_iff] at h
  obtain ⟨es, a1, a2⟩ := h
  have := groups_counted 8 (by omega) _ _ _ a2 0
  simp at this
  exact ⟨es, a1, by omega⟩

theorem code128_counted : Counted 6 1 scanCode128 := by
  intro ms t h
  obtain ⟨es, _, _, _, a1, a2, -⟩ := scanCode128_inv ms t h
  have := groups_counted 6 (by omega) _ _ _ a2 7
  exact ⟨_, a1, by simpa [code128Stop] using this⟩

theorem itf_counted : Counted 10 7 scanItf := by
  intro ms t h
  obtain ⟨es, body, ps, a1, a2, a3, -⟩ := scanItf_inv ms t h
  have := groups_counted 10 (by omega) _ _ _ a3 7
  have hl := congrArg List.length a2
  simp only [List.length_map, List.length_append, List.length_cons, List.length_nil] at hl
  exact ⟨es, a1, by omega⟩

/-- Whether the last space is part of the symbol cannot be seen. -/
theorem stf_counted (ms ds : List Nat) (h : scanStf ms = some ds) :
    ∃ es, elements ms = some es ∧ (es.length % 10 = 1 ∨ es.length % 10 = 2) := by
  obtain ⟨es, body, a1, a2, a3⟩ := scanStf_inv ms ds h
  have := groups_counted 10 (by omega) _ _ _ a3 1
  have hl := congrArg List.length a2
  simp only [List.length_map, List.length_append, List.length_cons, List.length_nil] at hl
  refine ⟨es, a1, ?_⟩
  split at hl
  · rw [List.length_dropLast] at hl; omega
  · omega

theorem halves_counted (n : Nat) (ms ds : List Nat) (h : (elements ms).bind (readHalves n) = some ds) :
    ∃ es, elements ms = some es ∧ es.length = 8 * n + 11 := by
  rw [Option.bind_eq_some_iff] at h
  obtain ⟨es, h1, h2⟩ := h
  obtain ⟨l, r, e1, e2, e3, -, -⟩ := readHalves_inv n es ds h2
  obtain ⟨L, rfl, k2, k3, k4⟩ := readN_inv _ _ _ _ _ _ e2
  obtain ⟨R, rfl, q2, q3, q4⟩ := readN_inv _ _ _ _ _ _ e3
  refine ⟨es, h1, ?_⟩
  rw [e1]
  simp only [List.length_append, groups_length 4 L k2, groups_length 4 R q2, (reads_of _ L _ k3).2.trans k4,
    (reads_of _ R _ q3).2.trans q4, List.length_cons, List.length_nil]
  omega

theorem ean13_counted (ms ds : List Nat) (h : scanEan13 ms = some ds) : ∃ es, elements ms = some es ∧ es.length = 59 := by
  unfold scanEan13 at h
  rw [Option.bind_eq_some_iff] at h
  obtain ⟨es, h1, h2⟩ := h
  obtain ⟨l, r, ps, e1, e2, e3, -⟩ := readEan13_inv es ds h2
  obtain ⟨L, rfl, k2, k3, k4⟩ := readN_inv _ _ _ _ _ _ e2
  obtain ⟨R, rfl, q2, q3, q4⟩ := readN_inv _ _ _ _ _ _ e3
  refine ⟨es, h1, ?_⟩
  rw [e1]
  simp only [List.length_append, groups_length 4 L k2, groups_length 4 R q2, (reads_of _ L _ k3).2.trans k4,
    (reads_of _ R _ q3).2.trans q4, List.length_cons, List.length_nil]

theorem addOn_counted (ms ds : List Nat) (h : scanAddOn ms = some ds) :
    ∃ es, elements ms = some es ∧ (es.length = 13 ∨ es.length = 31) := by
  unfold scanAddOn at h
  rw [Option.bind_eq_some_iff] at h
  obtain ⟨es, h1, h2⟩ := h
  obtain ⟨w, ws, ps, rfl, e2, rfl, e4⟩ := addOn_inv es _ h2
  refine ⟨_, h1, ?_⟩
  rw [(addOn_shape w ws (reads_of _ _ _ e2).1).2]
  have hl := (reads_of _ _ _ e2).2
  rw [List.length_cons] at hl
  unfold addOnOk at e4
  split at e4
  · next h => have := congrArg List.length h; simp at this; omega
  · next h => have := congrArg List.length h; simp at this; omega
  · cases e4

/-- C87. EAN-13, EAN-8 and UPC-A symbols that have lost any number of bars and spaces are not read. -/
theorem C87_retail (b : Build) (s : List Char) (ms ms' : List Nat) (n : Nat) (hn : 0 < n) (hm : Lost n ms ms') :
    (Drawn b .ean13 s ms → scanEan13 ms' = none) ∧ (Drawn b .ean8 s ms → scanEan8 ms' = none) ∧
    (Drawn b .upca s ms → scanUpca ms' = none) := by
  obtain ⟨es, es', e1, e2, e3⟩ := hm
  have hl := swallowed_length n es es' e3
  refine ⟨?_, ?_, ?_⟩ <;> rintro ⟨x, hx, he⟩
  · obtain ⟨ms'', h1, h2⟩ := C02_ean13_scan b s x hx
    rw [he, Outcome.ok.injEq] at h1
    subst h1
    obtain ⟨fs, f1, f2⟩ := ean13_counted _ _ h2
    rw [e1, Option.some.injEq] at f1
    subst f1
    cases h' : scanEan13 ms' with
    | none => rfl
    | some t' =>
      obtain ⟨fs', f1', f2'⟩ := ean13_counted _ _ h'
      rw [e2, Option.some.injEq] at f1'
      subst f1'
      omega
  · obtain ⟨ms'', h1, h2⟩ := C07_ean8_scan b s x hx
    rw [he, Outcome.ok.injEq] at h1
    subst h1
    obtain ⟨fs, f1, f2⟩ := halves_counted 4 _ _ h2
    rw [e1, Option.some.injEq] at f1
    subst f1
    cases h' : scanEan8 ms' with
    | none => rfl
    | some t' =>
      obtain ⟨fs', f1', f2'⟩ := halves_counted 4 _ _ h'
      rw [e2, Option.some.injEq] at f1'
      subst f1'
      omega
  · obtain ⟨ms'', h1, h2⟩ := C09_upca_scan b s x hx
    rw [he, Outcome.ok.injEq] at h1
    subst h1
    obtain ⟨fs, f1, f2⟩ := halves_counted 6 _ _ h2
    rw [e1, Option.some.injEq] at f1
    subst f1
    cases h' : scanUpca ms' with
    | none => rfl
    | some t' =>
      obtain ⟨fs', f1', f2'⟩ := halves_counted 6 _ _ h'
      rw [e2, Option.some.injEq] at f1'
      subst f1'
      omega

/-- The second bar of an EAN-8 symbol is missing: the guard becomes one space. -/
example : ∃ ms, Drawn .debug .ean8 "5512345".toList ms ∧ Lost 1 ms (ms.set 2 0) ∧
    scanEan8 ms = some [5, 5, 1, 2, 3, 4, 5, 7] ∧ scanEan8 (ms.set 2 0) = none :=
  ⟨_, ⟨_, rfl, rfl⟩, ⟨_, _, rfl, rfl, .succ 0 _ _ _ (.inside [1] _ 1 1 1) (.zero _)⟩, by decide +kernel, by decide +kernel⟩

/-- C87. Add-ons that have lost up to eight bars and spaces are not read (nine is the difference between five digits and two). -/
theorem C87_supp (b : Build) (s : List Char) (ms ms' : List Nat) (h : Drawn b .supp s ms) (n : Nat) (h1 : 0 < n) (hn : n ≤ 8)
    (hm : Lost n ms ms') : scanAddOn ms' = none := by
  obtain ⟨es, es', e1, e2, e3⟩ := hm
  have hl := swallowed_length n es es' e3
  obtain ⟨x, hx, he⟩ := h
  obtain ⟨ms'', h1, h2⟩ := C12_eansupp_scan b s x hx
  rw [he, Outcome.ok.injEq] at h1
  subst h1
  obtain ⟨fs, f1, f2⟩ := addOn_counted _ _ h2
  rw [e1, Option.some.injEq] at f1
  subst f1
  cases h' : scanAddOn ms' with
  | none => rfl
  | some t' =>
    obtain ⟨fs', f1', f2'⟩ := addOn_counted _ _ h'
    rw [e2, Option.some.injEq] at f1'
    subst f1'
    omega

example : ∃ ms, Drawn .debug .supp "05".toList ms ∧ Lost 1 ms (ms.set 1 1) ∧ scanAddOn ms = some [0, 5] ∧
    scanAddOn (ms.set 1 1) = none :=
  ⟨_, ⟨_, rfl, rfl⟩, ⟨_, _, rfl, rfl, .succ 0 _ _ _ (.inside [] _ 1 1 2) (.zero _)⟩, by decide +kernel, by decide +kernel⟩

/-- C87. Nine lost elements, all at one end, do turn an EAN-5 symbol into an EAN-2 symbol. -/
theorem C87_supp_nine : ∃ ms, Drawn .debug .supp "20000".toList ms ∧ Lost 9 ms (ms.take 20) ∧ scanAddOn (ms.take 20) = some [2, 0] := by
  refine ⟨_, ⟨_, rfl, rfl⟩, ⟨((((((((([1, 1, 2, 2, 1, 2, 2, 1, 1, 3, 2, 1, 1] ++ [1, 1]) ++ [3, 2]) ++ [1, 1]) ++ [1, 1]) ++ [1, 1]) ++ [2, 3]) ++ [1, 1]) ++ [1, 1]) ++ [2, 3]), [1, 1, 2, 2, 1, 2, 2, 1, 1, 3, 2, 1, 1],
    by decide, by decide, ?_⟩, by decide +kernel⟩
  iterate 9 refine .succ _ _ _ _ (.last _ _ _) ?_
  exact .zero _

/-- C87. Code 39 symbols that have lost up to four bars and spaces are not read. -/
theorem C87_code39 (b : Build) (s : List Char) (ms ms' : List Nat) (h : Drawn b .code39 s ms) (n : Nat) (h1 : 0 < n) (hn : n ≤ 4)
    (hm : Lost n ms ms') : scanCode39 ms' = none ∧ scanCode39Checked ms' = none := by
  obtain ⟨t, ht⟩ : ∃ t, scanCode39 ms = some t := by
    obtain ⟨x, hx | hx, he⟩ := h
    · obtain ⟨ms'', h1, h2⟩ := C14_code39_scan s x hx
      rw [he, Outcome.ok.injEq] at h1
      exact ⟨_, h1 ▸ h2⟩
    · obtain ⟨ms'', h1, h2⟩ := C14_code39_checksum_scan s x hx
      rw [he, Outcome.ok.injEq] at h1
      subst h1
      first
        | exact ⟨_, scanCode39Checked_inv _ _ h2⟩
        | exact ⟨_, scanCode39Checked_inv _ _ h2.1⟩
        | exact ⟨_, scanCode39Checked_inv _ _ h2.2⟩
  exact ⟨code39_counted.lost code39_counted ms ms' t ht n h1 (by omega) hm,
    code39_counted.lost code39Checked_counted ms ms' t ht n h1 (by omega) hm⟩

example : ∃ ms, Drawn .debug .code39 "A".toList ms ∧ Lost 1 ms (ms.set 0 0 |>.drop 3) ∧ scanCode39 ms = some "A".toList ∧
    scanCode39 (ms.set 0 0 |>.drop 3) = none :=
  ⟨_, ⟨_, Or.inl rfl, rfl⟩, ⟨_, _, rfl, rfl, .succ _ _ _ _ (.first _ 1 2) (.zero _)⟩, by decide +kernel, by decide +kernel⟩

/-- C87. Code 93, Code 11 and Code 128 symbols that have lost one or two bars or spaces are not read. -/
theorem C87_sixes (b : Build) (s : List Char) (ms ms' : List Nat) (n : Nat) (h1 : 0 < n) (hn : n ≤ 2) (hm : Lost n ms ms') :
    (Drawn b .code93 s ms → scanCode93 ms' = none) ∧ (Drawn b .code11 s ms → scanCode11 ms' = none) ∧
    (s.length ≤ 6489 → Drawn b .code128 s ms → scanCode128 ms' = none) := by
  refine ⟨?_, ?_, ?_⟩
  · rintro ⟨x, hx, he⟩
    obtain ⟨ms'', h1', h2⟩ := C17_code93_scan s x hx
    rw [he, Outcome.ok.injEq] at h1'
    subst h1'
    exact code93_counted.lost code93_counted ms ms' _ h2 n h1 (by omega) hm
  · rintro ⟨x, hx, he⟩
    obtain ⟨ms'', h1', h2⟩ := C20_code11_scan s x hx
    rw [he, Outcome.ok.injEq] at h1'
    subst h1'
    exact code11_counted.lost code11_counted ms ms' _ h2 n h1 (by omega) hm
  · rintro hl ⟨x, hx, he⟩
    obtain ⟨ms'', h1', h2⟩ := C28_code128_scan_regrouped_partial b s x hx hl
    rw [he, Outcome.ok.injEq] at h1'
    subst h1'
    exact code128_counted.lost code128_counted ms ms' _ h2 n h1 (by omega) hm

example : ∃ ms, Drawn .debug .code93 "A1".toList ms ∧ Lost 1 ms (ms.set 1 1) ∧ scanCode93 ms = some "A1".toList ∧
    scanCode93 (ms.set 1 1) = none :=
  ⟨_, ⟨_, rfl, rfl⟩, ⟨_, _, rfl, rfl, .succ 0 _ _ _ (.inside [] _ 1 1 1) (.zero _)⟩, by decide +kernel, by decide +kernel⟩

/-- C87. Codabar symbols that have lost up to three bars and spaces are not read. -/
theorem C87_codabar (b : Build) (s : List Char) (ms ms' : List Nat) (h : Drawn b .codabar s ms) (n : Nat) (h1 : 0 < n) (hn : n ≤ 3)
    (hm : Lost n ms ms') : scanCodabar ms' = none ∧ scanOwnCodabar ms' = none := by
  obtain ⟨x, hx, rfl⟩ := h
  have h2 := C54_codabar_own_scan s x hx
  exact ⟨ownCodabar_counted.lost codabar_counted _ ms' _ h2 n h1 (by omega) hm,
    ownCodabar_counted.lost ownCodabar_counted _ ms' _ h2 n h1 (by omega) hm⟩

example : ∃ ms, Drawn .debug .codabar "A1B".toList ms ∧ Lost 1 ms (ms.drop 2) ∧ scanOwnCodabar ms = some "A1B".toList ∧
    scanOwnCodabar (ms.drop 2) = none :=
  ⟨_, ⟨_, rfl, rfl⟩, ⟨_, _, rfl, rfl, .succ _ _ _ _ (.first _ 1 1) (.zero _)⟩, by decide +kernel, by decide +kernel⟩

/-- C87. Interleaved and Standard 2 of 5 symbols that have lost up to four bars and spaces are not read. -/
theorem C87_two_of_five (b : Build) (s : List Char) (ms ms' : List Nat) (n : Nat) (h1 : 0 < n) (hn : n ≤ 4) (hm : Lost n ms ms') :
    (Drawn b .itf s ms → scanItf ms' = none) ∧ (Drawn b .stf s ms → scanStf ms' = none) := by
  constructor
  · rintro ⟨x, hx, he⟩
    obtain ⟨ms'', ds, h1', h2, -⟩ := C25_itf_scan b s x hx
    rw [he, Outcome.ok.injEq] at h1'
    subst h1'
    exact itf_counted.lost itf_counted ms ms' _ h2 n h1 (by omega) hm
  · rintro ⟨x, hx, he⟩
    obtain ⟨es, es', e1, e2, e3⟩ := hm
    have hl := swallowed_length n es es' e3
    obtain ⟨ms'', h1', h2⟩ := C24_stf_scan s x hx
    rw [he, Outcome.ok.injEq] at h1'
    subst h1'
    obtain ⟨fs, f1, f2⟩ := stf_counted _ _ h2
    rw [e1, Option.some.injEq] at f1
    subst f1
    cases h' : scanStf ms' with
    | none => rfl
    | some t' =>
      obtain ⟨fs', f1', f2'⟩ := stf_counted _ _ h'
      rw [e2, Option.some.injEq] at f1'
      subst f1'
      omega

/-- A narrow bar of the first digit is lost; the start bar of a Standard 2 of 5 symbol is lost. -/
example : ∃ ms, Drawn .debug .code11 "1-2".toList ms ∧ Lost 1 ms (ms.set 11 0) ∧ scanCode11 ms = some "1-2".toList ∧
    scanCode11 (ms.set 11 0) = none := by
  refine ⟨_, ⟨_, rfl, rfl⟩, ⟨_, _, rfl, rfl, ?_⟩, by decide +kernel, by decide +kernel⟩
  exact .succ _ _ _ _ (.inside [1, 1, 2, 2, 1, 1, 2] _ 1 1 1) (.zero _)

example : ∃ ms, Drawn .debug .stf "12".toList ms ∧ Lost 1 ms (ms.drop 3) ∧ scanStf ms = some [1, 2] ∧
    scanStf (ms.drop 3) = none :=
  ⟨_, ⟨_, rfl, rfl⟩, ⟨_, _, rfl, rfl, .succ _ _ _ _ (.first _ 2 1) (.zero _)⟩, by decide +kernel, by decide +kernel⟩

end Barcoders
