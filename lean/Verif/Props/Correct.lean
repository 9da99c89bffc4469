import Verif.Spec.Correct
import Verif.Props.FewModules
import Verif.Props.Scratch
import Verif.Props.Supplemental
import Verif.Props.Distinct

/-!
# C122: wrong and illegible modules can be put right

How many modules of a row may be wrong or illegible for the symbol to be still the only one that fits, in the symbologies whose
symbols differ in several modules.
-/

set_option autoImplicit false

namespace Barcoders

open Spec

theorem wrongIn_nil (ms : List Nat) : wrongIn [] ms = 0 := by simp [wrongIn]

theorem wrongIn_cons (v : Option Nat) (r : List (Option Nat)) (m : Nat) (ms : List Nat) :
    wrongIn (v :: r) (m :: ms) = wrongIn r ms + (match v with
      | none => 0
      | some a => if a = m then 0 else 1) := by
  unfold wrongIn
  rw [List.zip_cons_cons, List.countP_cons]
  cases v with
  | none => simp
  | some a => by_cases h : a = m <;> simp [h]

theorem illegible_cons (v : Option Nat) (r : List (Option Nat)) :
    illegible (v :: r) = illegible r + (if v = none then 1 else 0) := by
  unfold illegible
  rw [List.countP_cons]
  cases v <;> simp

theorem dist_cons (a c : Nat) (l m : List Nat) : dist (a :: l) (c :: m) = dist l m + (if a = c then 0 else 1) := by
  unfold dist
  rw [List.zip_cons_cons, List.countP_cons]
  by_cases h : a = c <;> simp [h]

/-- Two symbols that fit the same row differ in few modules. -/
theorem dist_le_of_row (r : List (Option Nat)) (ms ms' : List Nat) (h1 : r.length = ms.length) (h2 : r.length = ms'.length) :
    dist ms ms' ≤ wrongIn r ms + wrongIn r ms' + illegible r := by
  induction r generalizing ms ms' with
  | nil =>
    have e1 : ms = [] := List.length_eq_zero_iff.mp (by simpa using h1.symm)
    subst e1
    simp [dist]
  | cons v r ih =>
    cases ms with
    | nil => simp at h1
    | cons m ms =>
      cases ms' with
      | nil => simp at h2
      | cons m' ms' =>
        have := ih ms ms' (by simpa using h1) (by simpa using h2)
        rw [dist_cons, wrongIn_cons, wrongIn_cons, illegible_cons]
        cases v with
        | none =>
          simp only [if_true]
          split <;> omega
        | some a =>
          simp only [reduceCtorEq, if_false]
          by_cases q1 : a = m
          · by_cases q2 : a = m'
            · rw [if_pos (by omega), if_pos q1, if_pos q2]; omega
            · rw [if_pos q1, if_neg q2]; split <;> omega
          · rw [if_neg q1]; split <;> split <;> omega

/-- Some row fits both of two symbols that differ in `2 e + f` modules, with `f` illegible modules and `e` wrong ones. -/
theorem row_between (ms ms' : List Nat) (hl : ms.length = ms'.length) (e e' f : Nat) (h : dist ms ms' = e + e' + f) :
    ∃ r, r.length = ms.length ∧ illegible r = f ∧ wrongIn r ms = e ∧ wrongIn r ms' = e' := by
  induction ms generalizing ms' e e' f with
  | nil =>
    refine ⟨[], rfl, ?_, ?_, ?_⟩
    all_goals simp [dist] at h
    · simp [illegible]; omega
    · simp [wrongIn]; omega
    · simp [wrongIn]; omega
  | cons m ms ih =>
    cases ms' with
    | nil => simp at hl
    | cons m' ms' =>
      rw [dist_cons] at h
      have hl' : ms.length = ms'.length := by simpa using hl
      by_cases q : m = m'
      · rw [if_pos q] at h
        obtain ⟨r, h0, h1, h2, h3⟩ := ih ms' hl' e e' f (by omega)
        refine ⟨some m :: r, by simp [h0], ?_, ?_, ?_⟩
        · rw [illegible_cons, if_neg (by simp)]; omega
        · rw [wrongIn_cons]; simp only [if_true]; omega
        · rw [wrongIn_cons]; simp only [if_pos q]; omega
      · rw [if_neg q] at h
        by_cases he : e = 0
        · by_cases he' : e' = 0
          · obtain ⟨r, h0, h1, h2, h3⟩ := ih ms' hl' e e' (f - 1) (by omega)
            refine ⟨none :: r, by simp [h0], ?_, ?_, ?_⟩
            · rw [illegible_cons, if_pos rfl]; omega
            · rw [wrongIn_cons]; simp only; omega
            · rw [wrongIn_cons]; simp only; omega
          · obtain ⟨r, h0, h1, h2, h3⟩ := ih ms' hl' e (e' - 1) f (by omega)
            refine ⟨some m :: r, by simp [h0], ?_, ?_, ?_⟩
            · rw [illegible_cons, if_neg (by simp)]; omega
            · rw [wrongIn_cons]; simp only [if_true]; omega
            · rw [wrongIn_cons]; simp only [if_neg q]; omega
        · obtain ⟨r, h0, h1, h2, h3⟩ := ih ms' hl' (e - 1) e' f (by omega)
          refine ⟨some m' :: r, by simp [h0], ?_, ?_, ?_⟩
          · rw [illegible_cons, if_neg (by simp)]; omega
          · rw [wrongIn_cons]; simp only [if_neg (Ne.symm q)]; omega
          · rw [wrongIn_cons]; simp only [if_true]; omega

/-- Two rows whose differences, if any, are more than `k` and which fit the same row. -/
theorem same_of_fits (k e : Nat) (r : List (Option Nat)) (ms ms' : List Nat) (hk : ∀ n, 1 ≤ n → n ≤ k → ¬ DifferIn n ms ms')
    (h1 : Fits e r ms) (h2 : Fits e r ms') (he : 2 * e + illegible r ≤ k) : ms = ms' := by
  have hd := dist_le_of_row r ms ms' h1.1 h2.1
  have hl : ms.length = ms'.length := h1.1.symm.trans h2.1
  have h1' := h1.2
  have h2' := h2.2
  by_cases h0 : dist ms ms' = 0
  · exact dist_zero ms ms' hl h0
  · exact absurd ⟨hl, rfl⟩ (hk (dist ms ms') (by omega) (by omega))

/-- Covering a stretch of two rows alike. -/
theorem scratched_of_covered (i n : Nat) (r : List (Option Nat)) (ms ms' : List Nat) (h1 : Covered i n r ms) (h2 : Covered i n r ms') :
    Scratched n ms ms' := by
  obtain ⟨l1, e1⟩ := h1
  obtain ⟨l2, e2⟩ := h2
  rw [e1, List.append_assoc, List.append_assoc] at e2
  have hlen : ((ms.take i).map some).length = ((ms'.take i).map some).length := by
    rw [List.length_map, List.length_map, List.length_take, List.length_take]; omega
  obtain ⟨a1, a2⟩ := List.append_inj e2 hlen
  have a3 := List.append_cancel_left a2
  have inj : ∀ l m : List Nat, l.map some = m.map some → l = m := fun l m h =>
    (List.map_inj_right (fun _ _ => Option.some.inj)).mp h
  have b1 := inj _ _ a1
  have b2 := inj _ _ a3
  refine ⟨ms.take i, (ms.drop i).take n, (ms'.drop i).take n, ms.drop (i + n), ?_, ?_, ?_, ?_⟩
  · rw [List.append_assoc, ← List.drop_drop, List.take_append_drop, List.take_append_drop]
  · rw [b1, b2, List.append_assoc, ← List.drop_drop, List.take_append_drop, List.take_append_drop]
  · rw [List.length_take, List.length_take, List.length_drop, List.length_drop]; omega
  · rw [List.length_take]; omega

/-- A received row with module 4 wrong and module 9 illegible. -/
def spoil (ms : List Nat) : List (Option Nat) := ((ms.map some).set 4 (some (1 - ms.getD 4 0))).set 9 none

/-- What is wrong with such a row. -/
abbrev spoilt (ms : List Nat) : Prop := illegible (spoil ms) = 1 ∧ Fits 1 (spoil ms) ms ∧ ¬ Fits 0 (spoil ms) ms

/-- C122. UPC-A: one wrong module and one illegible one, or three illegible ones, leave only one symbol; so does a covered stretch of
five. -/
theorem C122_upca (b b' : Build) (s t : List Char) (ms ms' : List Nat) (h : Drawn b .upca s ms) (h' : Drawn b' .upca t ms')
    (r : List (Option Nat)) :
    (∀ e, 2 * e + illegible r ≤ 3 → Fits e r ms → Fits e r ms' → ms' = ms) ∧
    ∀ i n, n ≤ 5 → Covered i n r ms → Covered i n r ms' → ms' = ms := by
  have hx := h
  obtain ⟨x, hx, he⟩ := hx
  obtain ⟨y, hy, he'⟩ := h'
  obtain ⟨bits, e2, e3⟩ := C09_upca_scan b' t y hy
  rw [he', Outcome.ok.injEq] at e2
  subst e2
  refine ⟨fun e hr f1 f2 => (same_of_fits 3 e r ms ms' (fun n h1 h2 hd => ?_) f1 f2 hr).symm, fun i n hn c1 c2 => ?_⟩
  · rw [C106_upca b s ms h n h1 h2 ms' hd] at e3
    cases e3
  · by_cases hne : ms' = ms
    · exact hne
    · obtain ⟨u, v, v', w, a1, a2, a3, a4⟩ := scratched_of_covered i n r ms ms' c1 c2
      rw [C90_upca b s x hx ms ms' he ⟨u, v, v', w, a1, a2, a3, by omega⟩ hne] at e3
      cases e3

example : ∃ ms r, Drawn .debug .upca "61234567890".toList ms ∧ illegible r = 1 ∧ Fits 1 r ms ∧ ¬ Fits 0 r ms := by
  obtain ⟨ms, h⟩ : ∃ ms, Drawn .debug .upca "61234567890".toList ms ∧ spoilt ms := ⟨_, ⟨_, rfl, rfl⟩, by decide +kernel⟩
  exact ⟨ms, _, h.1, h.2⟩

example : ∃ ms r, Drawn .debug .upca "61234567890".toList ms ∧ Covered 20 5 r ms :=
  ⟨_, _, ⟨_, rfl, rfl⟩, by decide +kernel, rfl⟩

/-- C122. EAN-8. -/
theorem C122_ean8 (b b' : Build) (s t : List Char) (ms ms' : List Nat) (h : Drawn b .ean8 s ms) (h' : Drawn b' .ean8 t ms')
    (r : List (Option Nat)) :
    (∀ e, 2 * e + illegible r ≤ 3 → Fits e r ms → Fits e r ms' → ms' = ms) ∧
    ∀ i n, n ≤ 5 → Covered i n r ms → Covered i n r ms' → ms' = ms := by
  have hx := h
  obtain ⟨x, hx, he⟩ := hx
  obtain ⟨y, hy, he'⟩ := h'
  obtain ⟨bits, e2, e3⟩ := C07_ean8_scan b' t y hy
  rw [he', Outcome.ok.injEq] at e2
  subst e2
  refine ⟨fun e hr f1 f2 => (same_of_fits 3 e r ms ms' (fun n h1 h2 hd => ?_) f1 f2 hr).symm, fun i n hn c1 c2 => ?_⟩
  · rw [C106_ean8 b s ms h n h1 h2 ms' hd] at e3
    cases e3
  · by_cases hne : ms' = ms
    · exact hne
    · obtain ⟨u, v, v', w, a1, a2, a3, a4⟩ := scratched_of_covered i n r ms ms' c1 c2
      rw [C90_ean8 b s x hx ms ms' he ⟨u, v, v', w, a1, a2, a3, by omega⟩ hne] at e3
      cases e3

example : ∃ ms r, Drawn .debug .ean8 "5512345".toList ms ∧ illegible r = 1 ∧ Fits 1 r ms ∧ ¬ Fits 0 r ms := by
  obtain ⟨ms, h⟩ : ∃ ms, Drawn .debug .ean8 "5512345".toList ms ∧ spoilt ms := ⟨_, ⟨_, rfl, rfl⟩, by decide +kernel⟩
  exact ⟨ms, _, h.1, h.2⟩

/-- C122. EAN-13: one illegible module, or a covered stretch of three. -/
theorem C122_ean13 (b b' : Build) (s t : List Char) (ms ms' : List Nat) (h : Drawn b .ean13 s ms) (h' : Drawn b' .ean13 t ms')
    (r : List (Option Nat)) :
    (illegible r ≤ 1 → Fits 0 r ms → Fits 0 r ms' → ms' = ms) ∧
    ∀ i n, n ≤ 3 → Covered i n r ms → Covered i n r ms' → ms' = ms := by
  have hx := h
  obtain ⟨x, hx, he⟩ := hx
  obtain ⟨y, hy, he'⟩ := h'
  obtain ⟨bits, e2, e3⟩ := C02_ean13_scan b' t y hy
  rw [he', Outcome.ok.injEq] at e2
  subst e2
  refine ⟨fun hr f1 f2 => (same_of_fits 1 0 r ms ms' (fun n h1 h2 hd => ?_) f1 f2 (by omega)).symm, fun i n hn c1 c2 => ?_⟩
  · obtain rfl : n = 1 := by omega
    exact (C47_ean_distance b b' s t ms ms').1 x y hx hy he he' hd
  · by_cases hne : ms' = ms
    · exact hne
    · obtain ⟨u, v, v', w, a1, a2, a3, a4⟩ := scratched_of_covered i n r ms ms' c1 c2
      rw [C90_ean13 b s x hx ms ms' he ⟨u, v, v', w, a1, a2, a3, by omega⟩ hne] at e3
      cases e3

example : ∃ ms r, Drawn .debug .ean13 "750103131130".toList ms ∧ Covered 40 3 r ms :=
  ⟨_, _, ⟨_, rfl, rfl⟩, by decide +kernel, rfl⟩

/-- C122. Five-digit add-ons: one illegible module, or a covered stretch of five. -/
theorem C122_ean5 (b b' : Build) (s t : List Char) (h5 : s.length = 5) (ms ms' : List Nat) (h : Drawn b .supp s ms)
    (h' : Drawn b' .supp t ms') (r : List (Option Nat)) :
    (illegible r ≤ 1 → Fits 0 r ms → Fits 0 r ms' → ms' = ms) ∧
    ∀ i n, n ≤ 5 → Covered i n r ms → Covered i n r ms' → ms' = ms := by
  have hx := h
  obtain ⟨x, hx, he⟩ := hx
  obtain ⟨y, hy, he'⟩ := h'
  obtain ⟨bits, e2, e3⟩ := C12_eansupp_scan b' t y hy
  rw [he', Outcome.ok.injEq] at e2
  subst e2
  refine ⟨fun hr f1 f2 => (same_of_fits 1 0 r ms ms' (fun n h1 h2 hd => ?_) f1 f2 (by omega)).symm, fun i n hn c1 c2 => ?_⟩
  · obtain rfl : n = 1 := by omega
    exact C47_ean5_distance b b' s t x y ms ms' hx hy he he' h5 hd
  · by_cases hne : ms' = ms
    · exact hne
    · obtain ⟨u, v, v', w, a1, a2, a3, a4⟩ := scratched_of_covered i n r ms ms' c1 c2
      rw [C90_ean5 b s x hx h5 ms ms' he ⟨u, v, v', w, a1, a2, a3, by omega⟩ hne] at e3
      cases e3

example : ∃ ms r, Drawn .debug .supp "51234".toList ms ∧ Covered 11 5 r ms :=
  ⟨_, _, ⟨_, rfl, rfl⟩, by decide +kernel, rfl⟩

/-- C122. Code 39 with check character: two symbols with check character. -/
theorem C122_code39 (s t : List Char) (x y : Code39.Code39) (hx : Code39.withChecksum s = .ok x) (hy : Code39.withChecksum t = .ok y)
    (ms ms' : List Nat) (he : Code39.encode x = .ok ms) (he' : Code39.encode y = .ok ms') (r : List (Option Nat)) :
    (∀ e, 2 * e + illegible r ≤ 3 → Fits e r ms → Fits e r ms' → ms' = ms) ∧
    ∀ i n, n ≤ 7 → Covered i n r ms → Covered i n r ms' → ms' = ms := by
  obtain ⟨bits, e2, -, e3⟩ := C14_code39_checksum_scan t y hy
  rw [he', Outcome.ok.injEq] at e2
  subst e2
  refine ⟨fun e hr f1 f2 => (same_of_fits 3 e r ms ms' (fun n h1 h2 hd => ?_) f1 f2 hr).symm, fun i n hn c1 c2 => ?_⟩
  · rw [C106_code39 s x hx ms he n h1 h2 ms' hd] at e3
    cases e3
  · by_cases hne : ms' = ms
    · exact hne
    · obtain ⟨u, v, v', w, a1, a2, a3, a4⟩ := scratched_of_covered i n r ms ms' c1 c2
      rw [C90_code39 s x hx ms ms' he ⟨u, v, v', w, a1, a2, a3, by omega⟩ hne] at e3
      cases e3

example : ∃ x ms, Code39.withChecksum "AB".toList = .ok x ∧ Code39.encode x = .ok ms ∧ spoilt ms :=
  ⟨_, _, rfl, rfl, by decide +kernel⟩

/-- C122. Code 93: one wrong module or two illegible ones up to 14 characters, a covered stretch of twelve up to 29. -/
theorem C122_code93 (b b' : Build) (s t : List Char) (ms ms' : List Nat) (h : Drawn b .code93 s ms) (h' : Drawn b' .code93 t ms')
    (r : List (Option Nat)) :
    (s.length ≤ 14 → ∀ e, 2 * e + illegible r ≤ 2 → Fits e r ms → Fits e r ms' → ms' = ms) ∧
    (s.length ≤ 29 → ∀ i n, n ≤ 12 → Covered i n r ms → Covered i n r ms' → ms' = ms) := by
  have hx := h
  obtain ⟨x, hx, he⟩ := hx
  obtain ⟨y, hy, he'⟩ := h'
  obtain ⟨bits, e2, e3⟩ := C17_code93_scan t y hy
  rw [he', Outcome.ok.injEq] at e2
  subst e2
  refine ⟨fun hs e hr f1 f2 => (same_of_fits 2 e r ms ms' (fun n h1 h2 hd => ?_) f1 f2 hr).symm, fun hs i n hn c1 c2 => ?_⟩
  · rw [C106_code93 b s ms h hs n h1 h2 ms' hd] at e3
    cases e3
  · by_cases hne : ms' = ms
    · exact hne
    · obtain ⟨u, v, v', w, a1, a2, a3, a4⟩ := scratched_of_covered i n r ms ms' c1 c2
      rw [C90_code93 s x hx hs ms ms' he ⟨u, v, v', w, a1, a2, a3, by omega⟩ hne] at e3
      cases e3

example : ∃ ms r, Drawn .debug .code93 "A1".toList ms ∧ illegible r = 1 ∧ Fits 1 r ms ∧ ¬ Fits 0 r ms := by
  obtain ⟨ms, h⟩ : ∃ ms, Drawn .debug .code93 "A1".toList ms ∧ spoilt ms := ⟨_, ⟨_, rfl, rfl⟩, by decide +kernel⟩
  exact ⟨ms, _, h.1, h.2⟩

example : ∃ ms r, Drawn .debug .code93 "A1".toList ms ∧ Covered 5 12 r ms :=
  ⟨_, _, ⟨_, rfl, rfl⟩, by decide +kernel, rfl⟩

/-- C122. Code 128, symbols of up to 1157 modules. -/
theorem C122_code128 (b b' : Build) (s t : List Char) (hs : s.length ≤ 6489) (ht : t.length ≤ 6489) (ms ms' : List Nat)
    (h : Drawn b .code128 s ms) (h' : Drawn b' .code128 t ms') (hm : ms.length ≤ 1157) (r : List (Option Nat)) :
    (∀ e, 2 * e + illegible r ≤ 3 → Fits e r ms → Fits e r ms' → ms' = ms) ∧
    ∀ i n, n ≤ 5 → Covered i n r ms → Covered i n r ms' → ms' = ms := by
  have hx := h
  obtain ⟨x, hx, he⟩ := hx
  obtain ⟨y, hy, he'⟩ := h'
  obtain ⟨bits, e2, e3⟩ := C28_code128_scan_regrouped_partial b' t y hy ht
  rw [he', Outcome.ok.injEq] at e2
  subst e2
  refine ⟨fun e hr f1 f2 => (same_of_fits 3 e r ms ms' (fun n h1 h2 hd => ?_) f1 f2 hr).symm, fun i n hn c1 c2 => ?_⟩
  · rw [(C106_code128 b s ms h hs hm n h1 h2 ms' hd).1] at e3
    cases e3
  · by_cases hne : ms' = ms
    · exact hne
    · obtain ⟨u, v, v', w, a1, a2, a3, a4⟩ := scratched_of_covered i n r ms ms' c1 c2
      rw [C90_code128 b s x hx ms ms' he hm ⟨u, v, v', w, a1, a2, a3, by omega⟩ hne] at e3
      cases e3

example : ∃ ms r, Drawn .debug .code128 "ÀA1".toList ms ∧ illegible r = 1 ∧ Fits 1 r ms ∧ ¬ Fits 0 r ms := by
  obtain ⟨ms, h⟩ : ∃ ms, Drawn .debug .code128 "ÀA1".toList ms ∧ spoilt ms := ⟨_, ⟨_, rfl, rfl⟩, by decide +kernel⟩
  exact ⟨ms, _, h.1, h.2⟩

/-- C122. The other symbologies, and Code 39 without check character: one illegible module can be filled in. -/
theorem C122_others (s t : List Char) (ms ms' : List Nat) (r : List (Option Nat)) (hr : illegible r ≤ 1) (f1 : Fits 0 r ms)
    (f2 : Fits 0 r ms') :
    (∀ x y, (Code39.new s = .ok x ∨ Code39.withChecksum s = .ok x) → (Code39.new t = .ok y ∨ Code39.withChecksum t = .ok y) →
      Code39.encode x = .ok ms → Code39.encode y = .ok ms' → ms' = ms) ∧
    (∀ x y, Code11.new s = .ok x → Code11.new t = .ok y → Code11.encode x = .ok ms → Code11.encode y = .ok ms' → ms' = ms) ∧
    (∀ x y, Codabar.new s = .ok x → Codabar.new t = .ok y → Codabar.encode x = ms → Codabar.encode y = ms' → ms' = ms) ∧
    (∀ x y, TF.standard s = .ok x → TF.standard t = .ok y → TF.encode x = .ok ms → TF.encode y = .ok ms' → ms' = ms) ∧
    (∀ b b' x y, TF.interleaved b s = .ok x → TF.interleaved b' t = .ok y → TF.encode x = .ok ms → TF.encode y = .ok ms' →
      ms' = ms) ∧
    (∀ x y, Code93.new s = .ok x → Code93.new t = .ok y → Code93.encode x = .ok ms → Code93.encode y = .ok ms' → ms' = ms) ∧
    (∀ b b' x y, Code128.new s = .ok x → Code128.new t = .ok y → Code128.encode b x = .ok ms → Code128.encode b' y = .ok ms' →
      ms' = ms) := by
  have key : ¬ DifferIn 1 ms ms' → ms' = ms := fun hk =>
    (same_of_fits 1 0 r ms ms' (fun n h1 h2 hd => hk (by
      obtain rfl : n = 1 := by omega
      exact hd)) f1 f2 (by omega)).symm
  refine ⟨fun x y hx hy e1 e2 => key ?_, fun x y hx hy e1 e2 => key ?_, fun x y hx hy e1 e2 => key ?_,
    fun x y hx hy e1 e2 => key ?_, fun b b' x y hx hy e1 e2 => key ?_, fun x y hx hy e1 e2 => key ?_,
    fun b b' x y hx hy e1 e2 => key ?_⟩
  · exact C47_code39_distance s t x y ms ms' hx hy e1 e2
  · exact C47_code11_distance s t x y ms ms' hx hy e1 e2
  · rw [← e1, ← e2]; exact C47_codabar_distance s t x y hx hy
  · exact (C47_tf_distance .debug .debug s t x y ms ms' e1 e2).1 hx hy
  · exact (C47_tf_distance b b' s t x y ms ms' e1 e2).2 hx hy
  · exact C47_code93_distance s t x y ms ms' hx hy e1 e2
  · exact C47_code128_distance b b' s t x y ms ms' hx hy e1 e2

example : ∃ x ms, Code11.new "1-2".toList = .ok x ∧ Code11.encode x = .ok ms ∧ illegible ((ms.map some).set 9 none) = 1 ∧
    Fits 0 ((ms.map some).set 9 none) ms := ⟨_, _, rfl, rfl, by decide +kernel, by decide +kernel⟩

/-! ## No more than that -/

/-- Symbols that differ in `d` modules: a row with `f` illegible and `e` wrong modules fits both, however `d` is shared out. -/
theorem fits_both (d : Nat) (ms ms' : List Nat) (h : DifferIn d ms ms') (e f : Nat) (he : 2 * e + f = d) :
    ∃ r, illegible r = f ∧ Fits e r ms ∧ Fits e r ms' := by
  obtain ⟨hl, hd⟩ := h
  obtain ⟨r, h0, h1, h2, h3⟩ := row_between ms ms' hl e e f (by unfold dist; omega)
  exact ⟨r, h1, ⟨h0, by omega⟩, ⟨by omega, by omega⟩⟩

/-- C122. One more module, and the row fits two symbols: two wrong modules, or four illegible ones, in UPC-A, EAN-8, Code 39 with
check character and Code 128; three in Code 93; two in EAN-13. -/
theorem C122_sharp (e f : Nat) :
    (2 * e + f = 4 →
      (∃ ms ms' r, Drawn .debug .upca "50008063608".toList ms ∧ Drawn .debug .upca "50008067608".toList ms' ∧ ms ≠ ms' ∧
        illegible r = f ∧ Fits e r ms ∧ Fits e r ms') ∧
      (∃ ms ms' r, Drawn .debug .ean8 "7066907".toList ms ∧ Drawn .debug .ean8 "7166997".toList ms' ∧ ms ≠ ms' ∧
        illegible r = f ∧ Fits e r ms ∧ Fits e r ms') ∧
      (∃ x y ms ms' r, Code39.withChecksum "0".toList = .ok x ∧ Code39.withChecksum "4".toList = .ok y ∧
        Code39.encode x = .ok ms ∧ Code39.encode y = .ok ms' ∧ ms ≠ ms' ∧ illegible r = f ∧ Fits e r ms ∧ Fits e r ms') ∧
      (∃ ms ms' r, Drawn .debug .code128 "Ɓ ".toList ms ∧ Drawn .debug .code128 "Ɓ!".toList ms' ∧ ms ≠ ms' ∧
        illegible r = f ∧ Fits e r ms ∧ Fits e r ms')) ∧
    (2 * e + f = 3 → ∃ ms ms' r, Drawn .debug .code93 "T".toList ms ∧ Drawn .debug .code93 "%".toList ms' ∧ ms ≠ ms' ∧
        illegible r = f ∧ Fits e r ms ∧ Fits e r ms') ∧
    (2 * e + f = 2 → ∃ ms ms' r, Drawn .debug .ean13 "370752650584".toList ms ∧ Drawn .debug .ean13 "974752650584".toList ms' ∧
        ms ≠ ms' ∧ illegible r = f ∧ Fits e r ms ∧ Fits e r ms') := by
  have ne : ∀ d ms ms', 1 ≤ d → DifferIn d ms ms' → ms ≠ ms' := by
    intro d ms ms' hd h hq
    subst hq
    have := dist_self ms
    unfold dist at this
    have := h.2
    omega
  refine ⟨fun h => ⟨?_, ?_, ?_, ?_⟩, fun h => ?_, fun h => ?_⟩
  · obtain ⟨ms, ms', h1, h2, h3⟩ : ∃ ms ms', Drawn .debug .upca "50008063608".toList ms ∧
        Drawn .debug .upca "50008067608".toList ms' ∧ DifferIn 4 ms ms' :=
      ⟨_, _, ⟨_, rfl, rfl⟩, ⟨_, rfl, rfl⟩, by decide +kernel, by decide +kernel⟩
    obtain ⟨r, hr⟩ := fits_both 4 ms ms' h3 e f h
    exact ⟨ms, ms', r, h1, h2, ne 4 ms ms' (by omega) h3, hr⟩
  · obtain ⟨ms, ms', h1, h2, h3⟩ : ∃ ms ms', Drawn .debug .ean8 "7066907".toList ms ∧ Drawn .debug .ean8 "7166997".toList ms' ∧
        DifferIn 4 ms ms' := ⟨_, _, ⟨_, rfl, rfl⟩, ⟨_, rfl, rfl⟩, by decide +kernel, by decide +kernel⟩
    obtain ⟨r, hr⟩ := fits_both 4 ms ms' h3 e f h
    exact ⟨ms, ms', r, h1, h2, ne 4 ms ms' (by omega) h3, hr⟩
  · obtain ⟨x, y, ms, ms', h1, h2, h1', h2', h3⟩ : ∃ x y ms ms', Code39.withChecksum "0".toList = .ok x ∧
        Code39.withChecksum "4".toList = .ok y ∧ Code39.encode x = .ok ms ∧ Code39.encode y = .ok ms' ∧ DifferIn 4 ms ms' :=
      ⟨_, _, _, _, rfl, rfl, rfl, rfl, by decide +kernel, by decide +kernel⟩
    obtain ⟨r, hr⟩ := fits_both 4 ms ms' h3 e f h
    exact ⟨x, y, ms, ms', r, h1, h2, h1', h2', ne 4 ms ms' (by omega) h3, hr⟩
  · obtain ⟨ms, ms', h1, h2, h3⟩ : ∃ ms ms', Drawn .debug .code128 "Ɓ ".toList ms ∧ Drawn .debug .code128 "Ɓ!".toList ms' ∧
        DifferIn 4 ms ms' := ⟨_, _, ⟨_, rfl, rfl⟩, ⟨_, rfl, rfl⟩, by decide +kernel, by decide +kernel⟩
    obtain ⟨r, hr⟩ := fits_both 4 ms ms' h3 e f h
    exact ⟨ms, ms', r, h1, h2, ne 4 ms ms' (by omega) h3, hr⟩
  · obtain ⟨ms, ms', h1, h2, h3⟩ : ∃ ms ms', Drawn .debug .code93 "T".toList ms ∧ Drawn .debug .code93 "%".toList ms' ∧
        DifferIn 3 ms ms' := ⟨_, _, ⟨_, rfl, rfl⟩, ⟨_, rfl, rfl⟩, by decide +kernel, by decide +kernel⟩
    obtain ⟨r, hr⟩ := fits_both 3 ms ms' h3 e f h
    exact ⟨ms, ms', r, h1, h2, ne 3 ms ms' (by omega) h3, hr⟩
  · obtain ⟨ms, ms', h1, h2, h3⟩ : ∃ ms ms', Drawn .debug .ean13 "370752650584".toList ms ∧
        Drawn .debug .ean13 "974752650584".toList ms' ∧ DifferIn 2 ms ms' :=
      ⟨_, _, ⟨_, rfl, rfl⟩, ⟨_, rfl, rfl⟩, by decide +kernel, by decide +kernel⟩
    obtain ⟨r, hr⟩ := fits_both 2 ms ms' h3 e f h
    exact ⟨ms, ms', r, h1, h2, ne 2 ms ms' (by omega) h3, hr⟩

end Barcoders
