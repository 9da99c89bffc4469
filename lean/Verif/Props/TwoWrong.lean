import Verif.Props.NearErrors
import Verif.Props.Counting
import Verif.Spec.TwoWrong

/-!
# Two wrong characters in Code 93 and Code 11: exactly which go unnoticed (C137)
-/

set_option autoImplicit false

namespace Barcoders
open Spec

theorem placeWeights_eq (n n' j : Nat) : placeWeights n n' j = (weightC n j, weightK n' j) := by
  match j with
  | 0 => rfl
  | 1 => simp [placeWeights, weightC, weightK]
  | j + 2 => rfl

theorem inverse_exists (M : Nat) (hM : M = 47 ∨ M = 11) (d : Int) (hd : d % M ≠ 0) : ∃ v < M, ((v : Int) * d) % M = 1 := by
  have key : ∀ M ∈ [47, 11], ∀ e < M, e ≠ 0 → ∃ v < M, v * e % M = 1 := by decide +kernel
  have h0 : 0 ≤ d % M := Int.emod_nonneg _ (by rcases hM with rfl | rfl <;> decide)
  have h1 : d % M < M := Int.emod_lt_of_pos _ (by rcases hM with rfl | rfl <;> decide)
  obtain ⟨e, he⟩ : ∃ e : Nat, d % M = e := ⟨(d % M).toNat, by omega⟩
  obtain ⟨v, hv, hve⟩ := key M (by rcases hM with rfl | rfl <;> simp) e (by omega) (by omega)
  refine ⟨v, hv, ?_⟩
  rw [Int.mul_emod, he, Int.emod_eq_of_lt (a := (v : Int)) (by omega) (by omega)]
  exact_mod_cast hve

/-- One equation of two, if the coefficients are proportional. -/
theorem second_equation (M : Nat) (α β γ δ X Y : Int) (v : Nat) (hv : ((v : Int) * β) % M = 1) (hd : (β * γ - α * δ) % M = 0)
    (h : (β * Y + α * X) % M = 0) : (δ * Y + γ * X) % M = 0 := by
  obtain ⟨A, hA⟩ := Int.dvd_of_emod_eq_zero h
  obtain ⟨B, hB⟩ := Int.dvd_of_emod_eq_zero hd
  obtain ⟨w, hw⟩ : ∃ w, (v : Int) * β = M * w + 1 := ⟨_, by
    have := Int.mul_ediv_add_emod ((v : Int) * β) M
    rw [hv] at this
    exact this.symm⟩
  generalize (v : Int) = u at hw
  apply Int.emod_eq_zero_of_dvd
  exact ⟨u * (δ * A + B * X) - w * (δ * Y + γ * X), by grind⟩

/-- The first equation solved for the right character. -/
theorem first_equation (M : Nat) (α β X Y : Int) (v : Nat) (hv : ((v : Int) * β) % M = 1) :
    (β * Y + α * X) % M = 0 ↔ (Y + v * α * X) % M = 0 := by
  obtain ⟨w, hw⟩ : ∃ w, (v : Int) * β = M * w + 1 := ⟨_, by
    have := Int.mul_ediv_add_emod ((v : Int) * β) M
    rw [hv] at this
    exact this.symm⟩
  generalize (v : Int) = u at hw ⊢
  constructor <;> intro h <;> obtain ⟨A, hA⟩ := Int.dvd_of_emod_eq_zero h <;> apply Int.emod_eq_zero_of_dvd
  · exact ⟨u * A - w * Y, by grind⟩
  · exact ⟨β * A - w * α * X, by grind⟩

/-- How many wrong pairs solve the two equations. -/
theorem count_wrong_pairs (M : Nat) (hM : M = 47 ∨ M = 11) (A : List Char) (hA : A.Nodup) (hAl : A.length = M) (val : Char → Nat)
    (hlt : ∀ c ∈ A, val c < M) (hinj : ∀ c ∈ A, ∀ d ∈ A, val c = val d → c = d) (hsurj : ∀ v < M, ∃ c ∈ A, val c = v)
    (a c : Char) (ha : a ∈ A) (hc : c ∈ A) (α β γ δ : Int) (hβ : (β * γ - α * δ) % M = 0 → β % M ≠ 0) :
    Exactly (if (β * γ - α * δ) % M = 0 then M - 1 else 0) (fun pr : Char × Char => pr ≠ (a, c) ∧ pr.1 ∈ A ∧ pr.2 ∈ A ∧
      (β * ((val pr.2 : Int) - val c) + α * ((val pr.1 : Int) - val a)) % M = 0 ∧
      (δ * ((val pr.2 : Int) - val c) + γ * ((val pr.1 : Int) - val a)) % M = 0) := by
  split
  · next hd =>
    obtain ⟨v, -, hv⟩ := inverse_exists M hM β (hβ hd)
    have hf : ∀ x : Char, ∃ y, y ∈ A ∧ ((val y : Int) - val c + v * α * ((val x : Int) - val a)) % M = 0 := by
      intro x
      have hM0 : (M : Int) ≠ 0 := by rcases hM with rfl | rfl <;> decide
      have hM1 : (0 : Int) < M := by rcases hM with rfl | rfl <;> decide
      have h0 := Int.emod_nonneg ((val c : Int) - v * α * ((val x : Int) - val a)) hM0
      have h1 := Int.emod_lt_of_pos ((val c : Int) - v * α * ((val x : Int) - val a)) hM1
      obtain ⟨y, hy, e⟩ := hsurj (((val c : Int) - v * α * ((val x : Int) - val a)) % M).toNat (by omega)
      refine ⟨y, hy, ?_⟩
      have e' : (val y : Int) = ((val c : Int) - v * α * ((val x : Int) - val a)) % M := by omega
      rw [e']
      generalize (v : Int) * α * ((val x : Int) - val a) = Z
      rcases hM with rfl | rfl <;> omega
    obtain ⟨f, hf⟩ := Classical.axiomOfChoice hf
    have huniq : ∀ x y, y ∈ A → ((val y : Int) - val c + v * α * ((val x : Int) - val a)) % M = 0 → y = f x := by
      intro x y hy e
      apply hinj y hy (f x) (hf x).1
      have e2 := (hf x).2
      have l1 := hlt y hy
      have l2 := hlt (f x) (hf x).1
      generalize (v : Int) * α * ((val x : Int) - val a) = Z at e e2
      rcases hM with rfl | rfl <;> omega
    have hfa : f a = c := by
      symm
      apply huniq a c hc
      rw [Int.sub_self, Int.sub_self, Int.mul_zero]
      rfl
    have hbase : Exactly (M - 1) (fun x => x ∈ A ∧ x ≠ a) := by
      refine ⟨A.erase a, hA.erase a, by rw [List.length_erase_of_mem ha, hAl], fun x => ?_⟩
      rw [hA.mem_erase_iff]
      exact and_comm
    refine exactly_congr (exactly_image hbase (fun x => (x, f x)) (fun x y _ _ e => (Prod.mk.inj e).1)) (fun pr => ?_)
    constructor
    · rintro ⟨x, ⟨hx, hne⟩, rfl⟩
      have h1 := (first_equation M α β ((val x : Int) - val a) ((val (f x) : Int) - val c) v hv).mpr (hf x).2
      exact ⟨fun e => hne (Prod.mk.inj e).1, hx, (hf x).1, h1, second_equation M α β γ δ _ _ v hv hd h1⟩
    · rintro ⟨hne, hx, hy, h1, -⟩
      have h2 := huniq pr.1 pr.2 hy ((first_equation M α β _ _ v hv).mp h1)
      refine ⟨pr.1, ⟨hx, fun e => hne ?_⟩, by rw [← h2]⟩
      rw [e, hfa] at h2
      rw [← e, ← h2]
  · next hd =>
    obtain ⟨v, -, hv⟩ := inverse_exists M hM _ hd
    refine ⟨[], List.nodup_nil, rfl, fun pr => ⟨(fun h => absurd h List.not_mem_nil), ?_⟩⟩
    rintro ⟨hne, hx, hy, h1, h2⟩
    exfalso
    have l1 := hlt pr.1 hx
    have l2 := hlt pr.2 hy
    have l3 := hlt a ha
    have l4 := hlt c hc
    have y0 := unknown_zero M hM β α δ γ _ _ v (by rw [← hv]) h1 h2 (by omega)
    have x0 := unknown_zero M hM γ δ α β ((val pr.1 : Int) - val a) ((val pr.2 : Int) - val c) v
      (by rw [← hv]; congr 2; grind) (by rw [Int.add_comm]; exact h2) (by rw [Int.add_comm]; exact h1) (by omega)
    apply hne
    exact Prod.ext (hinj pr.1 hx a ha (by omega)) (hinj pr.2 hy c hc (by omega))

/-- The weight of the right place in the first sum vanishes for the last character only, which can hide nothing. -/
theorem weight_nonzero (M n n' i d : Nat) (hM : n < M) (h1 : 0 < n) (hM1 : 1 < M) (hd : 0 < d)
    (h : (weightC n i * weightK n' (i + d) - weightC n (i + d) * weightK n' i) % M = 0) : weightC n i % M ≠ 0 := by
  have hw : ∀ j, 0 < j → weightC n j % M ≠ 0 := by
    intro j hj
    match j with
    | 1 =>
      rw [weightC]
      intro h
      have e : (-1 : Int) % M = M - 1 := by
        rw [show (-1 : Int) = (M - 1) + M * (-1) by omega, Int.add_mul_emod_self_left]
        exact Int.emod_eq_of_lt (by omega) (by omega)
      omega
    | j + 2 =>
      rw [weightC]
      have := Nat.mod_lt j h1
      rw [Int.emod_eq_of_lt (by omega) (by omega)]
      omega
  by_cases hi : i = 0
  · subst hi
    rw [Nat.zero_add] at h
    have : weightC n d % M ≠ 0 := hw d hd
    exfalso
    apply this
    rw [← h]
    simp [weightC, weightK]
  · exact hw i (by omega)

/-! ## Code 93 -/

/-- C137. Code 93, any length, any two places: a reading in which at most two characters differ from those drawn passes exactly if
both weighted sums of the two changes vanish modulo 47. -/
theorem C137_code93_which (b : Build) (s : List Char) (ms ms' : List Nat) (hs : Drawn b .code93 s ms) (p m q : List Char)
    (a c a' c' : Char) (hu : readCode93 ms = some (p ++ a :: (m ++ c :: q)))
    (hu' : readCode93 ms' = some (p ++ a' :: (m ++ c' :: q))) :
    (scanCode93 ms').isSome = true ↔
      ((placeWeights 20 15 (q.length + (m.length + 1))).1 * ((code93Value a' : Int) - code93Value a) +
        (placeWeights 20 15 q.length).1 * ((code93Value c' : Int) - code93Value c)) % 47 = 0 ∧
      ((placeWeights 20 15 (q.length + (m.length + 1))).2 * ((code93Value a' : Int) - code93Value a) +
        (placeWeights 20 15 q.length).2 * ((code93Value c' : Int) - code93Value c)) % 47 = 0 := by
  rw [code93_two_wrong b s ms ms' hs p m q a c a' c' hu hu', placeWeights_eq, placeWeights_eq]
  simp only [Int.add_comm]

/-- C137. Code 93, any length, any two places: of the 2208 ways of getting the two characters wrong (one of them, or both), exactly
46 pass if one place can hide the other, and none if not. -/
theorem C137_code93_count (b : Build) (s : List Char) (ms : List Nat) (hs : Drawn b .code93 s ms) (p m q : List Char)
    (a c : Char) (hu : readCode93 ms = some (p ++ a :: (m ++ c :: q))) :
    Exactly (if CanHide 47 20 15 q.length (q.length + (m.length + 1)) then 46 else 0) (fun w : Char × Char => w ≠ (a, c) ∧
      ∃ ms', readCode93 ms' = some (p ++ w.1 :: (m ++ w.2 :: q)) ∧ (scanCode93 ms').isSome = true) := by
  have hA := readCode93_chars ms _ hu
  have key := count_wrong_pairs 47 (by decide) code93Alphabet (by decide) (by decide) code93Value code93Value_lt
    (fun c hc d hd h => code93Value_inj c d hc hd h) (by decide +kernel) a c (hA a (by simp)) (hA c (by simp))
    (weightC 20 (q.length + (m.length + 1))) (weightC 20 q.length) (weightK 15 (q.length + (m.length + 1))) (weightK 15 q.length)
    (weight_nonzero 47 20 15 q.length (m.length + 1) (by decide) (by decide) (by decide) (by omega))
  have e : CanHide 47 20 15 q.length (q.length + (m.length + 1)) ↔
      (weightC 20 q.length * weightK 15 (q.length + (m.length + 1)) -
        weightC 20 (q.length + (m.length + 1)) * weightK 15 q.length) % (47 : Nat) = 0 := by
    rw [CanHide, placeWeights_eq, placeWeights_eq]
  simp only [e]
  refine exactly_congr key (fun w => and_congr_right (fun _ => ⟨?_, ?_⟩))
  · rintro ⟨h1, h2, h3⟩
    have hr := readCode93_paint (p ++ w.1 :: (m ++ w.2 :: q)) (by
      intro x hx
      simp only [List.mem_append, List.mem_cons] at hx
      rcases hx with h | rfl | h | rfl | h
      · exact hA x (by simp [h])
      · exact h1
      · exact hA x (by simp [h])
      · exact h2
      · exact hA x (by simp [h]))
    exact ⟨_, hr, (code93_two_wrong b s ms _ hs p m q a c w.1 w.2 hu hr).mpr h3⟩
  · rintro ⟨ms', hr, h⟩
    have hA' := readCode93_chars ms' _ hr
    exact ⟨hA' _ (by simp), hA' _ (by simp), (code93_two_wrong b s ms ms' hs p m q a c w.1 w.2 hu hr).mp h⟩

/-- With at most nineteen characters to the right there is one pair of places that can hide each other. -/
theorem canHide_short (i k : Nat) (h : i < k) (hk : k < 20) : CanHide 47 20 15 i k ↔ i = 10 ∧ k = 16 := by
  have key : ∀ k < 20, ∀ i < k, CanHide 47 20 15 i k ↔ i = 10 ∧ k = 16 := by decide +kernel
  exact key k hk i h

/-- C137. Code 93 up to eighteen data characters: if a reading with one or two wrong characters passes, they are those with 10 and
with 16 characters to their right. -/
theorem C137_code93_short (b : Build) (s : List Char) (ms ms' : List Nat) (hs : Drawn b .code93 s ms) (hl : s.length ≤ 18)
    (p m q : List Char) (a c a' c' : Char) (hu : readCode93 ms = some (p ++ a :: (m ++ c :: q)))
    (hu' : readCode93 ms' = some (p ++ a' :: (m ++ c' :: q))) (hne : (a', c') ≠ (a, c))
    (hp : (scanCode93 ms').isSome = true) : q.length = 10 ∧ (m ++ c :: q).length = 16 := by
  obtain ⟨l, -, h2, h3⟩ := C137_code93_count b s ms hs p m q a c hu
  have hmem := (h3 (a', c')).mpr ⟨hne, ms', hu', hp⟩
  obtain ⟨x, hx, he⟩ := hs
  obtain ⟨h4, h5⟩ := code93_symbol s x hx
  rw [he, Outcome.ok.injEq] at h5
  rw [h5, readCode93_paint _ h4, Option.some.injEq] at hu
  have hlen := congrArg List.length hu
  rw [code93Text_length] at hlen
  simp only [List.length_append, List.length_cons] at hlen ⊢
  by_cases hc : CanHide 47 20 15 q.length (q.length + (m.length + 1))
  · have := (canHide_short q.length (q.length + (m.length + 1)) (by omega) (by omega)).mp hc
    omega
  · rw [if_neg hc] at h2
    rw [List.length_eq_zero_iff.mp h2] at hmem
    exact absurd hmem List.not_mem_nil

/-- C137. Eighteen cannot be improved: of nineteen data characters the first can hide the one with three characters to its right. -/
theorem C137_code93_nineteen : ∃ ms ms', Drawn .debug .code93 (List.replicate 19 '0') ms ∧
    readCode93 ms = some ([] ++ '0' :: (List.replicate 16 '0' ++ '0' :: "000".toList)) ∧
    readCode93 ms' = some ([] ++ '1' :: (List.replicate 16 '0' ++ 'E' :: "000".toList)) ∧ (scanCode93 ms').isSome = true := by
  have hr := readCode93_paint ('1' :: (List.replicate 16 '0' ++ 'E' :: "000".toList)) (by decide +kernel)
  refine ⟨_, _, ⟨_, rfl, rfl⟩, by decide +kernel, hr, ?_⟩
  rw [scanCode93, hr, Option.bind_some]
  decide +kernel

/-- The pairs of places that can hide each other's errors, up to 22 data characters. -/
example : ((List.range 24).flatMap fun k => ((List.range k).filter fun i => CanHide 47 20 15 i k).map fun i => (i, k)) =
    [(10, 16), (3, 20), (13, 21), (9, 22)] := by decide +kernel

/-- Fifteen noughts: the first and the seventh character are the ones with 16 and 10 characters to their right. One wrong in the
first and the right companion in the seventh pass, another companion does not. -/
example : ∃ ms, Drawn .debug .code93 (List.replicate 15 '0') ms ∧
    readCode93 ms = some ([] ++ '0' :: ("00000".toList ++ '0' :: "0000000000".toList)) ∧
    CanHide 47 20 15 10 16 ∧
    (code93Alphabet.filter fun c => (verifyCode93 ('1' :: ("00000".toList ++ c :: "0000000000".toList))).isSome) = ['E'] :=
  ⟨_, ⟨_, rfl, rfl⟩, by decide +kernel, by decide +kernel, by decide +kernel⟩

/-! ## Code 11 -/

/-- C137. Code 11 with two check characters, any length, any two places: a reading in which at most two characters differ from those drawn passes exactly if
both weighted sums of the two changes vanish modulo 11. -/
theorem C137_code11_which (b : Build) (s : List Char) (ms ms' : List Nat) (hs : Drawn b .code11 s ms) (p m q : List Char)
    (a c a' c' : Char) (hu : readCode11 ms = some (p ++ a :: (m ++ c :: q)))
    (hu' : readCode11 ms' = some (p ++ a' :: (m ++ c' :: q))) (hl : 12 ≤ (p ++ a :: (m ++ c :: q)).length) :
    (scanCode11 ms').isSome = true ↔
      ((placeWeights 10 9 (q.length + (m.length + 1))).1 * ((code11Value a' : Int) - code11Value a) +
        (placeWeights 10 9 q.length).1 * ((code11Value c' : Int) - code11Value c)) % 11 = 0 ∧
      ((placeWeights 10 9 (q.length + (m.length + 1))).2 * ((code11Value a' : Int) - code11Value a) +
        (placeWeights 10 9 q.length).2 * ((code11Value c' : Int) - code11Value c)) % 11 = 0 := by
  rw [code11_two_wrong b s ms ms' hs p m q a c a' c' hu hu' hl, placeWeights_eq, placeWeights_eq]
  simp only [Int.add_comm]

/-- C137. Code 11 with two check characters, any length, any two places: of the 120 ways of getting the two characters wrong (one of them, or both), exactly
10 pass if one place can hide the other, and none if not. -/
theorem C137_code11_count (b : Build) (s : List Char) (ms : List Nat) (hs : Drawn b .code11 s ms) (p m q : List Char)
    (a c : Char) (hu : readCode11 ms = some (p ++ a :: (m ++ c :: q))) (hl : 12 ≤ (p ++ a :: (m ++ c :: q)).length) :
    Exactly (if CanHide 11 10 9 q.length (q.length + (m.length + 1)) then 10 else 0) (fun w : Char × Char => w ≠ (a, c) ∧
      ∃ ms', readCode11 ms' = some (p ++ w.1 :: (m ++ w.2 :: q)) ∧ (scanCode11 ms').isSome = true) := by
  have hA := readCode11_chars ms _ hu
  have key := count_wrong_pairs 11 (by decide) code11Alphabet (by decide) (by decide) code11Value code11Value_lt
    (fun c hc d hd h => code11Value_inj c d hc hd h) (by decide +kernel) a c (hA a (by simp)) (hA c (by simp))
    (weightC 10 (q.length + (m.length + 1))) (weightC 10 q.length) (weightK 9 (q.length + (m.length + 1))) (weightK 9 q.length)
    (weight_nonzero 11 10 9 q.length (m.length + 1) (by decide) (by decide) (by decide) (by omega))
  have e : CanHide 11 10 9 q.length (q.length + (m.length + 1)) ↔
      (weightC 10 q.length * weightK 9 (q.length + (m.length + 1)) -
        weightC 10 (q.length + (m.length + 1)) * weightK 9 q.length) % (11 : Nat) = 0 := by
    rw [CanHide, placeWeights_eq, placeWeights_eq]
  simp only [e]
  refine exactly_congr key (fun w => and_congr_right (fun _ => ⟨?_, ?_⟩))
  · rintro ⟨h1, h2, h3⟩
    have hr := readCode11_paint (p ++ w.1 :: (m ++ w.2 :: q)) (by
      intro x hx
      simp only [List.mem_append, List.mem_cons] at hx
      rcases hx with h | rfl | h | rfl | h
      · exact hA x (by simp [h])
      · exact h1
      · exact hA x (by simp [h])
      · exact h2
      · exact hA x (by simp [h]))
    exact ⟨_, hr, (code11_two_wrong b s ms _ hs p m q a c w.1 w.2 hu hr hl).mpr h3⟩
  · rintro ⟨ms', hr, h⟩
    have hA' := readCode11_chars ms' _ hr
    exact ⟨hA' _ (by simp), hA' _ (by simp), (code11_two_wrong b s ms ms' hs p m q a c w.1 w.2 hu hr hl).mp h⟩

/-- The pairs of places that can hide each other's errors, up to twelve data characters; in the first the check character C is one. -/
example : ((List.range 14).flatMap fun k => ((List.range k).filter fun i => CanHide 11 10 9 i k).map fun i => (i, k)) =
    [(1, 6), (4, 10), (8, 11), (7, 12), (2, 13)] := by decide +kernel

/-- Eleven noughts, the seventh read as a one: the symbol passes if the first check character is read as 5. -/
example : ∃ ms, Drawn .debug .code11 (List.replicate 11 '0') ms ∧
    readCode11 ms = some ("000000".toList ++ '0' :: ("0000".toList ++ '0' :: "0".toList)) ∧
    (code11Alphabet.filter fun c => (verifyCode11 ("000000".toList ++ '1' :: ("0000".toList ++ c :: "0".toList))).isSome) = ['5'] :=
  ⟨_, ⟨_, rfl, rfl⟩, by decide +kernel, by decide +kernel⟩

end Barcoders
