import Verif.Props.NearErrors

/-!
# C135: two characters exchanged in Code 93 and Code 11
-/

set_option autoImplicit false

namespace Barcoders

open Spec

/-- `w * X` and `w' * (-X)` cancel when `w - w'` or `X` is a multiple of the (prime) modulus. -/
theorem cancel47 (w w' X : Int) (h1 : -22 ≤ w - w') (h2 : w - w' ≤ 22) (hX : X ≠ 0) (hX1 : -47 < X) (hX2 : X < 47) :
    (w * X + w' * (-X)) % 47 = 0 ↔ w = w' := by
  have e : w * X + w' * (-X) = (w - w') * X := by grind
  rw [e]
  constructor
  · intro h
    generalize hd : w - w' = d at *
    have hd' : d = -22 ∨ d = -21 ∨ d = -20 ∨ d = -19 ∨ d = -18 ∨ d = -17 ∨ d = -16 ∨ d = -15 ∨ d = -14 ∨ d = -13 ∨ d = -12 ∨
        d = -11 ∨ d = -10 ∨ d = -9 ∨ d = -8 ∨ d = -7 ∨ d = -6 ∨ d = -5 ∨ d = -4 ∨ d = -3 ∨ d = -2 ∨ d = -1 ∨ d = 0 ∨ d = 1 ∨ d = 2 ∨
        d = 3 ∨ d = 4 ∨ d = 5 ∨ d = 6 ∨ d = 7 ∨ d = 8 ∨ d = 9 ∨ d = 10 ∨ d = 11 ∨ d = 12 ∨ d = 13 ∨ d = 14 ∨ d = 15 ∨ d = 16 ∨
        d = 17 ∨ d = 18 ∨ d = 19 ∨ d = 20 ∨ d = 21 ∨ d = 22 := by omega
    rcases hd' with rfl | rfl | rfl | rfl | rfl | rfl | rfl | rfl | rfl | rfl | rfl | rfl | rfl | rfl | rfl | rfl | rfl | rfl | rfl |
      rfl | rfl | rfl | rfl | rfl | rfl | rfl | rfl | rfl | rfl | rfl | rfl | rfl | rfl | rfl | rfl | rfl | rfl | rfl | rfl | rfl | rfl |
      rfl | rfl | rfl | rfl <;> omega
  · rintro rfl
    simp

theorem cancel11 (w w' X : Int) (h1 : -11 ≤ w - w') (h2 : w - w' ≤ 11) (hX : X ≠ 0) (hX1 : -11 < X) (hX2 : X < 11) :
    (w * X + w' * (-X)) % 11 = 0 ↔ (w - w') % 11 = 0 := by
  have e : w * X + w' * (-X) = (w - w') * X := by grind
  rw [e]
  generalize hd : w - w' = d at *
  have hd' : d = -11 ∨ d = -10 ∨ d = -9 ∨ d = -8 ∨ d = -7 ∨ d = -6 ∨ d = -5 ∨ d = -4 ∨ d = -3 ∨ d = -2 ∨ d = -1 ∨ d = 0 ∨ d = 1 ∨
      d = 2 ∨ d = 3 ∨ d = 4 ∨ d = 5 ∨ d = 6 ∨ d = 7 ∨ d = 8 ∨ d = 9 ∨ d = 10 ∨ d = 11 := by omega
  rcases hd' with rfl | rfl | rfl | rfl | rfl | rfl | rfl | rfl | rfl | rfl | rfl | rfl | rfl | rfl | rfl | rfl | rfl | rfl | rfl |
      rfl | rfl | rfl | rfl <;> omega

/-- C135. Code 93: exchanging two unequal characters is noticed, unless both are data characters (two or more characters to the right
of them) and their distance is a multiple of 60. -/
theorem C135_code93 (b : Build) (s : List Char) (ms ms' : List Nat) (hs : Drawn b .code93 s ms) (p m q : List Char)
    (a c : Char) (hne : a ≠ c) (hu : readCode93 ms = some (p ++ a :: (m ++ c :: q)))
    (hu' : readCode93 ms' = some (p ++ c :: (m ++ a :: q))) :
    (scanCode93 ms').isSome = true ↔ 2 ≤ q.length ∧ (m.length + 1) % 60 = 0 := by
  have hA := readCode93_chars ms _ hu
  have l1 := code93Value_lt a (hA a (by simp))
  have l2 := code93Value_lt c (hA c (by simp))
  have hn : code93Value a ≠ code93Value c := fun h => hne (code93Value_inj a c (hA a (by simp)) (hA c (by simp)) h)
  rw [code93_two_wrong b s ms ms' hs p m q a c c a hu hu']
  rw [show ((code93Value c : Int) - code93Value a) = -((code93Value a : Int) - code93Value c) by omega]
  generalize hX : (code93Value a : Int) - code93Value c = X
  have x0 : X ≠ 0 := by omega
  have x1 : -47 < X := by omega
  have x2 : X < 47 := by omega
  generalize q.length = i
  generalize hd : m.length + 1 = d
  have hd1 : 1 ≤ d := by omega
  obtain ⟨k, hk⟩ : ∃ k, i + d = k + 1 := ⟨i + d - 1, by omega⟩
  match i with
  | 0 =>
    rw [hk]
    cases k with
    | zero =>
      rw [cancel47 _ _ X (by decide) (by decide) x0 x1 x2]
      simp [weightC]
    | succ k =>
      rw [cancel47 _ _ X (by simp only [weightC]; omega) (by simp only [weightC]; omega) x0 x1 x2]
      simp only [weightC]
      omega
  | 1 =>
    obtain ⟨k, rfl⟩ : ∃ j, k = j + 1 := ⟨k - 1, by omega⟩
    rw [hk, cancel47 _ _ X (by simp only [weightC]; omega) (by simp only [weightC]; omega) x0 x1 x2]
    simp only [weightC]
    omega
  | i + 2 =>
    obtain ⟨k, rfl⟩ : ∃ j, k = j + 1 := ⟨k - 1, by omega⟩
    rw [hk, cancel47 _ _ X (by simp only [weightC]; omega) (by simp only [weightC]; omega) x0 x1 x2,
      cancel47 _ _ X (by simp only [weightK]; omega) (by simp only [weightK]; omega) x0 x1 x2]
    simp only [weightC, weightK]
    omega

set_option maxRecDepth 8000 in
/-- Sixty places apart, not noticed; fifty-nine places apart, noticed. -/
example : ∃ ms ms', Drawn .debug .code93 ('1' :: List.replicate 60 '0') ms ∧ Drawn .debug .code93 (List.replicate 60 '0' ++ ['1']) ms' ∧
    readCode93 ms = some ([] ++ '1' :: (List.replicate 59 '0' ++ '0' :: "13".toList)) ∧
    readCode93 ms' = some ([] ++ '0' :: (List.replicate 59 '0' ++ '1' :: "13".toList)) ∧
    verifyCode93 (List.replicate 59 '0' ++ '1' :: '0' :: "13".toList) = none :=
  ⟨_, _, ⟨_, rfl, rfl⟩, ⟨_, rfl, rfl⟩, by decide +kernel, by decide +kernel, by decide +kernel⟩

/-- C135. Code 11 with two check characters: exchanging two unequal characters is noticed, unless there is at least one character to the
right of them and their distance is a multiple of 90. -/
theorem C135_code11_two (b : Build) (s : List Char) (ms ms' : List Nat) (hs : Drawn b .code11 s ms) (p m q : List Char)
    (a c : Char) (hne : a ≠ c) (hu : readCode11 ms = some (p ++ a :: (m ++ c :: q)))
    (hu' : readCode11 ms' = some (p ++ c :: (m ++ a :: q))) (hl : 12 ≤ (p ++ a :: (m ++ c :: q)).length) :
    (scanCode11 ms').isSome = true ↔ 1 ≤ q.length ∧ (m.length + 1) % 90 = 0 := by
  have hA := readCode11_chars ms _ hu
  have l1 := code11Value_lt a (hA a (by simp))
  have l2 := code11Value_lt c (hA c (by simp))
  have hn : code11Value a ≠ code11Value c := fun h => hne (code11Value_inj a c (hA a (by simp)) (hA c (by simp)) h)
  rw [code11_two_wrong b s ms ms' hs p m q a c c a hu hu' hl]
  rw [show ((code11Value c : Int) - code11Value a) = -((code11Value a : Int) - code11Value c) by omega]
  generalize hX : (code11Value a : Int) - code11Value c = X
  have x0 : X ≠ 0 := by omega
  have x1 : -11 < X := by omega
  have x2 : X < 11 := by omega
  generalize q.length = i
  generalize hd : m.length + 1 = d
  have hd1 : 1 ≤ d := by omega
  obtain ⟨k, hk⟩ : ∃ k, i + d = k + 1 := ⟨i + d - 1, by omega⟩
  match i with
  | 0 =>
    rw [hk]
    cases k with
    | zero =>
      rw [cancel11 _ _ X (by decide) (by decide) x0 x1 x2]
      simp [weightC]
    | succ k =>
      rw [cancel11 _ _ X (by simp only [weightC]; omega) (by simp only [weightC]; omega) x0 x1 x2]
      simp only [weightC]
      omega
  | 1 =>
    obtain ⟨k, rfl⟩ : ∃ j, k = j + 1 := ⟨k - 1, by omega⟩
    rw [hk, cancel11 _ _ X (by simp only [weightC]; omega) (by simp only [weightC]; omega) x0 x1 x2,
      cancel11 _ _ X (by simp only [weightK]; omega) (by simp only [weightK]; omega) x0 x1 x2]
    simp only [weightC, weightK]
    omega
  | i + 2 =>
    obtain ⟨k, rfl⟩ : ∃ j, k = j + 1 := ⟨k - 1, by omega⟩
    rw [hk, cancel11 _ _ X (by simp only [weightC]; omega) (by simp only [weightC]; omega) x0 x1 x2,
      cancel11 _ _ X (by simp only [weightK]; omega) (by simp only [weightK]; omega) x0 x1 x2]
    simp only [weightC, weightK]
    omega

set_option maxRecDepth 8000 in
/-- Ninety places apart, not noticed. -/
example : ∃ ms ms', Drawn .debug .code11 ('1' :: List.replicate 90 '0') ms ∧ Drawn .debug .code11 (List.replicate 90 '0' ++ ['1']) ms' ∧
    readCode11 ms = some ([] ++ '1' :: (List.replicate 89 '0' ++ '0' :: "13".toList)) ∧
    readCode11 ms' = some ([] ++ '0' :: (List.replicate 89 '0' ++ '1' :: "13".toList)) ∧
    verifyCode11 (List.replicate 89 '0' ++ '1' :: '0' :: "13".toList) = none :=
  ⟨_, _, ⟨_, rfl, rfl⟩, ⟨_, rfl, rfl⟩, by decide +kernel, by decide +kernel, by decide +kernel⟩

theorem oneCheck_sum (n : Nat) (vs : List Nat) (hv : ∀ v ∈ vs, v < 11) (hl : 1 ≤ vs.length) :
    OneCheck 11 n vs ↔ isum (weightK n) 0 vs % 11 = 0 := by
  match vs, hl, hv with
  | c :: r, _, hv =>
    have hc : c < 11 := hv c (by simp)
    have e : OneCheck 11 n (c :: r) ↔ cyclicSum n 0 r % 11 = c := by
      constructor
      · rintro ⟨_, _, h, h'⟩
        cases h
        exact h'
      · exact fun h => ⟨_, _, rfl, h⟩
    rw [e, isum, isum_weightK n 0]
    simp only [weightK]
    generalize cyclicSum n 0 r = A
    omega

/-- C135. Code 11 with one check character: exchanging two unequal characters is noticed, with a single exception: the first
character of ten and the check character. -/
theorem C135_code11_one (b : Build) (s : List Char) (ms ms' : List Nat) (hs : Drawn b .code11 s ms) (p m q : List Char)
    (a c : Char) (hne : a ≠ c) (hu : readCode11 ms = some (p ++ a :: (m ++ c :: q)))
    (hu' : readCode11 ms' = some (p ++ c :: (m ++ a :: q))) (hl : (p ++ a :: (m ++ c :: q)).length ≤ 11) :
    (scanCode11 ms').isSome = true ↔ p = [] ∧ m.length = 9 ∧ q = [] := by
  have hA := readCode11_chars ms _ hu
  have hA' := readCode11_chars ms' _ hu'
  have l1 := code11Value_lt a (hA a (by simp))
  have l2 := code11Value_lt c (hA c (by simp))
  have hn : code11Value a ≠ code11Value c := fun h => hne (code11Value_inj a c (hA a (by simp)) (hA c (by simp)) h)
  have hl' : (p ++ c :: (m ++ a :: q)).length ≤ 11 := by simpa using hl
  have lt : ∀ u : List Char, (∀ c ∈ u, c ∈ code11Alphabet) → ∀ w ∈ (u.map code11Value).reverse, w < 11 := by
    intro u h w hw
    obtain ⟨c, hc, rfl⟩ := List.mem_map.mp (List.mem_reverse.mp hw)
    exact code11Value_lt c (h c hc)
  have h1 : isum (weightK 10) 0 ((p ++ a :: (m ++ c :: q)).map code11Value).reverse % 11 = 0 := by
    obtain ⟨x, hx, he⟩ := hs
    obtain ⟨bits, e2, e3⟩ := C20_code11_scan s x hx
    rw [he, Outcome.ok.injEq] at e2
    subst e2
    rw [scanCode11, hu, Option.bind_some] at e3
    have := (code11_checks _ hA).mp (by rw [e3]; rfl)
    rcases this with h | h
    · exact (oneCheck_sum 10 _ (lt _ hA) (by simp; omega)).mp h.2
    · omega
  have h2 : (scanCode11 ms').isSome = true ↔ isum (weightK 10) 0 ((p ++ c :: (m ++ a :: q)).map code11Value).reverse % 11 = 0 := by
    rw [scanCode11, hu', Option.bind_some, code11_checks _ hA', ← oneCheck_sum 10 _ (lt _ hA') (by simp; omega)]
    constructor
    · rintro (h | h)
      · exact h.2
      · omega
    · exact fun h => .inl ⟨hl', h⟩
  rw [h2]
  simp only [List.map_append, List.map_cons, List.reverse_append, List.reverse_cons, List.append_assoc, List.cons_append,
    List.nil_append, isum_append, isum, List.length_reverse, List.length_map, Nat.zero_add] at h1 ⊢
  simp only [List.length_append, List.length_cons] at hl
  have key : (weightK 10 q.length * ((code11Value a : Int) - code11Value c) +
      weightK 10 (q.length + 1 + m.length) * (-((code11Value a : Int) - code11Value c))) % 11 = 0 ↔
      p = [] ∧ m.length = 9 ∧ q = [] := by
    rw [← List.length_eq_zero_iff, ← List.length_eq_zero_iff]
    generalize q.length = i at *
    generalize m.length = d at *
    generalize p.length = r at *
    rw [show i + 1 + d = i + d + 1 by omega]
    cases i with
    | zero =>
      rw [cancel11 _ _ _ (by simp only [weightK]; omega) (by simp only [weightK]; omega) (by omega) (by omega) (by omega)]
      simp only [weightK, and_true]
      omega
    | succ i =>
      rw [cancel11 _ _ _ (by simp only [weightK]; omega) (by simp only [weightK]; omega) (by omega) (by omega) (by omega)]
      simp only [weightK]
      omega
  rw [← key]
  simp only [Int.neg_sub, Int.mul_sub]
  omega

/-- The exception, `1000000000` with check character `-`, and `1000000001` with the first two characters exchanged. -/
example : ∃ ms ms', Drawn .debug .code11 "1000000000".toList ms ∧ Drawn .debug .code11 "-000000000".toList ms' ∧
    readCode11 ms = some ([] ++ '1' :: ("000000000".toList ++ '-' :: [])) ∧
    readCode11 ms' = some ([] ++ '-' :: ("000000000".toList ++ '1' :: [])) ∧
    verifyCode11 "1000000001-".toList = none ∧ (verifyCode11 "10000000010".toList).isSome = true ∧
    verifyCode11 "01000000010".toList = none :=
  ⟨_, _, ⟨_, rfl, rfl⟩, ⟨_, rfl, rfl⟩, by decide +kernel, by decide +kernel, by decide +kernel, by decide +kernel, by decide +kernel⟩

end Barcoders
