import Verif.Props.SameError
import Verif.Props.DoubleErrors

/-!
# C134: two wrong characters near each other, in symbols of any length
-/

set_option autoImplicit false

namespace Barcoders

open Spec

/-- Weights of the equation for the first check character, counted from the right end of the whole text. -/
def weightC (n : Nat) : Nat → Int
  | 0 => 0
  | 1 => -1
  | j + 2 => (j % n + 1 : Nat)

/-- Weights of the equation for the second check character. -/
def weightK (n : Nat) : Nat → Int
  | 0 => -1
  | j + 1 => (j % n + 1 : Nat)

theorem isum_weightC (n j : Nat) (l : List Nat) : isum (weightC n) (j + 2) l = cyclicSum n j l := by
  induction l generalizing j with
  | nil => rfl
  | cons d l ih =>
    rw [isum, cyclicSum, show j + 2 + 1 = j + 1 + 2 by omega, ih]
    simp [weightC]

theorem isum_weightK (n j : Nat) (l : List Nat) : isum (weightK n) (j + 1) l = cyclicSum n j l := by
  induction l generalizing j with
  | nil => rfl
  | cons d l ih =>
    rw [isum, cyclicSum, ih]
    simp [weightK]

theorem weightC_add (n P i : Nat) (h : P % n = 0) (hi : 2 ≤ i) : weightC n (i + P) = weightC n i := by
  obtain ⟨j, rfl⟩ : ∃ j, i = j + 2 := ⟨i - 2, by omega⟩
  rw [show j + 2 + P = j + P + 2 by omega, weightC, weightC, Nat.add_mod j P, h, Nat.add_zero (j % n), Nat.mod_mod]

theorem weightK_add (n P i : Nat) (h : P % n = 0) (hi : 2 ≤ i) : weightK n (i + P) = weightK n i := by
  obtain ⟨j, rfl⟩ : ∃ j, i = j + 1 := ⟨i - 1, by omega⟩
  rw [show j + 1 + P = j + P + 1 by omega, weightK, weightK, Nat.add_mod j P, h, Nat.add_zero (j % n), Nat.mod_mod]

theorem twoChecks_sums (M n n' : Nat) (hM : M = 47 ∨ M = 11) (vs : List Nat) (hv : ∀ v ∈ vs, v < M) (hl : 2 ≤ vs.length) :
    TwoChecks M n n' vs ↔ isum (weightC n) 0 vs % M = 0 ∧ isum (weightK n') 0 vs % M = 0 := by
  match vs, hl, hv with
  | k :: c :: r, _, hv =>
    have hk : k < M := hv k (by simp)
    have hc : c < M := hv c (by simp)
    have e : TwoChecks M n n' (k :: c :: r) ↔ cyclicSum n 0 r % M = c ∧ cyclicSum n' 0 (c :: r) % M = k := by
      constructor
      · rintro ⟨_, _, _, h, h'⟩
        cases h
        exact h'
      · exact fun h => ⟨_, _, _, rfl, h⟩
    rw [e, isum, isum, isum_weightC n 0, isum, isum_weightK n' 0]
    simp only [weightC, weightK]
    generalize cyclicSum n 0 r = A
    generalize cyclicSum n' 0 (c :: r) = B
    rcases hM with rfl | rfl <;> omega

/-- What two wrong values do to the two sums. -/
theorem twoChecks_two (M n n' : Nat) (hM : M = 47 ∨ M = 11) (q m r : List Nat) (c a c' a' : Nat)
    (hv : ∀ v ∈ q ++ c :: (m ++ a :: r), v < M) (hc' : c' < M) (ha' : a' < M)
    (h : TwoChecks M n n' (q ++ c :: (m ++ a :: r))) :
    TwoChecks M n n' (q ++ c' :: (m ++ a' :: r)) ↔
      (weightC n q.length * ((c' : Int) - c) + weightC n (q.length + 1 + m.length) * ((a' : Int) - a)) % M = 0 ∧
      (weightK n' q.length * ((c' : Int) - c) + weightK n' (q.length + 1 + m.length) * ((a' : Int) - a)) % M = 0 := by
  have hv' : ∀ v ∈ q ++ c' :: (m ++ a' :: r), v < M := by
    intro v hm
    simp only [List.mem_append, List.mem_cons] at hm
    rcases hm with h | rfl | h | rfl | h
    · exact hv v (by simp [h])
    · exact hc'
    · exact hv v (by simp [h])
    · exact ha'
    · exact hv v (by simp [h])
  rw [twoChecks_sums M n n' hM _ hv (by simp; omega)] at h
  rw [twoChecks_sums M n n' hM _ hv' (by simp; omega)]
  simp only [isum_append, isum, Nat.zero_add] at h ⊢
  rw [Int.mul_sub, Int.mul_sub, Int.mul_sub, Int.mul_sub]
  rcases hM with rfl | rfl <;> omega

/-- Whether the two weights at two places are independent. -/
def independent (M n n' i k : Nat) : Bool :=
  (List.range M).any fun v => ((v : Int) * (weightC n i * weightK n' k - weightC n k * weightK n' i)) % M == 1

theorem unknown_zero (M : Nat) (hM : M = 47 ∨ M = 11) (a b c d X Y : Int) (v : Nat)
    (hv : ((v : Nat) * (a * d - b * c) : Int) % M = 1)
    (h1 : (a * X + b * Y) % M = 0) (h2 : (c * X + d * Y) % M = 0) (hX : -M < X ∧ X < M) : X = 0 := by
  obtain ⟨A, hA⟩ := Int.dvd_of_emod_eq_zero h1
  obtain ⟨B, hB⟩ := Int.dvd_of_emod_eq_zero h2
  obtain ⟨w, hw⟩ : ∃ w, (v : Int) * (a * d - b * c) = M * w + 1 := ⟨_, by
    have := Int.mul_ediv_add_emod ((v : Int) * (a * d - b * c)) M
    rw [hv] at this
    exact this.symm⟩
  generalize (v : Int) = u at hw
  have e : X = M * (u * (d * A - b * B) - w * X) := by grind
  generalize u * (d * A - b * B) - w * X = Z at e
  rcases hM with rfl | rfl <;> omega

theorem independent_zero (M n n' i k : Nat) (hM : M = 47 ∨ M = 11) (h : independent M n n' i k = true) (X Y : Int)
    (h1 : (weightC n i * X + weightC n k * Y) % M = 0) (h2 : (weightK n' i * X + weightK n' k * Y) % M = 0)
    (hX : -M < X ∧ X < M) (hY : -M < Y ∧ Y < M) : X = 0 ∧ Y = 0 := by
  obtain ⟨v, -, hv⟩ := List.any_eq_true.mp h
  rw [beq_iff_eq] at hv
  refine ⟨unknown_zero M hM _ _ _ _ X Y v hv h1 h2 hX, ?_⟩
  refine unknown_zero M hM (weightK n' k) (weightK n' i) (weightC n k) (weightC n i) Y X v ?_ (by rw [Int.add_comm]; exact h2)
    (by rw [Int.add_comm]; exact h1) hY
  rw [Int.mul_comm (weightK n' k), Int.mul_comm (weightK n' i)]
  exact hv

theorem independent_add (M n n' P i k : Nat) (h : P % n = 0) (h' : P % n' = 0) (hi : 2 ≤ i) (hk : 2 ≤ k) :
    independent M n n' (i + P) (k + P) = independent M n n' i k := by
  unfold independent
  rw [weightC_add n P i h hi, weightC_add n P k h hk, weightK_add n' P i h' hi, weightK_add n' P k h' hk]

/-- Places from the right end, a distance apart: the first period decides. -/
theorem independent_all (M n n' P d : Nat) (h : P % n = 0) (h' : P % n' = 0) (hP : 2 ≤ P) (bad : Nat → Bool)
    (base : ∀ i < P + 2, independent M n n' i (i + d) = true ∨ bad (i % P) = true) (i : Nat) :
    independent M n n' i (i + d) = true ∨ bad (i % P) = true := by
  induction i using Nat.strongRecOn with
  | ind i ih =>
    by_cases hi : i < P + 2
    · exact base i hi
    · have := ih (i - P) (by omega)
      have e := independent_add M n n' P (i - P) (i - P + d) h h' (by omega) (by omega)
      rw [show i - P + P = i by omega, show i - P + d + P = i + d by omega] at e
      rw [e, Nat.mod_eq_sub_mod (a := i) (by omega)]
      exact this

theorem independent93 : ∀ d ∈ [2, 3, 4, 5, 7], ∀ i < 62, independent 47 20 15 i (i + d) = true := by decide +kernel

theorem independent93_adjacent : ∀ i < 62, independent 47 20 15 i (i + 1) = true ∨ (i % 60 == 30) = true := by decide +kernel

theorem independent11 : ∀ d ∈ [9, 10], ∀ i < 92, independent 11 10 9 i (i + d) = true := by decide +kernel

theorem independent11_adjacent : ∀ i < 92, independent 11 10 9 i (i + 1) = true ∨
    (i % 90 == 41 || i % 90 == 54 || decide (82 ≤ i % 90)) = true := by decide +kernel

/-! ## Code 93 -/

theorem code93_drawn_checks (b : Build) (s : List Char) (ms : List Nat) (u : List Char) (hd : Drawn b .code93 s ms)
    (hr : readCode93 ms = some u) : TwoChecks 47 20 15 (u.map code93Value).reverse := by
  obtain ⟨x, hx, he⟩ := hd
  obtain ⟨bits, e2, e3⟩ := C17_code93_scan s x hx
  rw [he, Outcome.ok.injEq] at e2
  subst e2
  rw [← code93_twoChecks u (readCode93_chars ms u hr)]
  rw [scanCode93, hr, Option.bind_some] at e3
  rw [e3]; rfl

theorem code93_two_wrong (b : Build) (s : List Char) (ms ms' : List Nat) (hs : Drawn b .code93 s ms) (p m q : List Char)
    (a c a' c' : Char) (hu : readCode93 ms = some (p ++ a :: (m ++ c :: q)))
    (hu' : readCode93 ms' = some (p ++ a' :: (m ++ c' :: q))) :
    (scanCode93 ms').isSome = true ↔
      (weightC 20 q.length * ((code93Value c' : Int) - code93Value c) +
        weightC 20 (q.length + (m.length + 1)) * ((code93Value a' : Int) - code93Value a)) % 47 = 0 ∧
      (weightK 15 q.length * ((code93Value c' : Int) - code93Value c) +
        weightK 15 (q.length + (m.length + 1)) * ((code93Value a' : Int) - code93Value a)) % 47 = 0 := by
  have hA := readCode93_chars ms _ hu
  have hA' := readCode93_chars ms' _ hu'
  have h1 := code93_drawn_checks b s ms _ hs hu
  rw [scanCode93, hu', Option.bind_some, code93_twoChecks _ hA']
  simp only [List.map_append, List.map_cons, List.reverse_append, List.reverse_cons, List.append_assoc, List.cons_append,
    List.nil_append] at h1 ⊢
  have hlt : ∀ v ∈ (q.map code93Value).reverse ++ code93Value c :: ((m.map code93Value).reverse ++ code93Value a :: (p.map code93Value).reverse),
      v < 47 := by
    intro v hv
    have : v ∈ (p ++ a :: (m ++ c :: q)).map code93Value := by
      simp only [List.map_append, List.map_cons, List.mem_append, List.mem_cons, List.mem_reverse] at hv ⊢
      rcases hv with h | h | h | h | h <;> simp [h]
    obtain ⟨x, hx, rfl⟩ := List.mem_map.mp this
    exact code93Value_lt x (hA x hx)
  have := twoChecks_two 47 20 15 (.inl rfl) _ _ _ _ _ (code93Value c') (code93Value a') hlt (code93Value_lt c' (hA' c' (by simp)))
    (code93Value_lt a' (hA' a' (by simp))) h1
  rw [this]
  simp only [List.length_reverse, List.length_map, show q.length + 1 + m.length = q.length + (m.length + 1) by omega]
  rfl

/-- C134. Code 93, any length: two wrong characters with one, two, three, four or six characters between them are always noticed,
check characters included. -/
theorem C134_code93_near (b : Build) (s : List Char) (ms ms' : List Nat) (hs : Drawn b .code93 s ms) (p m q : List Char)
    (a c a' c' : Char) (hu : readCode93 ms = some (p ++ a :: (m ++ c :: q)))
    (hu' : readCode93 ms' = some (p ++ a' :: (m ++ c' :: q))) (hm : m.length ∈ [1, 2, 3, 4, 6]) (hne : a' ≠ a ∨ c' ≠ c) :
    scanCode93 ms' = none := by
  have hA := readCode93_chars ms _ hu
  have hA' := readCode93_chars ms' _ hu'
  have l1 := code93Value_lt a (hA a (by simp))
  have l2 := code93Value_lt c (hA c (by simp))
  have l3 := code93Value_lt a' (hA' a' (by simp))
  have l4 := code93Value_lt c' (hA' c' (by simp))
  rw [← Option.isSome_eq_false_iff.trans Option.isNone_iff_eq_none, ← Bool.not_eq_true]
  rw [code93_two_wrong b s ms ms' hs p m q a c a' c' hu hu']
  rintro ⟨h1, h2⟩
  have hd : m.length + 1 ∈ [2, 3, 4, 5, 7] := by
    simp only [List.mem_cons, List.not_mem_nil, or_false] at hm ⊢
    omega
  have hi := independent_all 47 20 15 60 (m.length + 1) rfl rfl (by omega) (fun _ => false)
    (fun i h => .inl (independent93 _ hd i h)) q.length
  rcases hi with hi | hi
  · obtain ⟨e1, e2⟩ := independent_zero 47 20 15 _ _ (.inl rfl) hi _ _ h1 h2 (by omega) (by omega)
    rcases hne with hne | hne
    · exact hne (code93Value_inj a' a (hA' a' (by simp)) (hA a (by simp)) (by omega))
    · exact hne (code93Value_inj c' c (hA' c' (by simp)) (hA c (by simp)) (by omega))
  · cases hi

/-- A long text and two wrong characters with two between them. -/
example : ∃ ms ms', Drawn .debug .code93 (List.replicate 40 '7') ms ∧ readCode93 ms = some (code93Text (List.replicate 40 '7')) ∧
    code93Text (List.replicate 40 '7') = List.replicate 20 '7' ++ '7' :: ("77".toList ++ '7' :: (code93Text (List.replicate 40 '7')).drop 24) ∧
    readCode93 ms' = some (List.replicate 20 '7' ++ 'A' :: ("77".toList ++ 'B' :: (code93Text (List.replicate 40 '7')).drop 24)) ∧
    scanCode93 ms' = none :=
  ⟨_, paint (code93SymWidths (List.replicate 20 '7' ++ 'A' :: ("77".toList ++ 'B' :: (code93Text (List.replicate 40 '7')).drop 24))),
    ⟨_, rfl, rfl⟩, by decide +kernel, by decide +kernel, by decide +kernel, by decide +kernel⟩

/-- C134. Code 93, any length: two wrong characters side by side are always noticed, unless there are 30, 90, 150 or 210
characters to the right of them (the check characters counted). There the symbol passes as long as fifteen times the right
value plus the left value stays the same, modulo 47. -/
theorem C134_code93_adjacent (b : Build) (s : List Char) (ms ms' : List Nat) (hs : Drawn b .code93 s ms) (p q : List Char)
    (a c a' c' : Char) (hu : readCode93 ms = some (p ++ a :: c :: q)) (hu' : readCode93 ms' = some (p ++ a' :: c' :: q)) :
    (scanCode93 ms').isSome = true ↔
      if q.length % 60 = 30 then (code93Value a' + 15 * code93Value c') % 47 = (code93Value a + 15 * code93Value c) % 47
      else a' = a ∧ c' = c := by
  have hA := readCode93_chars ms _ hu
  have hA' := readCode93_chars ms' _ hu'
  have l1 := code93Value_lt a (hA a (by simp))
  have l2 := code93Value_lt c (hA c (by simp))
  have l3 := code93Value_lt a' (hA' a' (by simp))
  have l4 := code93Value_lt c' (hA' c' (by simp))
  rw [code93_two_wrong b s ms ms' hs p [] q a c a' c' hu hu']
  simp only [List.length_nil, Nat.zero_add]
  split
  · next h =>
    obtain ⟨j, hj⟩ : ∃ j, q.length = j + 2 := ⟨q.length - 2, by omega⟩
    have e1 : weightC 20 q.length = 9 := by rw [hj, weightC]; omega
    have e2 : weightC 20 (q.length + 1) = 10 := by rw [hj, show j + 2 + 1 = j + 1 + 2 by omega, weightC]; omega
    have e3 : weightK 15 q.length = 15 := by rw [hj, show j + 2 = j + 1 + 1 by omega, weightK]; omega
    have e4 : weightK 15 (q.length + 1) = 1 := by rw [hj, weightK]; omega
    rw [e1, e2, e3, e4]
    omega
  · next h =>
    constructor
    · rintro ⟨h1, h2⟩
      have hi := independent_all 47 20 15 60 1 rfl rfl (by omega) (fun i => i == 30)
        (fun i h => by simpa using independent93_adjacent i h) q.length
      rcases hi with hi | hi
      · obtain ⟨e1, e2⟩ := independent_zero 47 20 15 _ _ (.inl rfl) hi _ _ h1 h2 (by omega) (by omega)
        exact ⟨code93Value_inj a' a (hA' a' (by simp)) (hA a (by simp)) (by omega),
          code93Value_inj c' c (hA' c' (by simp)) (hA c (by simp)) (by omega)⟩
      · exact absurd (by simpa using hi) h
    · rintro ⟨rfl, rfl⟩
      simp

/-- The first place where a pair is overlooked: `00` and thirty characters more, misread as `W1`. One place further right it is not. -/
example : verifyCode93 ("00".toList ++ List.replicate 30 '0') = some (List.replicate 30 '0') ∧
    code93Value 'W' + 15 * code93Value '1' = 47 ∧
    (verifyCode93 ("W1".toList ++ List.replicate 30 '0')).isSome = true ∧
    verifyCode93 ("0W1".toList ++ List.replicate 29 '0') = none := by decide +kernel

example : ∃ ms ms', Drawn .debug .code93 (List.replicate 30 '0') ms ∧ Drawn .debug .code93 ("W1".toList ++ List.replicate 28 '0') ms' ∧
    readCode93 ms = some ([] ++ '0' :: '0' :: List.replicate 30 '0') ∧ readCode93 ms' = some ([] ++ 'W' :: '1' :: List.replicate 30 '0') :=
  ⟨_, _, ⟨_, rfl, rfl⟩, ⟨_, rfl, rfl⟩, by decide +kernel, by decide +kernel⟩

/-! ## Code 11 -/

theorem code11_drawn_checks (b : Build) (s : List Char) (ms : List Nat) (u : List Char) (hd : Drawn b .code11 s ms)
    (hr : readCode11 ms = some u) (hl : 12 ≤ u.length) : TwoChecks 11 10 9 (u.map code11Value).reverse := by
  obtain ⟨x, hx, he⟩ := hd
  obtain ⟨bits, e2, e3⟩ := C20_code11_scan s x hx
  rw [he, Outcome.ok.injEq] at e2
  subst e2
  rw [scanCode11, hr, Option.bind_some] at e3
  have := (code11_checks u (readCode11_chars ms u hr)).mp (by rw [e3]; rfl)
  rcases this with h | h
  · omega
  · exact h.2

theorem code11_two_wrong (b : Build) (s : List Char) (ms ms' : List Nat) (hs : Drawn b .code11 s ms) (p m q : List Char)
    (a c a' c' : Char) (hu : readCode11 ms = some (p ++ a :: (m ++ c :: q)))
    (hu' : readCode11 ms' = some (p ++ a' :: (m ++ c' :: q))) (hl : 12 ≤ (p ++ a :: (m ++ c :: q)).length) :
    (scanCode11 ms').isSome = true ↔
      (weightC 10 q.length * ((code11Value c' : Int) - code11Value c) +
        weightC 10 (q.length + (m.length + 1)) * ((code11Value a' : Int) - code11Value a)) % 11 = 0 ∧
      (weightK 9 q.length * ((code11Value c' : Int) - code11Value c) +
        weightK 9 (q.length + (m.length + 1)) * ((code11Value a' : Int) - code11Value a)) % 11 = 0 := by
  have hA := readCode11_chars ms _ hu
  have hA' := readCode11_chars ms' _ hu'
  have h1 := code11_drawn_checks b s ms _ hs hu hl
  have hl13 : 13 ≤ (p ++ a' :: (m ++ c' :: q)).length := by
    obtain ⟨x, hx, he⟩ := hs
    obtain ⟨bits, e2, e3⟩ := C20_code11_scan s x hx
    rw [he, Outcome.ok.injEq] at e2
    subst e2
    rw [scanCode11, hu, Option.bind_some] at e3
    have := (code11_checks _ hA).mp (by rw [e3]; rfl)
    simp only [List.length_append, List.length_cons] at this hl ⊢
    omega
  have h2 : (scanCode11 ms').isSome = true ↔ TwoChecks 11 10 9 ((p ++ a' :: (m ++ c' :: q)).map code11Value).reverse := by
    rw [scanCode11, hu', Option.bind_some, code11_checks _ hA']
    constructor
    · rintro (h | h)
      · omega
      · exact h.2
    · exact fun h => .inr ⟨hl13, h⟩
  rw [h2]
  simp only [List.map_append, List.map_cons, List.reverse_append, List.reverse_cons, List.append_assoc, List.cons_append,
    List.nil_append] at h1 ⊢
  have hlt : ∀ v ∈ (q.map code11Value).reverse ++ code11Value c :: ((m.map code11Value).reverse ++ code11Value a :: (p.map code11Value).reverse),
      v < 11 := by
    intro v hv
    have : v ∈ (p ++ a :: (m ++ c :: q)).map code11Value := by
      simp only [List.map_append, List.map_cons, List.mem_append, List.mem_cons, List.mem_reverse] at hv ⊢
      rcases hv with h | h | h | h | h <;> simp [h]
    obtain ⟨x, hx, rfl⟩ := List.mem_map.mp this
    exact code11Value_lt x (hA x hx)
  have := twoChecks_two 11 10 9 (.inr rfl) _ _ _ _ _ (code11Value c') (code11Value a') hlt (code11Value_lt c' (hA' c' (by simp)))
    (code11Value_lt a' (hA' a' (by simp))) h1
  rw [this]
  simp only [List.length_reverse, List.length_map, show q.length + 1 + m.length = q.length + (m.length + 1) by omega]
  rfl

/-- C134. Code 11 with two check characters, any length: two wrong characters with eight or nine characters between them are
always noticed. -/
theorem C134_code11_near (b : Build) (s : List Char) (ms ms' : List Nat) (hs : Drawn b .code11 s ms) (p m q : List Char)
    (a c a' c' : Char) (hu : readCode11 ms = some (p ++ a :: (m ++ c :: q)))
    (hu' : readCode11 ms' = some (p ++ a' :: (m ++ c' :: q))) (hl : 12 ≤ (p ++ a :: (m ++ c :: q)).length)
    (hm : m.length = 8 ∨ m.length = 9) (hne : a' ≠ a ∨ c' ≠ c) : scanCode11 ms' = none := by
  have hA := readCode11_chars ms _ hu
  have hA' := readCode11_chars ms' _ hu'
  have l1 := code11Value_lt a (hA a (by simp))
  have l2 := code11Value_lt c (hA c (by simp))
  have l3 := code11Value_lt a' (hA' a' (by simp))
  have l4 := code11Value_lt c' (hA' c' (by simp))
  rw [← Option.isSome_eq_false_iff.trans Option.isNone_iff_eq_none, ← Bool.not_eq_true]
  rw [code11_two_wrong b s ms ms' hs p m q a c a' c' hu hu' hl]
  rintro ⟨h1, h2⟩
  have hd : m.length + 1 ∈ [9, 10] := by
    simp only [List.mem_cons, List.not_mem_nil, or_false]
    omega
  have hi := independent_all 11 10 9 90 (m.length + 1) rfl rfl (by omega) (fun _ => false)
    (fun i h => .inl (independent11 _ hd i h)) q.length
  rcases hi with hi | hi
  · obtain ⟨e1, e2⟩ := independent_zero 11 10 9 _ _ (.inr rfl) hi _ _ h1 h2 (by omega) (by omega)
    rcases hne with hne | hne
    · exact hne (code11Value_inj a' a (hA' a' (by simp)) (hA a (by simp)) (by omega))
    · exact hne (code11Value_inj c' c (hA' c' (by simp)) (hA c (by simp)) (by omega))
  · cases hi

/-- Two wrong characters with eight between them. -/
example : ∃ ms ms', Drawn .debug .code11 (List.replicate 12 '0') ms ∧
    readCode11 ms = some ("0".toList ++ '0' :: ("00000000".toList ++ '0' :: "000".toList)) ∧
    readCode11 ms' = some ("0".toList ++ '4' :: ("00000000".toList ++ '7' :: "000".toList)) ∧ scanCode11 ms' = none :=
  ⟨_, paint (code11SymWidths ("0".toList ++ '4' :: ("00000000".toList ++ '7' :: "000".toList))),
    ⟨_, rfl, rfl⟩, by decide +kernel, by decide +kernel, by decide +kernel⟩

/-- C134. Code 11 with two check characters, any length: two wrong characters side by side are always noticed, unless the number
of characters to the right of them (the check characters counted) leaves 41, 54 or 82 to 89 when divided by 90. There the symbol
passes as long as the weighted sum of the two for the first check character stays the same, modulo 11. -/
theorem C134_code11_adjacent (b : Build) (s : List Char) (ms ms' : List Nat) (hs : Drawn b .code11 s ms) (p q : List Char)
    (a c a' c' : Char) (hu : readCode11 ms = some (p ++ a :: c :: q)) (hu' : readCode11 ms' = some (p ++ a' :: c' :: q))
    (hl : 12 ≤ (p ++ a :: c :: q).length) :
    (scanCode11 ms').isSome = true ↔
      if q.length % 90 = 41 ∨ q.length % 90 = 54 ∨ 82 ≤ q.length % 90 then
        (((q.length - 1) % 10 + 1) * code11Value a' + ((q.length - 2) % 10 + 1) * code11Value c') % 11 =
        (((q.length - 1) % 10 + 1) * code11Value a + ((q.length - 2) % 10 + 1) * code11Value c) % 11
      else a' = a ∧ c' = c := by
  have hA := readCode11_chars ms _ hu
  have hA' := readCode11_chars ms' _ hu'
  have l1 := code11Value_lt a (hA a (by simp))
  have l2 := code11Value_lt c (hA c (by simp))
  have l3 := code11Value_lt a' (hA' a' (by simp))
  have l4 := code11Value_lt c' (hA' c' (by simp))
  rw [code11_two_wrong b s ms ms' hs p [] q a c a' c' hu hu' hl]
  simp only [List.length_nil, Nat.zero_add]
  split
  · next h =>
    obtain ⟨j, hj⟩ : ∃ j, q.length = j + 2 := ⟨q.length - 2, by omega⟩
    have e1 : weightC 10 q.length = (j % 10 + 1 : Nat) := by rw [hj, weightC]
    have e2 : weightC 10 (q.length + 1) = ((j + 1) % 10 + 1 : Nat) := by rw [hj, show j + 2 + 1 = j + 1 + 2 by omega, weightC]
    have e3 : weightK 9 q.length = ((j + 1) % 9 + 1 : Nat) := by rw [hj, show j + 2 = j + 1 + 1 by omega, weightK]
    have e4 : weightK 9 (q.length + 1) = ((j + 2) % 9 + 1 : Nat) := by rw [hj, weightK]
    rw [e1, e2, e3, e4, hj, show j + 2 - 1 = j + 1 by omega, show j + 2 - 2 = j by omega]
    rw [hj] at h
    have cases : j % 90 = 39 ∨ j % 90 = 52 ∨ j % 90 = 80 ∨ j % 90 = 81 ∨ j % 90 = 82 ∨ j % 90 = 83 ∨ j % 90 = 84 ∨ j % 90 = 85 ∨
      j % 90 = 86 ∨ j % 90 = 87 := by omega
    have f1 : j % 10 = j % 90 % 10 := by omega
    have f2 : (j + 1) % 10 = (j % 90 + 1) % 10 := by omega
    have f3 : (j + 1) % 9 = (j % 90 + 1) % 9 := by omega
    have f4 : (j + 2) % 9 = (j % 90 + 2) % 9 := by omega
    rw [f1, f2, f3, f4]
    rcases cases with h | h | h | h | h | h | h | h | h | h <;> rw [h] <;> simp only [Nat.reduceMod, Nat.reduceAdd] <;> omega
  · next h =>
    constructor
    · rintro ⟨h1, h2⟩
      have hi := independent_all 11 10 9 90 1 rfl rfl (by omega) (fun i => i == 41 || i == 54 || decide (82 ≤ i))
        (fun i h => independent11_adjacent i h) q.length
      rcases hi with hi | hi
      · obtain ⟨e1, e2⟩ := independent_zero 11 10 9 _ _ (.inr rfl) hi _ _ h1 h2 (by omega) (by omega)
        exact ⟨code11Value_inj a' a (hA' a' (by simp)) (hA a (by simp)) (by omega),
          code11Value_inj c' c (hA' c' (by simp)) (hA c (by simp)) (by omega)⟩
      · simp only [Bool.or_eq_true, beq_iff_eq, decide_eq_true_eq] at hi
        omega
    · rintro ⟨rfl, rfl⟩
      simp

/-- The first place where a pair is overlooked: `00` and forty-one characters more, misread as `11`. One place further right it is not. -/
example : ∃ ms ms', Drawn .debug .code11 (List.replicate 41 '0') ms ∧ Drawn .debug .code11 ("11".toList ++ List.replicate 39 '0') ms' ∧
    readCode11 ms = some ([] ++ '0' :: '0' :: List.replicate 41 '0') ∧ readCode11 ms' = some ([] ++ '1' :: '1' :: List.replicate 41 '0') ∧
    verifyCode11 ("011".toList ++ List.replicate 40 '0') = none :=
  ⟨_, _, ⟨_, rfl, rfl⟩, ⟨_, rfl, rfl⟩, by decide +kernel, by decide +kernel, by decide +kernel⟩

end Barcoders
