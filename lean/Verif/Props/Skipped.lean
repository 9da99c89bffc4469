import Verif.Spec.Skipped
import Verif.Props.Illegible
import Verif.Props.FewModules
import Verif.Props.Exact
import Verif.Props.Compose
import Verif.Props.Shape

/-!
# A character lost, or seen twice (C118)

The modules of one whole character are missing from a symbol, or come twice. What is left has the right shape, so only the
check characters can tell.
-/

set_option autoImplicit false

namespace Barcoders
open Spec

theorem without_middle (P C Q : List Nat) : withoutStretch P.length C.length (P ++ (C ++ Q)) = P ++ Q := by
  unfold withoutStretch
  rw [List.take_left, ← List.append_assoc, ← List.length_append, List.drop_left]

theorem middle_twice (P C Q : List Nat) : stretchTwice P.length C.length (P ++ (C ++ Q)) = P ++ (C ++ (C ++ Q)) := by
  unfold stretchTwice
  rw [List.drop_left, ← List.append_assoc P C Q, ← List.length_append, List.take_left, List.append_assoc]

/-- Cutting or repeating one of the cells of equal width of a symbol. -/
theorem cells_cut {α : Type} (w : α → List Nat) (n W : Nat) (hn : n % 2 = 0) (pre post : List Nat) (hpre : pre.length % 2 = 0)
    (p q : List α) (c : α) (h : ∀ a ∈ p ++ c :: q, (w a).length = n ∧ (w a).sum = W) :
    withoutStretch (pre.sum + W * p.length) W (paint (pre ++ ((p ++ c :: q).flatMap w ++ post))) =
      paint (pre ++ ((p ++ q).flatMap w ++ post)) ∧
    stretchTwice (pre.sum + W * p.length) W (paint (pre ++ ((p ++ c :: q).flatMap w ++ post))) =
      paint (pre ++ ((p ++ c :: c :: q).flatMap w ++ post)) := by
  have hc := h c (by simp)
  have hpl : (p.flatMap w).length = n * p.length := flatMap_length n w p (fun a ha => (h a (by simp [ha])).1)
  have hps : (p.flatMap w).sum = W * p.length := flatMap_sum W w p (fun a ha => (h a (by simp [ha])).2)
  have he : (pre ++ p.flatMap w).length % 2 = 0 := by
    rw [List.length_append, hpl, Nat.add_mod, Nat.mul_mod, hn, hpre]
    simp
  have e : ∀ r : List Nat, paint (pre ++ (p.flatMap w ++ r)) = paint (pre ++ p.flatMap w) ++ paint r := by
    intro r
    rw [← List.append_assoc, paint, paintFrom_append_even 1 (by omega) _ _ he]
    rfl
  have ec : ∀ r : List Nat, paint (w c ++ r) = paint (w c) ++ paint r := by
    intro r
    rw [paint, paintFrom_append_even 1 (by omega) _ _ (by rw [hc.1, hn])]
    rfl
  have l1 : (paint (pre ++ p.flatMap w)).length = pre.sum + W * p.length := by
    rw [paint, paintFrom_length, List.sum_append, hps]
  have l2 : (paint (w c)).length = W := by rw [paint, paintFrom_length, hc.2]
  simp only [List.flatMap_append, List.flatMap_cons, List.append_assoc]
  simp only [e, ec]
  generalize paint (pre ++ p.flatMap w) = P at l1
  generalize paint (w c) = C at l2
  rw [← l1, ← l2]
  exact ⟨without_middle P C _, middle_twice P C _⟩

/-! ## Code 39 -/

theorem code39_cells (t : List Char) : code39Widths t = (w39 '*' ++ [1]) ++ (t.flatMap (fun c => w39 c ++ [1]) ++ w39 '*') := by
  unfold code39Widths
  simp only [List.flatMap_cons, List.append_assoc]

theorem code39_cut (p q : List Char) (c : Char) (h : ∀ a ∈ p ++ c :: q, a ∈ code39Alphabet) :
    withoutStretch (13 * (p.length + 1)) 13 (paint (code39Widths (p ++ c :: q))) = paint (code39Widths (p ++ q)) ∧
    stretchTwice (13 * (p.length + 1)) 13 (paint (code39Widths (p ++ c :: q))) = paint (code39Widths (p ++ c :: c :: q)) := by
  have hs : (w39 '*' ++ [1]).sum = 13 := by decide
  have hl : (w39 '*' ++ [1]).length % 2 = 0 := by decide
  have key := cells_cut (fun c => w39 c ++ [1]) 10 13 (by omega) (w39 '*' ++ [1]) (w39 '*') hl p q c (fun a ha => by
    have hm : a ∈ '*' :: code39Alphabet := List.mem_cons_of_mem _ (h a ha)
    exact ⟨by rw [List.length_append, (w39_spec a hm).1]; rfl, by rw [List.sum_append, w39_sum a hm]; rfl⟩)
  rw [hs, ← code39_cells, ← code39_cells, ← code39_cells] at key
  have e : 13 * (p.length + 1) = 13 + 13 * p.length := by omega
  rw [e]
  exact key

theorem scan39_if (ms : List Nat) (u : List Char) (k : Char) (h : scanCode39 ms = some (u ++ [k])) :
    scanCode39Checked ms = if k = code39Check u then some u else none := by
  split
  · rename_i hk
    subst hk
    exact (code39_checked_iff ms _ u h).mpr rfl
  · rename_i hk
    cases hn : scanCode39Checked ms with
    | none => rfl
    | some v =>
      have h2 := (code39_checked_iff ms _ v h).mp hn
      obtain ⟨h3, h4⟩ := List.append_inj' h2 rfl
      subst h3
      exact absurd (by simpa using h4) hk

theorem code39Check_eq_iff (s t : List Char) :
    code39Check s = code39Check t ↔ (s.map code39Value).sum % 43 = (t.map code39Value).sum % 43 := by
  constructor
  · intro h
    rw [← code39Value_check, ← code39Value_check, h]
  · intro h
    unfold code39Check
    rw [h]

theorem code39_zero (c : Char) (hc : c ∈ code39Alphabet) : code39Value c = 0 ↔ c = '0' :=
  ⟨fun h => code39Value_inj c '0' hc (by decide) (by rw [h]; rfl), fun h => by subst h; rfl⟩

/-- C118. Code 39 with check character: a lost character, or one that is seen twice, goes unnoticed exactly if it is a 0. -/
theorem C118_code39 (p q : List Char) (c : Char) (x : Code39.Code39) (ms : List Nat)
    (hx : Code39.withChecksum (p ++ c :: q) = .ok x) (he : Code39.encode x = .ok ms) :
    scanCode39Checked (withoutStretch (13 * (p.length + 1)) 13 ms) = (if c = '0' then some (p ++ q) else none) ∧
    scanCode39Checked (stretchTwice (13 * (p.length + 1)) 13 ms) = (if c = '0' then some (p ++ c :: c :: q) else none) := by
  obtain ⟨hA, he'⟩ := code39_symbol _ true x hx
  rw [he] at he'
  cases he'
  simp only [if_true] at hA ⊢
  have hk := hA (code39Check (p ++ c :: q)) (by simp)
  have hc := hA c (by simp)
  have hp : ∀ a ∈ p, a ∈ code39Alphabet := fun a ha => hA a (by simp [ha])
  have hq : ∀ a ∈ q, a ∈ code39Alphabet := fun a ha => hA a (by simp [ha])
  have hlt := code39Value_lt c hc
  have e0 : p ++ c :: q ++ [code39Check (p ++ c :: q)] = p ++ c :: (q ++ [code39Check (p ++ c :: q)]) := by simp
  have hA' := hA
  rw [e0] at hA'
  obtain ⟨h1, h2⟩ := code39_cut p (q ++ [code39Check (p ++ c :: q)]) c hA'
  rw [e0, h1, h2]
  have s1 : scanCode39 (paint (code39Widths (p ++ (q ++ [code39Check (p ++ c :: q)])))) =
      some ((p ++ q) ++ [code39Check (p ++ c :: q)]) := by
    rw [scanCode39_paint, List.append_assoc]
    intro a ha
    simp only [List.mem_append, List.mem_singleton] at ha
    rcases ha with ha | ha | rfl
    · exact hp a ha
    · exact hq a ha
    · exact hk
  have s2 : scanCode39 (paint (code39Widths (p ++ c :: c :: (q ++ [code39Check (p ++ c :: q)])))) =
      some ((p ++ c :: c :: q) ++ [code39Check (p ++ c :: q)]) := by
    rw [scanCode39_paint]
    · simp
    intro a ha
    simp only [List.mem_append, List.mem_cons, List.not_mem_nil, or_false] at ha
    rcases ha with ha | rfl | rfl | ha | rfl
    · exact hp a ha
    · exact hc
    · exact hc
    · exact hq a ha
    · exact hk
  rw [scan39_if _ _ _ s1, scan39_if _ _ _ s2]
  have z := code39_zero c hc
  have sum1 : ((p ++ c :: q).map code39Value).sum = ((p ++ q).map code39Value).sum + code39Value c := by simp; omega
  have sum2 : ((p ++ c :: c :: q).map code39Value).sum = ((p ++ q).map code39Value).sum + 2 * code39Value c := by simp; omega
  have c1 : code39Check (p ++ c :: q) = code39Check (p ++ q) ↔ c = '0' := by
    rw [code39Check_eq_iff, sum1, ← z]; omega
  have c2 : code39Check (p ++ c :: q) = code39Check (p ++ c :: c :: q) ↔ c = '0' := by
    rw [code39Check_eq_iff, sum1, sum2, ← z]; omega
  simp only [c1, c2, and_self]

example : ∃ x ms, Code39.withChecksum "A10".toList = .ok x ∧ Code39.encode x = .ok ms ∧
    scanCode39Checked (withoutStretch 39 13 ms) = some "A1".toList ∧ scanCode39Checked (withoutStretch 26 13 ms) = none ∧
    scanCode39Checked (stretchTwice 26 13 ms) = none := ⟨_, _, rfl, rfl, by decide +kernel⟩

/-! ## Code 93 and Code 11 -/

theorem cyclicSum_shift (n j : Nat) (l : List Nat) (h : j + l.length + 1 ≤ n) :
    cyclicSum n (j + 1) l = cyclicSum n j l + l.sum := by
  induction l generalizing j with
  | nil => rfl
  | cons a l ih =>
    rw [List.length_cons] at h
    rw [cyclicSum, cyclicSum, ih (j + 1) (by omega), List.sum_cons, Nat.mod_eq_of_lt (by omega), Nat.mod_eq_of_lt (by omega)]
    have : (j + 1 + 1) * a = (j + 1) * a + a := by rw [Nat.add_mul, Nat.one_mul]
    omega

/-- What one more value adds to a weighted sum. -/
theorem cyclicSum_insert (n : Nat) (p q : List Nat) (v : Nat) (h : p.length + q.length + 1 ≤ n) :
    cyclicSum n 0 (p ++ v :: q).reverse = cyclicSum n 0 (p ++ q).reverse + ((q.length + 1) * v + p.sum) := by
  have hs : p.reverse.sum = p.sum := by
    induction p with
    | nil => rfl
    | cons a p ih =>
      rw [List.length_cons] at h
      rw [List.reverse_cons, List.sum_append, ih (by omega), List.sum_cons, List.sum_cons, List.sum_nil, Nat.add_comm, Nat.add_zero]
  simp only [List.reverse_append, List.reverse_cons, List.append_assoc, List.singleton_append]
  rw [cyclicSum_append, cyclicSum_append, cyclicSum, Nat.zero_add, List.length_reverse,
    cyclicSum_shift n q.length p.reverse (by rw [List.length_reverse]; omega), hs, Nat.mod_eq_of_lt (by omega)]
  omega

theorem code93Check_insert (n : Nat) (p q : List Char) (c : Char) (h : p.length + q.length + 1 ≤ n) :
    code93Check n (p ++ c :: q) = code93Check n (p ++ q) ↔
      ((q.length + 1) * code93Value c + (p.map code93Value).sum) % 47 = 0 := by
  have e : cyclicSum n 0 ((p ++ c :: q).map code93Value).reverse =
      cyclicSum n 0 ((p ++ q).map code93Value).reverse + ((q.length + 1) * code93Value c + (p.map code93Value).sum) := by
    have := cyclicSum_insert n (p.map code93Value) (q.map code93Value) (code93Value c) (by simpa using h)
    simpa using this
  have key : code93Check n (p ++ c :: q) = code93Check n (p ++ q) ↔
      cyclicSum n 0 ((p ++ c :: q).map code93Value).reverse % 47 = cyclicSum n 0 ((p ++ q).map code93Value).reverse % 47 := by
    constructor
    · intro h
      rw [← code93Value_check, ← code93Value_check, h]
    · intro h
      unfold code93Check
      rw [h]
  rw [key, e]
  omega

theorem scan93_if (ms : List Nat) (u : List Char) (y z : Char) (h : readCode93 ms = some (u ++ [y, z])) :
    scanCode93 ms = if y = code93Check 20 u ∧ z = code93Check 15 (u ++ [y]) then some u else none := by
  have key : ∀ v, verifyCode93 (u ++ [y, z]) = some v ↔ v = u ∧ y = code93Check 20 u ∧ z = code93Check 15 (u ++ [y]) := by
    intro v
    rw [verifyCode93_iff, code93Text]
    constructor
    · intro h1
      obtain ⟨h2, h3⟩ := List.append_inj' h1 rfl
      subst h2
      simp only [List.cons.injEq, and_true] at h3
      exact ⟨rfl, h3.1, by rw [h3.1]; exact h3.2⟩
    · rintro ⟨rfl, h2, h3⟩
      rw [← h2, ← h3]
  rw [scanCode93, h, Option.bind_some]
  split
  · rename_i hk
    exact (key u).mpr ⟨rfl, hk⟩
  · rename_i hk
    cases hn : verifyCode93 (u ++ [y, z]) with
    | none => rfl
    | some v => exact absurd ((key v).mp hn).2 hk

theorem code93_cells (t : List Char) : code93SymWidths t = w93 '*' ++ (t.flatMap w93 ++ (w93 '*' ++ [1])) := by
  unfold code93SymWidths
  simp only [List.flatMap_cons, List.flatMap_append, List.flatMap_nil, List.append_assoc, List.append_nil]

theorem code93_cut (p q : List Char) (c : Char) (h : ∀ a ∈ p ++ c :: q, a ∈ code93Alphabet) :
    withoutStretch (9 * (p.length + 1)) 9 (paint (code93SymWidths (p ++ c :: q))) = paint (code93SymWidths (p ++ q)) ∧
    stretchTwice (9 * (p.length + 1)) 9 (paint (code93SymWidths (p ++ c :: q))) = paint (code93SymWidths (p ++ c :: c :: q)) := by
  have hs : (w93 '*').sum = 9 := by decide
  have hl : (w93 '*').length % 2 = 0 := by decide
  have key := cells_cut w93 6 9 (by omega) (w93 '*') (w93 '*' ++ [1]) hl p q c (fun a ha => by
    have hm : a ∈ '*' :: code93Alphabet := List.mem_cons_of_mem _ (h a ha)
    exact ⟨(w93_spec a hm).1, w93_sum a hm⟩)
  rw [hs, ← code93_cells, ← code93_cells, ← code93_cells] at key
  have e : 9 * (p.length + 1) = 9 + 9 * p.length := by omega
  rw [e]
  exact key

/-- C118. Code 93 of up to fourteen characters: a lost character goes unnoticed exactly if it is a 0 and the values of the
characters before it add up to a multiple of 47, as when the text begins with it. The same for a character that is seen twice,
up to thirteen characters. -/
theorem C118_code93 (p q : List Char) (c : Char) (x : Code93.Code93) (ms : List Nat)
    (hx : Code93.new (p ++ c :: q) = .ok x) (he : Code93.encode x = .ok ms) :
    ((p ++ c :: q).length ≤ 14 → scanCode93 (withoutStretch (9 * (p.length + 1)) 9 ms) =
      if c = '0' ∧ (p.map code93Value).sum % 47 = 0 then some (p ++ q) else none) ∧
    ((p ++ c :: q).length ≤ 13 → scanCode93 (stretchTwice (9 * (p.length + 1)) 9 ms) =
      if c = '0' ∧ (p.map code93Value).sum % 47 = 0 then some (p ++ c :: c :: q) else none) := by
  obtain ⟨hA, he'⟩ := code93_symbol _ x hx
  rw [he] at he'
  cases he'
  have e0 : code93Text (p ++ c :: q) = p ++ c :: (q ++ [code93Check 20 (p ++ c :: q),
      code93Check 15 (p ++ c :: q ++ [code93Check 20 (p ++ c :: q)])]) := by simp [code93Text]
  rw [e0] at hA ⊢
  have ecut := fun q' => code93_cut p q' c
  generalize hy : code93Check 20 (p ++ c :: q) = y at hA
  generalize hz : code93Check 15 (p ++ c :: q ++ [y]) = z at hA
  have hc := hA c (by simp)
  have hlt := code93Value_lt c hc
  have zero : code93Value c = 0 ↔ c = '0' :=
    ⟨fun h => code93Value_inj c '0' hc (by decide) (by rw [h]; rfl), fun h => by subst h; rfl⟩
  obtain ⟨h1, h2⟩ := ecut (q ++ [y, z]) hA
  rw [h1, h2]
  have m1 : ∀ a ∈ p ++ (q ++ [y, z]), a ∈ code93Alphabet := by
    intro a ha
    apply hA
    simp only [List.mem_append, List.mem_cons] at ha ⊢
    rcases ha with ha | ha
    · exact Or.inl ha
    · exact Or.inr (Or.inr ha)
  have m2 : ∀ a ∈ p ++ c :: c :: (q ++ [y, z]), a ∈ code93Alphabet := by
    intro a ha
    apply hA
    simp only [List.mem_append, List.mem_cons] at ha ⊢
    rcases ha with ha | ha | ha | ha
    · exact Or.inl ha
    · exact Or.inr (Or.inl ha)
    · exact Or.inr (Or.inl ha)
    · exact Or.inr (Or.inr ha)
  have r1 := readCode93_paint _ m1
  have r2 := readCode93_paint _ m2
  have f1 : p ++ (q ++ [y, z]) = (p ++ q) ++ [y, z] := by simp
  have f2 : p ++ c :: c :: (q ++ [y, z]) = (p ++ c :: c :: q) ++ [y, z] := by simp
  constructor
  · intro hl
    rw [List.length_append, List.length_cons] at hl
    have s1 := scan93_if _ (p ++ q) y z (by rw [r1, f1])
    rw [s1]
    have a1 : y = code93Check 20 (p ++ q) ↔ _ := hy ▸ code93Check_insert 20 p q c (by omega)
    have a2 : z = code93Check 15 (p ++ q ++ [y]) ↔ ((q.length + 2) * code93Value c + (p.map code93Value).sum) % 47 = 0 := by
      have := code93Check_insert 15 p (q ++ [y]) c (by simp; omega)
      rw [← List.append_assoc, ← List.cons_append, ← List.append_assoc, hz, List.length_append] at this
      exact this
    have e2 : (q.length + 2) * code93Value c = (q.length + 1) * code93Value c + code93Value c := by
      rw [← Nat.succ_mul]
    have : (((q.length + 1) * code93Value c + (p.map code93Value).sum) % 47 = 0 ∧
        ((q.length + 2) * code93Value c + (p.map code93Value).sum) % 47 = 0) ↔
        (c = '0' ∧ (p.map code93Value).sum % 47 = 0) := by
      rw [← zero, e2]
      constructor
      · rintro ⟨k1, k2⟩
        have hv : code93Value c = 0 := by omega
        rw [hv] at k1
        exact ⟨hv, by simpa using k1⟩
      · rintro ⟨k1, k2⟩
        rw [k1]
        simpa using k2
    simp only [a1, a2, this]
  · intro hl
    rw [List.length_append, List.length_cons] at hl
    have s2 := scan93_if _ (p ++ c :: c :: q) y z (by rw [r2, f2])
    rw [s2]
    have a1 : y = code93Check 20 (p ++ c :: c :: q) ↔
        ((q.length + 2) * code93Value c + (p.map code93Value).sum) % 47 = 0 := by
      have := code93Check_insert 20 p (c :: q) c (by simp; omega)
      rw [hy, List.length_cons] at this
      rw [eq_comm]
      exact this
    have a2 : z = code93Check 15 (p ++ c :: c :: q ++ [y]) ↔
        ((q.length + 3) * code93Value c + (p.map code93Value).sum) % 47 = 0 := by
      have := code93Check_insert 15 p (c :: (q ++ [y])) c (by simp; omega)
      rw [← List.cons_append, ← List.cons_append, ← List.append_assoc, ← List.append_assoc, hz, List.length_append,
        List.length_cons] at this
      rw [eq_comm]
      exact this
    have e2 : (q.length + 3) * code93Value c = (q.length + 2) * code93Value c + code93Value c := by
      rw [← Nat.succ_mul]
    have : (((q.length + 2) * code93Value c + (p.map code93Value).sum) % 47 = 0 ∧
        ((q.length + 3) * code93Value c + (p.map code93Value).sum) % 47 = 0) ↔
        (c = '0' ∧ (p.map code93Value).sum % 47 = 0) := by
      rw [← zero, e2]
      constructor
      · rintro ⟨k1, k2⟩
        have hv : code93Value c = 0 := by omega
        rw [hv] at k1
        exact ⟨hv, by simpa using k1⟩
      · rintro ⟨k1, k2⟩
        rw [k1]
        simpa using k2
    simp only [a1, a2, this]

example : ∃ x ms, Code93.new "0A0".toList = .ok x ∧ Code93.encode x = .ok ms ∧
    scanCode93 (withoutStretch 9 9 ms) = some "A0".toList ∧ scanCode93 (withoutStretch 18 9 ms) = none ∧
    scanCode93 (withoutStretch 27 9 ms) = none ∧ scanCode93 (stretchTwice 9 9 ms) = some "00A0".toList ∧
    scanCode93 (stretchTwice 27 9 ms) = none := ⟨_, _, rfl, rfl, by decide +kernel⟩

theorem code11Check_insert (n : Nat) (p q : List Char) (c : Char) (h : p.length + q.length + 1 ≤ n) :
    code11Check n (p ++ c :: q) = code11Check n (p ++ q) ↔
      ((q.length + 1) * code11Value c + (p.map code11Value).sum) % 11 = 0 := by
  have e : cyclicSum n 0 ((p ++ c :: q).map code11Value).reverse =
      cyclicSum n 0 ((p ++ q).map code11Value).reverse + ((q.length + 1) * code11Value c + (p.map code11Value).sum) := by
    have := cyclicSum_insert n (p.map code11Value) (q.map code11Value) (code11Value c) (by simpa using h)
    simpa using this
  have key : code11Check n (p ++ c :: q) = code11Check n (p ++ q) ↔
      cyclicSum n 0 ((p ++ c :: q).map code11Value).reverse % 11 = cyclicSum n 0 ((p ++ q).map code11Value).reverse % 11 := by
    constructor
    · intro h
      rw [← code11Value_check, ← code11Value_check, h]
    · intro h
      unfold code11Check
      rw [h]
  rw [key, e]
  omega

theorem scan11_if (ms : List Nat) (u : List Char) (y : Char) (hl : u.length ≤ 10) (h : readCode11 ms = some (u ++ [y])) :
    scanCode11 ms = if y = code11Check 10 u then some u else none := by
  have key : ∀ v, verifyCode11 (u ++ [y]) = some v ↔ v = u ∧ y = code11Check 10 u := by
    intro v
    rw [verifyCode11_iff, code11Text]
    constructor
    · intro h1
      split at h1
      · have := congrArg List.length h1
        simp at this
        omega
      · obtain ⟨h2, h3⟩ := List.append_inj' h1 rfl
        subst h2
        exact ⟨rfl, by simpa using h3⟩
    · rintro ⟨rfl, h2⟩
      rw [if_neg (by omega), ← h2]
  rw [scanCode11, h, Option.bind_some]
  split
  · rename_i hk
    exact (key u).mpr ⟨rfl, hk⟩
  · rename_i hk
    cases hn : verifyCode11 (u ++ [y]) with
    | none => rfl
    | some v => exact absurd ((key v).mp hn).2 hk

/-- C118. Code 11 of up to ten characters (nine for the second part): whatever row reads as the characters of a symbol without
one of the data characters, or with one of them twice, passes exactly if the values add up so. -/
theorem C118_code11 (p q : List Char) (c k : Char) (x : Code11.Code11) (ms ms' : List Nat)
    (hx : Code11.new (p ++ c :: q) = .ok x) (he : Code11.encode x = .ok ms) (hr : readCode11 ms = some (p ++ c :: q ++ [k])) :
    ((p ++ c :: q).length ≤ 10 → readCode11 ms' = some (p ++ q ++ [k]) → scanCode11 ms' =
      if ((q.length + 1) * code11Value c + (p.map code11Value).sum) % 11 = 0 then some (p ++ q) else none) ∧
    ((p ++ c :: q).length ≤ 9 → readCode11 ms' = some (p ++ c :: c :: q ++ [k]) → scanCode11 ms' =
      if ((q.length + 2) * code11Value c + (p.map code11Value).sum) % 11 = 0 then some (p ++ c :: c :: q) else none) := by
  obtain ⟨hA, he'⟩ := code11_symbol _ x hx
  rw [he] at he'
  cases he'
  rw [readCode11_paint _ hA, Option.some.injEq] at hr
  have hk : (p ++ c :: q).length ≤ 10 → code11Check 10 (p ++ c :: q) = k := by
    intro hl
    rw [code11Text, if_neg (by omega)] at hr
    simpa using (List.append_inj' hr rfl).2
  constructor
  · intro hl hr'
    have h3 := hk hl
    rw [List.length_append, List.length_cons] at hl
    have a1 : k = code11Check 10 (p ++ q) ↔ _ := h3 ▸ code11Check_insert 10 p q c (by omega)
    rw [scan11_if _ _ k (by simp; omega) hr']
    simp only [a1]
  · intro hl hr'
    have h3 := hk (by omega)
    rw [List.length_append, List.length_cons] at hl
    have a1 : k = code11Check 10 (p ++ c :: c :: q) ↔
        ((q.length + 2) * code11Value c + (p.map code11Value).sum) % 11 = 0 := by
      have := code11Check_insert 10 p (c :: q) c (by simp; omega)
      rw [h3, List.length_cons] at this
      rw [eq_comm]
      exact this
    rw [scan11_if _ _ k (by simp; omega) hr']
    simp only [a1]

/-- In `12-5` the loss of `2` is noticed, in `65` that of `5` is not. -/
example : ∃ x ms x' ms', Code11.new "12-5".toList = .ok x ∧ Code11.encode x = .ok ms ∧ Code11.new "65".toList = .ok x' ∧
    Code11.encode x' = .ok ms' ∧ (elements ms).map (fun es => scanCode11 (paint (es.take 12 ++ es.drop 18))) = some none ∧
    (elements ms').map (fun es => scanCode11 (paint (es.take 12 ++ es.drop 18))) = some (some ['6']) :=
  ⟨_, _, _, _, rfl, rfl, rfl, rfl, by decide +kernel⟩

/-! ## Code 128 -/

theorem code128_cut (p q : List Nat) (v : Nat) (h : ∀ a ∈ p ++ v :: q, a < 106) :
    withoutStretch (11 * p.length) 11 (paint (code128Widths (p ++ v :: q))) = paint (code128Widths (p ++ q)) ∧
    stretchTwice (11 * p.length) 11 (paint (code128Widths (p ++ v :: q))) = paint (code128Widths (p ++ v :: v :: q)) := by
  have key := cells_cut w128 6 11 (by omega) [] code128Stop rfl p q v (fun a ha => ⟨(w128_spec a (h a ha)).1, w128_sum a (h a ha)⟩)
  simpa [code128Widths] using key

theorem scan128_if (ms : List Nat) (start c : Nat) (data : List Nat) (h : readCode128 ms = some (start :: data ++ [c])) :
    scanCode128 ms = if c = code128Sum start data % 103 then
      (code128Start start).bind (fun set => (code128Decode set data).map (set.char :: ·)) else none := by
  rw [scanCode128, h]
  simp only [Option.bind_eq_bind, Option.bind_some]
  split
  · rename_i hk
    rw [verifyCode128_ok start c data hk]
    simp only [Option.bind_some]
    cases code128Start start with
    | none => rfl
    | some set =>
      simp only [Option.bind_some]
      cases code128Decode set data <;> rfl
  · rename_i hk
    cases hn : verifyCode128 (start :: data ++ [c]) with
    | none => rfl
    | some v => exact absurd ((verifyCode128_iff start c data v).mp hn).1 hk

theorem positionSum_succ (k : Nat) (l : List Nat) : positionSum (k + 1) l = positionSum k l + l.sum := by
  induction l generalizing k with
  | nil => rfl
  | cons a l ih =>
    rw [positionSum, positionSum, ih, List.sum_cons, Nat.add_mul, Nat.one_mul]
    omega

theorem code128Sum_insert (start v : Nat) (p q : List Nat) :
    code128Sum start (p ++ v :: q) = code128Sum start (p ++ q) + ((p.length + 1) * v + q.sum) := by
  unfold code128Sum
  rw [positionSum_append, positionSum_append, positionSum, Nat.add_comm 1 p.length, positionSum_succ (p.length + 1)]
  omega

/-- C118. Code 128: a lost data symbol, or one that is seen twice, goes unnoticed exactly if its value times its place (the next
place, if it is seen twice) and the values of the data symbols after it add up to a multiple of 103; then the others are read as
they stand. -/
theorem C118_code128 (b : Build) (s : List Char) (x : Code128.Code128) (hx : Code128.new s = .ok x) (hl : s.length ≤ 6489)
    (ms : List Nat) (he : Code128.encode b x = .ok ms) (start v chk : Nat) (p q : List Nat)
    (hr : readCode128 ms = some (start :: (p ++ v :: q) ++ [chk])) :
    scanCode128 (withoutStretch (11 * (p.length + 1)) 11 ms) = (if ((p.length + 1) * v + q.sum) % 103 = 0 then
      (code128Start start).bind (fun set => (code128Decode set (p ++ q)).map (set.char :: ·)) else none) ∧
    scanCode128 (stretchTwice (11 * (p.length + 1)) 11 ms) = (if ((p.length + 2) * v + q.sum) % 103 = 0 then
      (code128Start start).bind (fun set => (code128Decode set (p ++ v :: v :: q)).map (set.char :: ·)) else none) := by
  obtain ⟨ms1, e1, hs⟩ := C28_code128_scan_regrouped_partial b s x hx hl
  rw [he, Outcome.ok.injEq] at e1
  subst e1
  have hchk : chk = code128Sum start (p ++ v :: q) % 103 := by
    rw [scan128_if ms start chk _ hr] at hs
    by_cases hk : chk = code128Sum start (p ++ v :: q) % 103
    · exact hk
    · rw [if_neg hk] at hs
      cases hs
  obtain ⟨hv, hms⟩ := code128_read_symbol ms _ hr
  have e0 : start :: (p ++ v :: q) ++ [chk] = (start :: p) ++ v :: (q ++ [chk]) := by simp
  rw [e0] at hv hms
  obtain ⟨h1, h2⟩ := code128_cut (start :: p) (q ++ [chk]) v hv
  rw [List.length_cons, ← hms] at h1 h2
  rw [h1, h2]
  have m1 : ∀ a ∈ start :: p ++ (q ++ [chk]), a < 106 := by
    intro a ha
    apply hv
    simp only [List.mem_append, List.mem_cons] at ha ⊢
    rcases ha with ha | ha
    · exact Or.inl ha
    · exact Or.inr (Or.inr ha)
  have m2 : ∀ a ∈ start :: p ++ v :: v :: (q ++ [chk]), a < 106 := by
    intro a ha
    apply hv
    simp only [List.mem_append, List.mem_cons] at ha ⊢
    rcases ha with ha | ha | ha | ha
    · exact Or.inl ha
    · exact Or.inr (Or.inl ha)
    · exact Or.inr (Or.inl ha)
    · exact Or.inr (Or.inr ha)
  have r1 := readCode128_paint _ m1
  have r2 := readCode128_paint _ m2
  have f1 : start :: p ++ (q ++ [chk]) = start :: (p ++ q) ++ [chk] := by simp
  have f2 : start :: p ++ v :: v :: (q ++ [chk]) = start :: (p ++ v :: v :: q) ++ [chk] := by simp
  have a1 : chk = code128Sum start (p ++ q) % 103 ↔ ((p.length + 1) * v + q.sum) % 103 = 0 := by
    rw [hchk, code128Sum_insert]
    omega
  have a2 : chk = code128Sum start (p ++ v :: v :: q) % 103 ↔ ((p.length + 2) * v + q.sum) % 103 = 0 := by
    have := code128Sum_insert start v p (v :: q)
    rw [hchk, this, List.sum_cons]
    have : (p.length + 2) * v = (p.length + 1) * v + v := by rw [← Nat.succ_mul]
    omega
  have s1 := scan128_if _ start chk (p ++ q) (by rw [r1, f1])
  have s2 := scan128_if _ start chk (p ++ v :: v :: q) (by rw [r2, f2])
  rw [s1, s2]
  simp only [a1, a2, and_self]

/-- Losing the `A` of `ƁAB` is noticed; the last blank of a text in set B has the value 0 and can get lost. -/
example : ∃ x ms x' ms', Code128.new "ƁAB".toList = .ok x ∧ Code128.encode .debug x = .ok ms ∧
    scanCode128 (withoutStretch 11 11 ms) = none ∧ scanCode128 (stretchTwice 11 11 ms) = none ∧
    Code128.new "ƁAB ".toList = .ok x' ∧ Code128.encode .debug x' = .ok ms' ∧
    scanCode128 (withoutStretch 33 11 ms') = some "ƁAB".toList ∧ scanCode128 (stretchTwice 33 11 ms') = some "ƁAB  ".toList :=
  ⟨_, _, _, _, rfl, rfl, by decide +kernel, by decide +kernel, rfl, rfl, by decide +kernel, by decide +kernel⟩

/-! ## Symbols without check characters -/

/-- C118. Code 39 without check character and the two kinds of 2 of 5: the loss of a character (a pair of digits) is never
noticed, nor is one that is seen twice. -/
theorem C118_unchecked (b : Build) (s : List Char) (ms : List Nat) :
    (∀ p c q, s = p ++ c :: q → (∃ x, Code39.new s = .ok x ∧ Code39.encode x = .ok ms) →
      scanCode39 (withoutStretch (13 * (p.length + 1)) 13 ms) = some (p ++ q) ∧
      scanCode39 (stretchTwice (13 * (p.length + 1)) 13 ms) = some (p ++ c :: c :: q)) ∧
    (∀ p d q, Drawn b .stf s ms → digitsOf s = p ++ d :: q →
      scanStf (withoutStretch (8 + 14 * p.length) 14 ms) = some (p ++ q) ∧
      scanStf (stretchTwice (8 + 14 * p.length) 14 ms) = some (p ++ d :: d :: q)) ∧
    (∀ p d e q, Drawn b .itf s ms → scanItf ms = some (p ++ d :: e :: q) → p.length % 2 = 0 →
      scanItf (withoutStretch (4 + 9 * p.length) 18 ms) = some (p ++ q) ∧
      scanItf (stretchTwice (4 + 9 * p.length) 18 ms) = some (p ++ d :: e :: d :: e :: q)) := by
  refine ⟨?_, ?_, ?_⟩
  · rintro p c q rfl ⟨x, hx, he⟩
    obtain ⟨hA, he'⟩ := code39_symbol _ false x hx
    rw [he] at he'
    cases he'
    simp only [Bool.false_eq_true, if_false] at hA ⊢
    obtain ⟨h1, h2⟩ := code39_cut p q c hA
    rw [h1, h2]
    refine ⟨scanCode39_paint _ (fun a ha => hA a ?_), scanCode39_paint _ (fun a ha => hA a ?_)⟩
    · simp only [List.mem_append, List.mem_cons] at ha ⊢
      rcases ha with ha | ha <;> simp [ha]
    · simp only [List.mem_append, List.mem_cons] at ha ⊢
      rcases ha with ha | ha | ha | ha <;> simp [ha]
  · rintro p d q ⟨x, hx, he⟩ hs
    obtain ⟨hD, he'⟩ := stf_symbol s x hx
    rw [he] at he'
    cases he'
    have hd := digits_lt s hD
    rw [hs] at hd ⊢
    obtain ⟨h1, h2⟩ := cells_cut wStf 10 14 (by omega) [2, 1, 2, 1, 1, 1] [2, 1, 1, 1, 2, 1] rfl p q d
      (fun a ha => ⟨(wStf_spec a (hd a ha)).1, wStf_sum a (hd a ha)⟩)
    refine ⟨?_, ?_⟩
    · refine (congrArg scanStf h1).trans (scanStf_paint (p ++ q) (fun a ha => hd a ?_))
      simp only [List.mem_append, List.mem_cons] at ha ⊢
      rcases ha with ha | ha <;> simp [ha]
    · refine (congrArg scanStf h2).trans (scanStf_paint (p ++ d :: d :: q) (fun a ha => hd a ?_))
      simp only [List.mem_append, List.mem_cons] at ha ⊢
      rcases ha with ha | ha | ha | ha <;> simp [ha]
  · rintro p d e q ⟨x, hx, he⟩ hs hp
    obtain ⟨ds, hd, hev, -, -, -, he'⟩ := itf_symbol b s x hx
    rw [he] at he'
    cases he'
    rw [scanItf_paint ds hd hev, Option.some.injEq] at hs
    subst hs
    have hq : q.length % 2 = 0 := by simp at hev; omega
    have ep : pairs (p ++ d :: e :: q) = pairs p ++ (d, e) :: pairs q := pairs_append p _ hp
    have hlt := pairs_lt _ hd
    rw [ep] at hlt
    obtain ⟨h1, h2⟩ := cells_cut wItf 10 18 (by omega) [1, 1, 1, 1] [2, 1, 1] rfl (pairs p) (pairs q) (d, e)
      (fun a ha => ⟨(wItf_spec a.1 (hlt a ha).1 a.2 (hlt a ha).2).1, wItf_sum a.1 (hlt a ha).1 a.2 (hlt a ha).2⟩)
    have hpos : 4 + 9 * p.length = [1, 1, 1, 1].sum + 18 * (pairs p).length := by
      rw [pairs_length]
      have : [1, 1, 1, 1].sum = 4 := rfl
      omega
    have w0 : itfWidths (p ++ d :: e :: q) = [1, 1, 1, 1] ++ ((pairs p ++ (d, e) :: pairs q).flatMap wItf ++ [2, 1, 1]) := by
      rw [itfWidths, ep]
    have w1 : itfWidths (p ++ q) = [1, 1, 1, 1] ++ ((pairs p ++ pairs q).flatMap wItf ++ [2, 1, 1]) := by
      rw [itfWidths, pairs_append p q hp]
    have w2 : itfWidths (p ++ d :: e :: d :: e :: q) =
        [1, 1, 1, 1] ++ ((pairs p ++ (d, e) :: (d, e) :: pairs q).flatMap wItf ++ [2, 1, 1]) := by
      rw [itfWidths, pairs_append p _ hp]
      rfl
    rw [w0, hpos, h1, h2, ← w1, ← w2]
    refine ⟨scanItf_paint _ (fun a ha => hd a ?_) (by simp; omega), scanItf_paint _ (fun a ha => hd a ?_) (by simp; omega)⟩
    · simp only [List.mem_append, List.mem_cons] at ha ⊢
      rcases ha with ha | ha <;> simp [ha]
    · simp only [List.mem_append, List.mem_cons] at ha ⊢
      rcases ha with ha | ha | ha | ha | ha | ha <;> simp [ha]

example : ∃ ms, Drawn .debug .itf "123456".toList ms ∧ scanItf (withoutStretch 22 18 ms) = some [1, 2, 5, 6] ∧
    scanItf (stretchTwice 22 18 ms) = some [1, 2, 3, 4, 3, 4, 5, 6] := ⟨_, ⟨_, rfl, rfl⟩, by decide +kernel⟩

/-! ## EAN and UPC -/

/-- C118. EAN-13, EAN-8 and UPC-A have a fixed length: whatever is lost or seen twice, the rest is not read. -/
theorem C118_retail (b : Build) (s : List Char) (ms : List Nat) (i w : Nat) (hw : 0 < w) (hi : i + w ≤ ms.length) :
    (Drawn b .ean13 s ms → scanEan13 (withoutStretch i w ms) = none ∧ scanEan13 (stretchTwice i w ms) = none) ∧
    (Drawn b .ean8 s ms → scanEan8 (withoutStretch i w ms) = none ∧ scanEan8 (stretchTwice i w ms) = none) ∧
    (Drawn b .upca s ms → scanUpca (withoutStretch i w ms) = none ∧ scanUpca (stretchTwice i w ms) = none) := by
  have l1 : (withoutStretch i w ms).length ≠ ms.length := by
    simp only [withoutStretch, List.length_append, List.length_take, List.length_drop]
    omega
  have l2 : (stretchTwice i w ms).length ≠ ms.length := by
    simp only [stretchTwice, List.length_append, List.length_take, List.length_drop]
    omega
  have key : ∀ (scan : List Nat → Option (List Nat)) (k : Kind) (n : Nat), (∀ t ms, Drawn b k t ms → ms.length = n) →
      (∀ ms ds, scan ms = some ds → ∃ t, Drawn b k t ms) → Drawn b k s ms →
      scan (withoutStretch i w ms) = none ∧ scan (stretchTwice i w ms) = none := by
    intro scan k n h1 h2 h3
    have hn := h1 s ms h3
    constructor
    · cases h : scan (withoutStretch i w ms) with
      | none => rfl
      | some ds =>
        obtain ⟨t, ht⟩ := h2 _ _ h
        exact absurd ((h1 t _ ht).trans hn.symm) l1
    · cases h : scan (stretchTwice i w ms) with
      | none => rfl
      | some ds =>
        obtain ⟨t, ht⟩ := h2 _ _ h
        exact absurd ((h1 t _ ht).trans hn.symm) l2
  refine ⟨key scanEan13 .ean13 95 ?_ ?_, key scanEan8 .ean8 67 ?_ ?_, key scanUpca .upca 95 ?_ ?_⟩
  · rintro t ms ⟨x, hx, he⟩; exact ((C32_ean_rows b b t ms).1 x hx he).length
  · intro ms ds h
    obtain ⟨t, -, -, ht⟩ := (C75_ean13 b ms ds).mp h
    exact ⟨t, ht⟩
  · rintro t ms ⟨x, hx, he⟩; exact ((C32_ean_rows b b t ms).2.1 x hx he).length
  · intro ms ds h
    obtain ⟨t, -, -, ht⟩ := (C75_ean8 b ms ds).mp h
    exact ⟨t, ht⟩
  · rintro t ms ⟨x, hx, he⟩; exact ((C32_ean_rows b b t ms).2.2 x hx he).length
  · intro ms ds h
    obtain ⟨t, -, -, ht⟩ := (C75_upca b ms ds).mp h
    exact ⟨t, ht⟩

example : ∃ ms, Drawn .debug .ean8 "5512345".toList ms ∧ (scanEan8 ms).isSome ∧ scanEan8 (withoutStretch 3 7 ms) = none :=
  ⟨_, ⟨_, rfl, rfl⟩, by decide +kernel⟩

end Barcoders
