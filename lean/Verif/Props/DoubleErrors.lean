import Verif.Props.Ean
import Verif.Props.Code93
import Verif.Props.Code11

/-!
# What two errors do (C64, C65)
-/

set_option autoImplicit false

namespace Barcoders
open Spec

/-! ## Exchanging digits of the same weight (EAN/UPC) -/

theorem gs1Valid_far_swap (p m q : List Nat) (a c : Nat) (hm : m.length % 2 = 1) :
    Gs1Valid (p ++ a :: (m ++ c :: q)) ↔ Gs1Valid (p ++ c :: (m ++ a :: q)) := by
  simp only [Gs1Valid, List.reverse_append, List.reverse_cons, List.append_assoc, List.cons_append, List.nil_append]
  rw [altSum_append 1 (by omega), altSum_append 1 (by omega)]
  simp only [altSum]
  generalize altSum 1 q.reverse = Q
  split
  · rw [altSum_append (4 - 1) (by omega), altSum_append (4 - 1) (by omega)]
    simp only [List.length_reverse, hm, altSum]
    generalize altSum (4 - 1) m.reverse = M
    simp only [Nat.reduceSub, Nat.one_ne_zero, if_false]
    generalize altSum 3 p.reverse = P
    omega
  · rw [altSum_append (4 - 3) (by omega), altSum_append (4 - 3) (by omega)]
    simp only [List.length_reverse, hm, altSum]
    generalize altSum (4 - 3) m.reverse = M
    simp only [Nat.reduceSub, Nat.one_ne_zero, if_false]
    generalize altSum 1 p.reverse = P
    omega

theorem far_swap {T : Type} (mk : List Nat → T) (f : List Char → Outcome T) (n : Nat) (hn : n < 100)
    (hf : ∀ s, f s = if byteLen s % 2 ^ 32 ≠ n ∧ byteLen s % 2 ^ 32 ≠ n + 1 then Outcome.err Error.length
      else if ¬ AllDigits s then .err .character
      else if s.length = n + 1 ∧ ¬ Gs1Valid (digitsOf s) then .err .checksum
      else .ok (mk ((digitsOf s).take n))) (p m q : List Char) (a c : Char) (x : T)
    (hl : (p ++ a :: (m ++ c :: q)).length = n + 1) (hm : m.length % 2 = 1) (h : f (p ++ a :: (m ++ c :: q)) = .ok x) :
    ∃ y, f (p ++ c :: (m ++ a :: q)) = .ok y := by
  rw [hf] at h
  obtain ⟨-, hD, -, -, hv⟩ := decision_ok mk n _ x h
  have hv := hv hl
  have hD' : AllDigits (p ++ c :: (m ++ a :: q)) := by
    intro y hy
    apply hD y
    simp only [List.mem_append, List.mem_cons] at hy ⊢
    rcases hy with hy | hy | hy | hy | hy <;> simp [hy]
  have hl' : (p ++ c :: (m ++ a :: q)).length = n + 1 := by simpa using hl
  have hv' : Gs1Valid (digitsOf (p ++ c :: (m ++ a :: q))) := by
    have := (gs1Valid_far_swap (digitsOf p) (digitsOf m) (digitsOf q) (digitValue a) (digitValue c)
      (by simpa [digitsOf] using hm)).mp (by simpa [digitsOf] using hv)
    simpa [digitsOf] using this
  refine ⟨mk ((digitsOf (p ++ c :: (m ++ a :: q))).take n), ?_⟩
  rw [hf, digits_byteLen _ hD', hl', if_neg (show ¬ ((n + 1) % 2 ^ 32 ≠ n ∧ (n + 1) % 2 ^ 32 ≠ n + 1) by omega),
    if_neg (not_not_intro hD'), if_neg (fun hh => hh.2 hv')]

/-- C64. Exchanging two digits of an accepted 13-digit number that are an even number of places apart (so also the
frequent "jump" transposition `abc → cba`) is never noticed. -/
theorem C64_ean13_jump (b : Build) (p m q : List Char) (a c : Char) (x : Ean13.EAN13)
    (hl : (p ++ a :: (m ++ c :: q)).length = 13) (hm : m.length % 2 = 1)
    (h : Ean13.new b (p ++ a :: (m ++ c :: q)) = .ok x) : ∃ y, Ean13.new b (p ++ c :: (m ++ a :: q)) = .ok y :=
  far_swap Ean13.EAN13.mk (Ean13.new b) 12 (by omega) (ean13_new b) p m q a c x hl hm h

example : (Ean13.new .debug ("75".toList ++ '0' :: ("1".toList ++ '0' :: "31311309".toList))).isOk = true ∧
    (Ean13.new .debug ("7".toList ++ '5' :: ("0".toList ++ '1' :: "031311309".toList))).isOk = true ∧
    (Ean13.new .debug ("7".toList ++ '1' :: ("0".toList ++ '5' :: "031311309".toList))).isOk = true := by decide

/-- C64. The same for EAN-8. -/
theorem C64_ean8_jump (b : Build) (p m q : List Char) (a c : Char) (x : Ean8.EAN8)
    (hl : (p ++ a :: (m ++ c :: q)).length = 8) (hm : m.length % 2 = 1)
    (h : Ean8.new b (p ++ a :: (m ++ c :: q)) = .ok x) : ∃ y, Ean8.new b (p ++ c :: (m ++ a :: q)) = .ok y :=
  far_swap Ean8.EAN8.mk (Ean8.new b) 7 (by omega) (ean8_new b) p m q a c x hl hm h

example : (∃ y, Ean8.new .debug ("5".toList ++ '5' :: ("1".toList ++ '2' :: "3457".toList)) = .ok y) ∧
    (∃ y, Ean8.new .debug ("5".toList ++ '2' :: ("1".toList ++ '5' :: "3457".toList)) = .ok y) := ⟨⟨_, rfl⟩, _, rfl⟩

/-- C64. The same for UPC-A. -/
theorem C64_upca_jump (b : Build) (p m q : List Char) (a c : Char) (x : Upca.UPCA)
    (hl : (p ++ a :: (m ++ c :: q)).length = 12) (hm : m.length % 2 = 1)
    (h : Upca.new b (p ++ a :: (m ++ c :: q)) = .ok x) : ∃ y, Upca.new b (p ++ c :: (m ++ a :: q)) = .ok y :=
  far_swap Upca.UPCA.mk (Upca.new b) 11 (by omega) (upca_new b) p m q a c x hl hm h

example : Ean13.new .debug ("7".toList ++ '5' :: ("0".toList ++ '1' :: "031311309".toList)) =
      .ok ⟨[7, 5, 0, 1, 0, 3, 1, 3, 1, 1, 3, 0]⟩ ∧
    Ean13.new .debug ("7".toList ++ '1' :: ("0".toList ++ '5' :: "031311309".toList)) =
      .ok ⟨[7, 1, 0, 5, 0, 3, 1, 3, 1, 1, 3, 0]⟩ := by decide

/-! ## Two wrong characters in Code 93 -/

/-- Sum with a weight for every place. -/
def isum (f : Nat → Int) (j : Nat) : List Nat → Int
  | [] => 0
  | d :: ds => f j * d + isum f (j + 1) ds

theorem isum_append (f : Nat → Int) (j : Nat) (l m : List Nat) : isum f j (l ++ m) = isum f j l + isum f (j + l.length) m := by
  induction l generalizing j with
  | nil => simp [isum]
  | cons a l ih =>
    rw [List.cons_append, isum, isum, ih, List.length_cons, show j + (l.length + 1) = j + 1 + l.length by omega]
    omega

/-- Weights of the equation for C, counted from the right end of the whole text (K, C, data). -/
def eqC : Nat → Int
  | 0 => 0
  | 1 => -1
  | j + 2 => (j % 20 + 1 : Nat)

/-- Weights of the equation for K. -/
def eqK : Nat → Int
  | 0 => -1
  | j + 1 => (j % 15 + 1 : Nat)

theorem isum_eqC (j : Nat) (l : List Nat) : isum eqC (j + 2) l = cyclicSum 20 j l := by
  induction l generalizing j with
  | nil => rfl
  | cons d l ih =>
    rw [isum, cyclicSum, show j + 2 + 1 = j + 1 + 2 by omega, ih]
    simp [eqC]

theorem isum_eqK (j : Nat) (l : List Nat) : isum eqK (j + 1) l = cyclicSum 15 j l := by
  induction l generalizing j with
  | nil => rfl
  | cons d l ih =>
    rw [isum, cyclicSum, ih]
    simp [eqK]

/-- The two check equations of a complete text. -/
theorem code93_equations (s : List Char) :
    isum eqC 0 ((code93Text s).map code93Value).reverse % 47 = 0 ∧
    isum eqK 0 ((code93Text s).map code93Value).reverse % 47 = 0 := by
  have e : ((code93Text s).map code93Value).reverse =
      code93Value (code93Check 15 (s ++ [code93Check 20 s])) :: code93Value (code93Check 20 s) ::
        (s.map code93Value).reverse := by
    simp [code93Text]
  have e2 : ((s ++ [code93Check 20 s]).map code93Value).reverse =
      code93Value (code93Check 20 s) :: (s.map code93Value).reverse := by simp
  have hC := code93Value_check 20 s
  have hK := code93Value_check 15 (s ++ [code93Check 20 s])
  rw [e2, ← Int.ofNat_inj] at hK
  rw [← Int.ofNat_inj] at hC
  rw [e]
  constructor
  · rw [isum, isum, isum_eqC 0]
    simp only [eqC]
    omega
  · rw [isum, isum_eqK 0]
    simp only [eqK]
    omega

theorem det_inv : ∀ k < 16, ∀ i < k, ∃ v < 47, ((v : Nat) * (eqC i * eqK k - eqC k * eqK i) : Int) % 47 = 1 := by
  decide +kernel

theorem two_unknowns (f g : Nat → Int) (i k : Nat) (X Y : Int) (v : Nat)
    (hv : ((v : Nat) * (f i * g k - f k * g i) : Int) % 47 = 1)
    (h1 : (f i * X + f k * Y) % 47 = 0) (h2 : (g i * X + g k * Y) % 47 = 0)
    (hX : -47 < X ∧ X < 47) : X = 0 := by
  obtain ⟨A, hA⟩ := Int.dvd_of_emod_eq_zero h1
  obtain ⟨B, hB⟩ := Int.dvd_of_emod_eq_zero h2
  obtain ⟨w, hw⟩ : ∃ w, (v : Int) * (f i * g k - f k * g i) = 47 * w + 1 := ⟨_, by
    have := Int.mul_ediv_add_emod ((v : Int) * (f i * g k - f k * g i)) 47
    rw [hv] at this
    exact this.symm⟩
  generalize (v : Int) = u at hw
  generalize f i = a at *
  generalize f k = b at *
  generalize g i = c at *
  generalize g k = d at *
  have e : X = 47 * (u * (d * A - b * B) - w * X) := by grind
  generalize u * (d * A - b * B) - w * X = Z at e
  omega

theorem code93_two_replaced (s s' p m q : List Char) (a c a' c' : Char) (hA : ∀ c ∈ s, c ∈ code93Alphabet)
    (hl : s.length ≤ 14)
    (h1 : code93Text s = p ++ a :: (m ++ c :: q)) (h2 : code93Text s' = p ++ a' :: (m ++ c' :: q))
    (ha' : a' ∈ code93Alphabet) (hc' : c' ∈ code93Alphabet) : c' = c ∧ a' = a := by
  have hT := code93_text_mem s hA
  have ha : a ∈ code93Alphabet := hT a (by rw [h1]; simp)
  have hc : c ∈ code93Alphabet := hT c (by rw [h1]; simp)
  have hlen : p.length + m.length + q.length ≤ 14 := by
    have := congrArg List.length h1
    simp [code93Text] at this
    omega
  obtain ⟨e1, e2⟩ := code93_equations s
  obtain ⟨e3, e4⟩ := code93_equations s'
  rw [h1] at e1 e2
  rw [h2] at e3 e4
  simp only [List.map_append, List.map_cons, List.reverse_append, List.reverse_cons, List.append_assoc,
    List.cons_append, List.nil_append, isum_append, isum, List.length_reverse, List.length_map, Nat.zero_add] at e1 e2 e3 e4
  have hik : q.length < q.length + 1 + m.length := by omega
  obtain ⟨v, -, hv⟩ := det_inv (q.length + 1 + m.length) (by omega) q.length hik
  generalize q.length + 1 + m.length = k at *
  generalize q.length = i at *
  have l1 := code93Value_lt a ha
  have l2 := code93Value_lt c hc
  have l3 := code93Value_lt a' ha'
  have l4 := code93Value_lt c' hc'
  have k1 : (eqC i * ((code93Value c' : Int) - code93Value c) + eqC k * ((code93Value a' : Int) - code93Value a)) % 47 = 0 := by
    rw [Int.mul_sub, Int.mul_sub]
    omega
  have k2 : (eqK i * ((code93Value c' : Int) - code93Value c) + eqK k * ((code93Value a' : Int) - code93Value a)) % 47 = 0 := by
    rw [Int.mul_sub, Int.mul_sub]
    omega
  have hX := two_unknowns eqC eqK i k _ _ v hv k1 k2 (by omega)
  have hY : (code93Value a' : Int) - code93Value a = 0 := by
    have hv' : (((v : Nat) * (eqK k * eqC i - eqK i * eqC k)) : Int) % 47 = 1 := by
      rw [Int.mul_comm (eqK k), Int.mul_comm (eqK i)]; exact hv
    exact two_unknowns eqK eqC k i _ _ v hv' (by rw [Int.add_comm]; exact k2) (by rw [Int.add_comm]; exact k1) (by omega)
  exact ⟨code93Value_inj c' c hc' hc (by omega), code93Value_inj a' a ha' ha (by omega)⟩

/-- C65. Up to fourteen data characters, Code 93 detects every two wrong characters, check characters included: whatever
symbol reads as the text with one or two characters replaced is rejected. -/
theorem C65_code93_two_errors (s : List Char) (x : Code93.Code93) (hx : Code93.new s = .ok x) (hl : s.length ≤ 14)
    (bits : List Nat) (he : Code93.encode x = .ok bits) (p m q : List Char) (a c a' c' : Char)
    (hr : readCode93 bits = some (p ++ a :: (m ++ c :: q))) (ha' : a' ∈ code93Alphabet) (hc' : c' ∈ code93Alphabet)
    (hne : a' ≠ a ∨ c' ≠ c)
    (bits' : List Nat) (hr' : readCode93 bits' = some (p ++ a' :: (m ++ c' :: q))) : scanCode93 bits' = none := by
  obtain ⟨rfl, hA⟩ := code93_new_ok s x hx
  rw [code93_encode_eq s hA] at he
  cases he
  rw [readCode93_paint _ (code93_text_mem s hA)] at hr
  rw [scanCode93, hr', Option.bind_some]
  cases h : verifyCode93 (p ++ a' :: (m ++ c' :: q)) with
  | none => rfl
  | some s' =>
    rw [verifyCode93_iff] at h
    have := code93_two_replaced s s' p m q a c a' c' hA hl (Option.some.inj hr) h.symm ha' hc'
    rcases hne with hne | hne
    · exact absurd this.2 hne
    · exact absurd this.1 hne

-- the two wrong characters may be a data and a check character
example : readCode93 (paint (code93SymWidths "TEST93+6".toList)) = some "TEST93+6".toList ∧
    scanCode93 (paint (code93SymWidths "TEST93+6".toList)) = some "TEST93".toList ∧
    scanCode93 (paint (code93SymWidths "TEXT93+7".toList)) = none ∧
    scanCode93 (paint (code93SymWidths "AEST94+6".toList)) = none := by decide +kernel

theorem cyclicSum_zeros (t j n : Nat) : cyclicSum t j (List.replicate n 0) = 0 := by
  induction n generalizing j with
  | zero => rfl
  | succ n ih => rw [List.replicate_succ, cyclicSum, ih, Nat.mul_zero]

/-- C65. Fourteen is exact: for every greater length there are two accepted strings differing in two characters only whose
symbols differ in these two characters only (they have the same check characters). -/
theorem C65_code93_two_errors_missed (n : Nat) (hn : 15 ≤ n) (hn2 : n ≤ 256) :
    ∃ s s' x x' bits bits' y z, s.length = n ∧ s'.length = n ∧ s = List.replicate n '0' ∧
      s' = List.replicate (n - 15) '0' ++ '.' :: "00000".toList ++ '1' :: "00000000".toList ∧
      Code93.new s = .ok x ∧ Code93.new s' = .ok x' ∧ Code93.encode x = .ok bits ∧ Code93.encode x' = .ok bits' ∧
      readCode93 bits = some (s ++ [y, z]) ∧ readCode93 bits' = some (s' ++ [y, z]) ∧
      scanCode93 bits = some s ∧ scanCode93 bits' = some s' := by
  obtain ⟨k, rfl⟩ : ∃ k, n = k + 15 := ⟨n - 15, by omega⟩
  rw [show k + 15 - 15 = k by omega]
  have hA : ∀ c ∈ List.replicate (k + 15) '0', c ∈ code93Alphabet := by
    intro c hc
    rw [(List.mem_replicate.mp hc).2]; decide
  have hA' : ∀ c ∈ List.replicate k '0' ++ '.' :: "00000".toList ++ '1' :: "00000000".toList, c ∈ code93Alphabet := by
    intro c hc
    rw [List.append_assoc, List.mem_append] at hc
    rcases hc with hc | hc
    · rw [(List.mem_replicate.mp hc).2]; decide
    · revert c; decide
  have hl : (List.replicate k '0' ++ '.' :: "00000".toList ++ '1' :: "00000000".toList).length = k + 15 := by
    simp
  have acc : ∀ s : List Char, s.length = k + 15 → (∀ c ∈ s, c ∈ code93Alphabet) → Code93.new s = .ok ⟨s⟩ := by
    intro s hs hm
    have hb := code93_byteLen s hm
    rw [C16_code93_new s (by omega), if_neg (by omega), if_pos hm]
  have c1 : ∀ t, code93Check t (List.replicate (k + 15) '0') = '0' := by
    intro t
    rw [code93Check, List.map_replicate, List.reverse_replicate, show code93Value '0' = 0 by decide, cyclicSum_zeros]
    decide
  have c1' : ∀ t, code93Check t (List.replicate (k + 15) '0' ++ ['0']) = '0' := by
    intro t
    rw [code93Check, ← List.replicate_succ', List.map_replicate, List.reverse_replicate, show code93Value '0' = 0 by decide,
      cyclicSum_zeros]
    decide
  have v2 : ((List.replicate k '0' ++ '.' :: "00000".toList ++ '1' :: "00000000".toList).map code93Value).reverse =
      [0, 0, 0, 0, 0, 0, 0, 0, 1, 0, 0, 0, 0, 0, 37] ++ List.replicate k 0 := by
    rw [List.append_assoc, List.map_append, List.reverse_append, List.map_replicate, List.reverse_replicate]
    congr 1
  have c2 : code93Check 20 (List.replicate k '0' ++ '.' :: "00000".toList ++ '1' :: "00000000".toList) = '0' := by
    rw [code93Check, v2, cyclicSum_append, cyclicSum_zeros]
    decide
  have c3 : code93Check 15 (List.replicate k '0' ++ '.' :: "00000".toList ++ '1' :: "00000000".toList ++ ['0']) = '0' := by
    rw [code93Check, List.map_append, List.reverse_append, v2, cyclicSum_append, cyclicSum_append, cyclicSum_zeros]
    decide
  refine ⟨_, _, _, _, _, _, '0', '0', by simp, hl, rfl, rfl, acc _ (by simp) hA, acc _ hl hA', code93_encode_eq _ hA,
    code93_encode_eq _ hA', ?_, ?_, ?_, ?_⟩
  · rw [readCode93_paint _ (code93_text_mem _ hA), code93Text, c1, c1']
  · rw [readCode93_paint _ (code93_text_mem _ hA'), code93Text, c2, c3]
  · rw [scanCode93, readCode93_paint _ (code93_text_mem _ hA), Option.bind_some, verifyCode93_text]
  · rw [scanCode93, readCode93_paint _ (code93_text_mem _ hA'), Option.bind_some, verifyCode93_text]

example : verifyCode93 (List.replicate 15 '0' ++ "00".toList) = some (List.replicate 15 '0') ∧
    verifyCode93 (".00000100000000".toList ++ "00".toList) = some ".00000100000000".toList := by decide

/-! ## Two wrong characters in Code 11 -/

/-- Zeros on both sides: what the two checks see. -/
theorem code11_ghost (s s' : List Char) (hl : s.length = s'.length)
    (h1 : cyclicSum 10 0 (s.map code11Value).reverse % 11 = 0) (h2 : cyclicSum 10 0 (s'.map code11Value).reverse % 11 = 0)
    (h3 : s.length > 10 → cyclicSum 9 0 (0 :: (s.map code11Value).reverse) % 11 = 0 ∧
      cyclicSum 9 0 (0 :: (s'.map code11Value).reverse) % 11 = 0) :
    ∃ t, code11Text s = s ++ t ∧ code11Text s' = s' ++ t := by
  have c1 : code11Check 10 s = '0' := by rw [code11Check, h1]; rfl
  have c2 : code11Check 10 s' = '0' := by rw [code11Check, h2]; rfl
  have e : ∀ u : List Char, ((u ++ ['0']).map code11Value).reverse = 0 :: (u.map code11Value).reverse := by
    intro u
    rw [List.map_append, List.reverse_append]
    rfl
  unfold code11Text
  rw [← hl, c1, c2]
  split
  · rename_i h
    have c3 : code11Check 9 (s ++ ['0']) = '0' := by rw [code11Check, e, (h3 h).1]; rfl
    have c4 : code11Check 9 (s' ++ ['0']) = '0' := by rw [code11Check, e, (h3 h).2]; rfl
    rw [c3, c4]
    exact ⟨_, rfl, rfl⟩
  · exact ⟨_, rfl, rfl⟩

/-- C65. Code 11 misses two wrong characters, with one check character and with two: for every length from two on there are
two accepted strings differing in two characters only whose symbols differ in these two characters only. -/
theorem C65_code11_two_errors_missed (n : Nat) (hn : 2 ≤ n) (hn2 : n ≤ 256) :
    ∃ p m q a c, (p ++ a :: (m ++ c :: q)).length = n ∧ a ≠ '0' ∧ c ≠ '0' ∧
      ∃ x x' bits bits' t, Code11.new (p ++ '0' :: (m ++ '0' :: q)) = .ok x ∧
        Code11.new (p ++ a :: (m ++ c :: q)) = .ok x' ∧ Code11.encode x = .ok bits ∧ Code11.encode x' = .ok bits' ∧
        readCode11 bits = some (p ++ '0' :: (m ++ '0' :: q) ++ t) ∧ readCode11 bits' = some (p ++ a :: (m ++ c :: q) ++ t) ∧
        scanCode11 bits = some (p ++ '0' :: (m ++ '0' :: q)) ∧ scanCode11 bits' = some (p ++ a :: (m ++ c :: q)) := by
  have acc : ∀ s : List Char, s.length = n → (∀ c ∈ s, c ∈ code11Alphabet) → Code11.new s = .ok ⟨s⟩ := by
    intro s hs hm
    have hb := code11_byteLen s hm
    rw [C19_code11_new s (by omega), if_neg (by omega), if_pos hm]
  have main : ∀ (k : Nat) (m q : List Char) (a c : Char), k + m.length + q.length + 2 = n → a ≠ '0' → c ≠ '0' →
      (∀ d ∈ '0' :: (m ++ '0' :: q), d ∈ code11Alphabet) → (∀ d ∈ a :: (m ++ c :: q), d ∈ code11Alphabet) →
      cyclicSum 10 0 (('0' :: (m ++ '0' :: q)).map code11Value).reverse % 11 = 0 →
      cyclicSum 10 0 ((a :: (m ++ c :: q)).map code11Value).reverse % 11 = 0 →
      (n > 10 → cyclicSum 9 0 (0 :: (('0' :: (m ++ '0' :: q)).map code11Value).reverse) % 11 = 0 ∧
        cyclicSum 9 0 (0 :: ((a :: (m ++ c :: q)).map code11Value).reverse) % 11 = 0) →
      ∃ p m q a c, (p ++ a :: (m ++ c :: q)).length = n ∧ a ≠ '0' ∧ c ≠ '0' ∧
      ∃ x x' bits bits' t, Code11.new (p ++ '0' :: (m ++ '0' :: q)) = .ok x ∧
        Code11.new (p ++ a :: (m ++ c :: q)) = .ok x' ∧ Code11.encode x = .ok bits ∧ Code11.encode x' = .ok bits' ∧
        readCode11 bits = some (p ++ '0' :: (m ++ '0' :: q) ++ t) ∧ readCode11 bits' = some (p ++ a :: (m ++ c :: q) ++ t) ∧
        scanCode11 bits = some (p ++ '0' :: (m ++ '0' :: q)) ∧ scanCode11 bits' = some (p ++ a :: (m ++ c :: q)) := by
    intro k m q a c hk ha hc hA hA' h1 h2 h3
    have hm : ∀ u : List Char, (∀ d ∈ u, d ∈ code11Alphabet) → ∀ d ∈ List.replicate k '0' ++ u, d ∈ code11Alphabet := by
      intro u hu d hd
      rcases List.mem_append.mp hd with hd | hd
      · rw [(List.mem_replicate.mp hd).2]; decide
      · exact hu d hd
    have hsum : ∀ (t : Nat) (u : List Char), cyclicSum t 0 ((List.replicate k '0' ++ u).map code11Value).reverse =
        cyclicSum t 0 (u.map code11Value).reverse := by
      intro t u
      rw [List.map_append, List.reverse_append, List.map_replicate, List.reverse_replicate, cyclicSum_append,
        show code11Value '0' = 0 by decide, cyclicSum_zeros, Nat.add_zero]
    have hsum2 : ∀ (t : Nat) (u : List Char), cyclicSum t 0 (0 :: ((List.replicate k '0' ++ u).map code11Value).reverse) =
        cyclicSum t 0 (0 :: (u.map code11Value).reverse) := by
      intro t u
      rw [List.map_append, List.reverse_append, List.map_replicate, List.reverse_replicate, ← List.cons_append,
        cyclicSum_append, show code11Value '0' = 0 by decide, cyclicSum_zeros, Nat.add_zero]
    have l1 : (List.replicate k '0' ++ '0' :: (m ++ '0' :: q)).length = n := by simp; omega
    have l2 : (List.replicate k '0' ++ a :: (m ++ c :: q)).length = n := by simp; omega
    obtain ⟨t, t1, t2⟩ := code11_ghost (List.replicate k '0' ++ '0' :: (m ++ '0' :: q)) (List.replicate k '0' ++ a :: (m ++ c :: q))
      (by rw [l1, l2]) (by rw [hsum]; exact h1) (by rw [hsum]; exact h2) (by rw [l1, hsum2, hsum2]; exact h3)
    refine ⟨List.replicate k '0', m, q, a, c, l2, ha, hc, _, _, _, _, t, acc _ l1 (hm _ hA), acc _ l2 (hm _ hA'),
      code11_encode_eq _ (hm _ hA), code11_encode_eq _ (hm _ hA'), ?_, ?_, ?_, ?_⟩
    · rw [readCode11_paint _ (code11_text_mem _ (hm _ hA)), t1]
    · rw [readCode11_paint _ (code11_text_mem _ (hm _ hA')), t2]
    · rw [scanCode11, readCode11_paint _ (code11_text_mem _ (hm _ hA)), Option.bind_some, verifyCode11_text]
    · rw [scanCode11, readCode11_paint _ (code11_text_mem _ (hm _ hA')), Option.bind_some, verifyCode11_text]
  by_cases h : n > 10
  · exact main (n - 9) "00000".toList "00".toList '7' '1' (by simp; omega) (by decide) (by decide) (by decide) (by decide)
      (by decide) (by decide) (fun _ => by decide)
  · exact main (n - 2) [] [] '1' '9' (by simp; omega) (by decide) (by decide) (by decide) (by decide)
      (by decide) (by decide) (fun hh => absurd hh h)

-- one check character: "19" and "00" both have check character 0
example : ∃ x x' bits bits', Code11.new "00".toList = .ok x ∧ Code11.new "19".toList = .ok x' ∧
    Code11.encode x = .ok bits ∧ Code11.encode x' = .ok bits' ∧ readCode11 bits = some "000".toList ∧
    readCode11 bits' = some "190".toList := ⟨_, _, _, _, rfl, rfl, rfl, rfl, by decide, by decide⟩

end Barcoders
