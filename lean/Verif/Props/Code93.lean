import Verif.Lemmas.Code93

/-!
# Code 93 (C16-C18)
-/

set_option autoImplicit false

namespace Barcoders
open Spec

/-- C16. The complete behaviour of `Code93::new` on strings below 4 GiB. -/
theorem C16_code93_new (s : List Char) (hs : byteLen s < 2 ^ 32) :
    Code93.new s =
      if byteLen s < 1 ∨ byteLen s > 256 then .err .length
      else if ∀ c ∈ s, c ∈ code93Alphabet then .ok ⟨s⟩ else .err .character := by
  rw [code93_new, Nat.mod_eq_of_lt hs]

example : Code93.new "A(B".toList = .ok ⟨"A(B".toList⟩ ∧ Code93.new "A*".toList = .err .character := by decide

theorem code93_byteLen (s : List Char) (h : ∀ c ∈ s, c ∈ code93Alphabet) : byteLen s = s.length :=
  byteLen_ascii s (fun c hc => code93_ascii c (h c hc))

/-- C16. `Code93::new` accepts exactly 1 to 256 characters of the alphabet. -/
theorem C16_code93_accepts (s : List Char) (hs : byteLen s < 2 ^ 32) :
    (∃ x, Code93.new s = .ok x) ↔ 1 ≤ s.length ∧ s.length ≤ 256 ∧ ∀ c ∈ s, c ∈ code93Alphabet := by
  rw [C16_code93_new s hs]
  by_cases hA : ∀ c ∈ s, c ∈ code93Alphabet
  · rw [code93_byteLen s hA, if_pos hA]
    by_cases hl : s.length < 1 ∨ s.length > 256
    · rw [if_pos hl]
      exact ⟨fun ⟨_, h⟩ => (by cases h), fun h => (by omega)⟩
    · rw [if_neg hl]
      exact ⟨fun _ => ⟨by omega, by omega, hA⟩, fun _ => ⟨_, rfl⟩⟩
  · rw [if_neg hA]
    constructor
    · rintro ⟨x, h⟩
      split at h <;> cases h
    · exact fun h => absurd h.2.2 hA

example : (∀ c ∈ "TEST93 ([])".toList, c ∈ code93Alphabet) ∧ 'a' ∉ code93Alphabet := by decide

/-- C16. `Code93::new` never panics, whatever the length. -/
theorem C16_code93_no_panic (s : List Char) : (Code93.new s).isPanic = false := by
  rw [code93_new]
  split
  · rfl
  · split <;> rfl

example : Code93.new "TEST93 ([])".toList = .ok ⟨"TEST93 ([])".toList⟩ := by decide
example : Code93.new "".toList = .err .length := by decide
example : Code93.new "lowercase".toList = .err .character := by decide

theorem code93_new_ok (s : List Char) (x : Code93.Code93) (h : Code93.new s = .ok x) :
    x = ⟨s⟩ ∧ ∀ c ∈ s, c ∈ code93Alphabet := by
  rw [code93_new] at h
  split at h
  · cases h
  · split at h
    · cases h; exact ⟨rfl, by assumption⟩
    · cases h

/-- C17. The scanner reads the data back from `Code93::new(s).encode()`, both check characters being right. -/
theorem C17_code93_scan (s : List Char) (x : Code93.Code93) (h : Code93.new s = .ok x) :
    ∃ bits, Code93.encode x = .ok bits ∧ scanCode93 bits = some s := by
  obtain ⟨rfl, hA⟩ := code93_new_ok s x h
  refine ⟨_, code93_encode_eq s hA, ?_⟩
  rw [scanCode93, readCode93_paint _ (code93_text_mem s hA), Option.bind_some, verifyCode93_text]

example : ∃ x bits, Code93.new "TEST93".toList = .ok x ∧ Code93.encode x = .ok bits ∧
    readCode93 bits = some "TEST93+6".toList ∧ scanCode93 bits = some "TEST93".toList :=
  ⟨_, _, rfl, rfl, by decide, by decide⟩

/-! ## Error detection -/

theorem code93Value_lt : ∀ c ∈ code93Alphabet, code93Value c < 47 := by decide

theorem code93Value_check (n : Nat) (s : List Char) :
    code93Value (code93Check n s) = cyclicSum n 0 (s.map code93Value).reverse % 47 := by
  have key : ∀ i < 47, code93Value (code93Alphabet.getD i ' ') = i := by decide
  exact key _ (Nat.mod_lt _ (by omega))

theorem code93Value_inj (a c : Char) (ha : a ∈ code93Alphabet) (hc : c ∈ code93Alphabet)
    (h : code93Value a = code93Value c) : a = c := by
  have ha' := List.getElem_idxOf (List.idxOf_lt_length_of_mem ha)
  have hc' := List.getElem_idxOf (List.idxOf_lt_length_of_mem hc)
  unfold code93Value at h
  rw [← ha', ← hc']
  simp only [h]

theorem verifyCode93_iff (t s : List Char) : verifyCode93 t = some s ↔ t = code93Text s := by
  constructor
  · intro h
    unfold verifyCode93 at h
    simp only [] at h
    split at h
    · rename_i hc
      have := Option.some.inj h
      rw [this] at hc
      exact hc.2
    · cases h
  · rintro rfl
    exact verifyCode93_text s

theorem mul_cancel_47 (w a c : Nat) (hw : 0 < w) (hw2 : w ≤ 20) (ha : a < 47) (hc : c < 47)
    (h : (w * a) % 47 = (w * c) % 47) : a = c := by
  have inv : ∀ w ≤ 20, 0 < w → ∃ v < 47, (v * w) % 47 = 1 := by decide
  obtain ⟨v, -, hv⟩ := inv w hw2 hw
  have e : ∀ x < 47, (v * (w * x)) % 47 = x := by
    intro x hx
    rw [← Nat.mul_assoc, Nat.mul_mod, hv, Nat.one_mul, Nat.mod_mod, Nat.mod_eq_of_lt hx]
  rw [← e a ha, ← e c hc, Nat.mul_mod, h, ← Nat.mul_mod]

/-- C18. A verified text with exactly one character (data or check) replaced by another valid one is not verified. -/
theorem code93_replace (s s' p q : List Char) (a c : Char) (hA : ∀ c ∈ s, c ∈ code93Alphabet)
    (h1 : code93Text s = p ++ a :: q) (h2 : code93Text s' = p ++ c :: q) (hc : c ∈ code93Alphabet) : c = a := by
  unfold code93Text at h1 h2
  rcases split_checks s p q _ _ a h1 with ⟨q0, h3, h4⟩ | ⟨h3, h4, h5⟩ | ⟨h3, h4, h5⟩
  · rcases split_checks s' p q _ _ c h2 with ⟨q0', h3', h4'⟩ | ⟨h3', h4', h5'⟩ | ⟨h3', h4', h5'⟩
    · rw [h3] at h3'
      obtain ⟨h6, h7⟩ := List.append_inj' h3' rfl
      subst h6
      have h8 : code93Check 20 s = code93Check 20 s' := by simp at h7; exact h7.1
      have h9 : cyclicSum 20 0 (s.map code93Value).reverse % 47 = cyclicSum 20 0 (s'.map code93Value).reverse % 47 := by
        rw [← code93Value_check, ← code93Value_check, h8]
      have ha : a ∈ code93Alphabet := hA a (by rw [h4]; simp)
      rw [h4, h4'] at h9
      simp only [List.map_append, List.map_cons, List.reverse_append, List.reverse_cons, List.append_assoc,
        List.singleton_append] at h9
      rw [cyclicSum_append, cyclicSum_append, cyclicSum, cyclicSum] at h9
      have hw : ((0 + (List.map code93Value q0).reverse.length) % 20 + 1) ≤ 20 := by omega
      have hw0 : 0 < ((0 + (List.map code93Value q0).reverse.length) % 20 + 1) := by omega
      generalize ((0 + (List.map code93Value q0).reverse.length) % 20 + 1) = w at h9 hw hw0
      generalize cyclicSum 20 0 (List.map code93Value q0).reverse = Q at h9
      generalize cyclicSum 20 (0 + (List.map code93Value q0).reverse.length + 1) (List.map code93Value p).reverse = P at h9
      have e : (w * code93Value c) % 47 = (w * code93Value a) % 47 := by
        generalize w * code93Value a = A at h9
        generalize w * code93Value c = C at h9
        omega
      exact code93Value_inj c a hc ha (mul_cancel_47 w _ _ hw0 hw (code93Value_lt c hc) (code93Value_lt a ha) e)
    · have := congrArg List.length h3; rw [h3'] at this; simp at this
    · have := congrArg List.length h3; rw [h3'] at this; simp at this
  · rcases split_checks s' p q _ _ c h2 with ⟨q0', h3', h4'⟩ | ⟨h3', h4', h5'⟩ | ⟨h3', h4', h5'⟩
    · have := congrArg List.length h3'; rw [h3] at this; simp at this
    · rw [h5, h5', ← h4, h4']
    · rw [h3] at h3'; cases h3'
  · rcases split_checks s' p q _ _ c h2 with ⟨q0', h3', h4'⟩ | ⟨h3', h4', h5'⟩ | ⟨h3', h4', h5'⟩
    · have := congrArg List.length h3'; rw [h3] at this; simp at this
    · rw [h3'] at h3; cases h3
    · have : s = s' ∧ code93Check 20 s = code93Check 20 s' := by
        rw [h4] at h4'
        obtain ⟨h6, h7⟩ := List.append_inj' h4' rfl
        exact ⟨h6, by simpa using h7⟩
      rw [h5, h5', this.1]

/-- C18. Whatever symbol reads as a Code 93 text with exactly one character replaced by another valid one is rejected. -/
theorem C18_code93_single_error (s : List Char) (x : Code93.Code93) (hx : Code93.new s = .ok x)
    (bits : List Nat) (he : Code93.encode x = .ok bits) (p q : List Char) (a c : Char)
    (hr : readCode93 bits = some (p ++ a :: q)) (hc : c ∈ code93Alphabet) (hne : c ≠ a)
    (bits' : List Nat) (hr' : readCode93 bits' = some (p ++ c :: q)) : scanCode93 bits' = none := by
  obtain ⟨rfl, hA⟩ := code93_new_ok s x hx
  rw [code93_encode_eq s hA] at he
  cases he
  rw [readCode93_paint _ (code93_text_mem s hA)] at hr
  rw [scanCode93, hr', Option.bind_some]
  cases h : verifyCode93 (p ++ c :: q) with
  | none => rfl
  | some s' =>
    rw [verifyCode93_iff] at h
    exact absurd (code93_replace s s' p q a c hA (Option.some.inj hr) h.symm hc) hne

example : ∃ x bits, Code93.new "TEST93".toList = .ok x ∧ Code93.encode x = .ok bits ∧
    readCode93 bits = some ("TE".toList ++ 'S' :: "T93+6".toList) ∧
    readCode93 (paint (code93SymWidths "TEXT93+6".toList)) = some ("TE".toList ++ 'X' :: "T93+6".toList) ∧
    scanCode93 (paint (code93SymWidths "TEXT93+6".toList)) = none :=
  ⟨_, _, rfl, rfl, by decide, by decide, by decide⟩

/-- C18. Whatever symbol reads as a Code 93 text with two unequal adjacent data characters exchanged is rejected. -/
theorem C18_code93_transposition (s : List Char) (x : Code93.Code93) (hx : Code93.new s = .ok x)
    (p q : List Char) (a c : Char) (hs : s = p ++ a :: c :: q) (hne : c ≠ a)
    (bits : List Nat) (he : Code93.encode x = .ok bits) (y z : Char) (hr : readCode93 bits = some (s ++ [y, z]))
    (bits' : List Nat) (hr' : readCode93 bits' = some (p ++ c :: a :: q ++ [y, z])) : scanCode93 bits' = none := by
  obtain ⟨rfl, hA⟩ := code93_new_ok s x hx
  rw [code93_encode_eq s hA] at he
  cases he
  rw [readCode93_paint _ (code93_text_mem s hA)] at hr
  have hr := Option.some.inj hr
  rw [scanCode93, hr', Option.bind_some]
  cases h : verifyCode93 (p ++ c :: a :: q ++ [y, z]) with
  | none => rfl
  | some s' =>
    exfalso
    rw [verifyCode93_iff] at h
    unfold code93Text at h hr
    obtain ⟨h1, h2⟩ := List.append_inj' h rfl
    obtain ⟨-, h3⟩ := List.append_inj' hr rfl
    have h8 : code93Check 20 s = code93Check 20 s' := by
      simp at h2 h3
      rw [h3.1, h2.1]
    have h9 : cyclicSum 20 0 (s.map code93Value).reverse % 47 = cyclicSum 20 0 (s'.map code93Value).reverse % 47 := by
      rw [← code93Value_check, ← code93Value_check, h8]
    have ha : a ∈ code93Alphabet := hA a (by rw [hs]; simp)
    have hc : c ∈ code93Alphabet := hA c (by rw [hs]; simp)
    rw [hs, ← h1] at h9
    simp only [List.map_append, List.map_cons, List.reverse_append, List.reverse_cons, List.append_assoc,
      List.cons_append, List.nil_append] at h9
    rw [cyclicSum_append, cyclicSum_append] at h9
    simp only [cyclicSum] at h9
    generalize (0 + (List.map code93Value q).reverse.length) = j at h9
    generalize cyclicSum 20 0 (List.map code93Value q).reverse = Q at h9
    generalize cyclicSum 20 (j + 1 + 1) (List.map code93Value p).reverse = P at h9
    apply hne
    apply code93Value_inj c a hc ha
    have l1 := code93Value_lt a ha
    have l2 := code93Value_lt c hc
    generalize code93Value a = A at h9 l1 ⊢
    generalize code93Value c = C at h9 l2 ⊢
    by_cases hj : j % 20 = 19
    · rw [show (j + 1) % 20 = 0 by omega, hj] at h9
      omega
    · rw [show (j + 1) % 20 = j % 20 + 1 by omega, Nat.succ_mul (j % 20 + 1), Nat.succ_mul (j % 20 + 1)] at h9
      generalize (j % 20 + 1) * A = wA at h9
      generalize (j % 20 + 1) * C = wC at h9
      omega

-- "TEST93" has check characters "+6"; a symbol reading "TSET93+6" or "TEXT93+6" is rejected
example : verifyCode93 "TEST93+6".toList = some "TEST93".toList ∧ verifyCode93 "TSET93+6".toList = none ∧
    verifyCode93 "TEXT93+6".toList = none ∧ readCode93 (paint (code93SymWidths "TSET93+6".toList)) = some "TSET93+6".toList :=
  by decide

end Barcoders
