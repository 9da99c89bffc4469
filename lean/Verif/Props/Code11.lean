import Verif.Lemmas.Code11

/-!
# Code 11 (C19-C21)
-/

set_option autoImplicit false

namespace Barcoders
open Spec

/-- C19. The complete behaviour of `Code11::new` on strings below 4 GiB. -/
theorem C19_code11_new (s : List Char) (hs : byteLen s < 2 ^ 32) :
    Code11.new s =
      if byteLen s < 1 ∨ byteLen s > 256 then .err .length
      else if ∀ c ∈ s, c ∈ code11Alphabet then .ok ⟨s⟩ else .err .character := by
  rw [code11_new, Nat.mod_eq_of_lt hs]

example : byteLen "5-".toList < 2 ^ 32 ∧ Code11.new "5-".toList = .ok ⟨"5-".toList⟩ ∧ Code11.new "5é".toList = .err .character := by
  decide

theorem code11_byteLen (s : List Char) (h : ∀ c ∈ s, c ∈ code11Alphabet) : byteLen s = s.length :=
  byteLen_ascii s (fun c hc => code11_ascii c (h c hc))

/-- C19. `Code11::new` accepts exactly 1 to 256 characters of the alphabet. -/
theorem C19_code11_accepts (s : List Char) (hs : byteLen s < 2 ^ 32) :
    (∃ x, Code11.new s = .ok x) ↔ 1 ≤ s.length ∧ s.length ≤ 256 ∧ ∀ c ∈ s, c ∈ code11Alphabet := by
  rw [C19_code11_new s hs]
  by_cases hA : ∀ c ∈ s, c ∈ code11Alphabet
  · rw [code11_byteLen s hA, if_pos hA]
    by_cases hl : s.length < 1 ∨ s.length > 256
    · rw [if_pos hl]
      exact ⟨fun ⟨_, h⟩ => (by cases h), fun h => (by omega)⟩
    · rw [if_neg hl]
      exact ⟨fun _ => ⟨by omega, by omega, hA⟩, fun _ => ⟨_, rfl⟩⟩
  · rw [if_neg hA]
    constructor
    · rintro ⟨x, h⟩
      split at h <;> cases h
    · exact fun h => absurd h.2.2 hA

example : (∀ c ∈ "123-45".toList, c ∈ code11Alphabet) ∧ 'A' ∉ code11Alphabet := by decide

/-- C19. `Code11::new` never panics, whatever the length. -/
theorem C19_code11_no_panic (s : List Char) : (Code11.new s).isPanic = false := by
  rw [code11_new]
  split
  · rfl
  · split <;> rfl

example : Code11.new "123-45".toList = .ok ⟨"123-45".toList⟩ := by decide
example : Code11.new "".toList = .err .length := by decide
example : Code11.new "NOTDIGITS".toList = .err .character := by decide

theorem code11_new_ok (s : List Char) (x : Code11.Code11) (h : Code11.new s = .ok x) :
    x = ⟨s⟩ ∧ ∀ c ∈ s, c ∈ code11Alphabet := by
  rw [code11_new] at h
  split at h
  · cases h
  · split at h
    · cases h; exact ⟨rfl, by assumption⟩
    · cases h

/-- C20. The scanner reads the data back from `Code11::new(s).encode()`, the check characters being right. -/
theorem C20_code11_scan (s : List Char) (x : Code11.Code11) (h : Code11.new s = .ok x) :
    ∃ bits, Code11.encode x = .ok bits ∧ scanCode11 bits = some s := by
  obtain ⟨rfl, hA⟩ := code11_new_ok s x h
  refine ⟨_, code11_encode_eq s hA, ?_⟩
  rw [scanCode11, readCode11_paint _ (code11_text_mem s hA), Option.bind_some, verifyCode11_text]

example : ∃ x bits, Code11.new "0-1".toList = .ok x ∧ Code11.encode x = .ok bits ∧ scanCode11 bits = some "0-1".toList :=
  ⟨_, _, rfl, rfl, by decide⟩

/-- C20. C is always shown, K exactly when the data is longer than ten characters. -/
theorem C20_code11_check_characters (s : List Char) (x : Code11.Code11) (h : Code11.new s = .ok x) :
    ∃ bits c k, Code11.encode x = .ok bits ∧
      readCode11 bits = some (s ++ c :: if s.length > 10 then [k] else []) := by
  obtain ⟨rfl, hA⟩ := code11_new_ok s x h
  refine ⟨_, code11Check 10 s, code11Check 9 (s ++ [code11Check 10 s]), code11_encode_eq s hA, ?_⟩
  rw [readCode11_paint _ (code11_text_mem s hA), code11Text]
  split <;> rfl

example : ∃ x bits, Code11.new "123-45".toList = .ok x ∧ Code11.encode x = .ok bits ∧
    readCode11 bits = some "123-455".toList ∧ scanCode11 bits = some "123-45".toList :=
  ⟨_, _, rfl, rfl, by decide, by decide⟩
example : ∃ x bits, Code11.new "93939393939".toList = .ok x ∧ Code11.encode x = .ok bits ∧
    (readCode11 bits).map List.length = some 13 ∧ scanCode11 bits = some "93939393939".toList :=
  ⟨_, _, rfl, rfl, by decide, by decide⟩

/-! ## Error detection -/

theorem code11Value_lt : ∀ c ∈ code11Alphabet, code11Value c < 11 := by decide

theorem code11Value_check (n : Nat) (s : List Char) :
    code11Value (code11Check n s) = cyclicSum n 0 (s.map code11Value).reverse % 11 := by
  have key : ∀ i < 11, code11Value (code11Alphabet.getD i ' ') = i := by decide
  exact key _ (Nat.mod_lt _ (by omega))

theorem code11Value_inj (a c : Char) (ha : a ∈ code11Alphabet) (hc : c ∈ code11Alphabet)
    (h : code11Value a = code11Value c) : a = c := by
  have ha' := List.getElem_idxOf (List.idxOf_lt_length_of_mem ha)
  have hc' := List.getElem_idxOf (List.idxOf_lt_length_of_mem hc)
  unfold code11Value at h
  rw [← ha', ← hc']
  simp only [h]

theorem verifyCode11_iff (t s : List Char) : verifyCode11 t = some s ↔ t = code11Text s := by
  constructor
  · intro h
    unfold verifyCode11 at h
    simp only [] at h
    split at h
    · rename_i hl
      split at h
      · rename_i hc
        rw [Option.some.inj h] at hc
        have := congrArg List.length hc
        simp at this
        rw [code11Text, if_neg (by omega)]
        exact hc
      · cases h
    · split at h
      · split at h
        · rename_i hl hc
          rw [Option.some.inj h] at hc
          have := congrArg List.length hc
          simp at this
          rw [code11Text, if_pos (by omega)]
          exact hc
        · cases h
      · cases h
  · rintro rfl
    exact verifyCode11_text s

theorem mul_cancel_11 (w a c : Nat) (hw : 0 < w) (hw2 : w ≤ 10) (ha : a < 11) (hc : c < 11)
    (h : (w * a) % 11 = (w * c) % 11) : a = c := by
  have inv : ∀ w ≤ 10, 0 < w → ∃ v < 11, (v * w) % 11 = 1 := by decide
  obtain ⟨v, -, hv⟩ := inv w hw2 hw
  have e : ∀ x < 11, (v * (w * x)) % 11 = x := by
    intro x hx
    rw [← Nat.mul_assoc, Nat.mul_mod, hv, Nat.one_mul, Nat.mod_mod, Nat.mod_eq_of_lt hx]
  rw [← e a ha, ← e c hc, Nat.mul_mod, h, ← Nat.mul_mod]

/-- The C check character distinguishes data that differ in one character. -/
theorem code11_data_replace (s s' p q : List Char) (a c : Char) (hs : s = p ++ a :: q) (hs' : s' = p ++ c :: q)
    (ha : a ∈ code11Alphabet) (hc : c ∈ code11Alphabet) (h : code11Check 10 s = code11Check 10 s') : c = a := by
  have h9 : cyclicSum 10 0 (s.map code11Value).reverse % 11 = cyclicSum 10 0 (s'.map code11Value).reverse % 11 := by
    rw [← code11Value_check, ← code11Value_check, h]
  rw [hs, hs'] at h9
  simp only [List.map_append, List.map_cons, List.reverse_append, List.reverse_cons, List.append_assoc,
    List.singleton_append] at h9
  rw [cyclicSum_append, cyclicSum_append, cyclicSum, cyclicSum] at h9
  have hw : ((0 + (List.map code11Value q).reverse.length) % 10 + 1) ≤ 10 := by omega
  have hw0 : 0 < ((0 + (List.map code11Value q).reverse.length) % 10 + 1) := by omega
  generalize ((0 + (List.map code11Value q).reverse.length) % 10 + 1) = w at h9 hw hw0
  generalize cyclicSum 10 0 (List.map code11Value q).reverse = Q at h9
  generalize cyclicSum 10 (0 + (List.map code11Value q).reverse.length + 1) (List.map code11Value p).reverse = P at h9
  have e : (w * code11Value c) % 11 = (w * code11Value a) % 11 := by
    generalize w * code11Value a = A at h9
    generalize w * code11Value c = C at h9
    omega
  exact code11Value_inj c a hc ha (mul_cancel_11 w _ _ hw0 hw (code11Value_lt c hc) (code11Value_lt a ha) e)

/-- Two verified texts cannot differ in exactly one character. -/
theorem code11_replace (s s' p q : List Char) (a c : Char) (hA : ∀ c ∈ s, c ∈ code11Alphabet)
    (h1 : code11Text s = p ++ a :: q) (h2 : code11Text s' = p ++ c :: q) (hc : c ∈ code11Alphabet) : c = a := by
  have hl : (code11Text s).length = (code11Text s').length := by rw [h1, h2]; simp
  unfold code11Text at h1 h2 hl
  by_cases hs : s.length > 10
  · have hs' : s'.length > 10 := by
      by_cases hs' : s'.length > 10
      · exact hs'
      · rw [if_pos hs, if_neg hs'] at hl; simp at hl; omega
    rw [if_pos hs] at h1
    rw [if_pos hs'] at h2
    rcases split_checks s p q _ _ a h1 with ⟨q0, h3, h4⟩ | ⟨h3, h4, h5⟩ | ⟨h3, h4, h5⟩
    · rcases split_checks s' p q _ _ c h2 with ⟨q0', h3', h4'⟩ | ⟨h3', h4', h5'⟩ | ⟨h3', h4', h5'⟩
      · rw [h3] at h3'
        obtain ⟨h6, h7⟩ := List.append_inj' h3' rfl
        subst h6
        have h8 : code11Check 10 s = code11Check 10 s' := by simp at h7; exact h7.1
        exact code11_data_replace s s' p q0 a c h4 h4' (hA a (by rw [h4]; simp)) hc h8
      · have := congrArg List.length h3; rw [h3'] at this; simp at this
      · have := congrArg List.length h3; rw [h3'] at this; simp at this
    · rcases split_checks s' p q _ _ c h2 with ⟨q0', h3', h4'⟩ | ⟨h3', h4', h5'⟩ | ⟨h3', h4', h5'⟩
      · have := congrArg List.length h3'; rw [h3] at this; simp at this
      · rw [h5, h5', ← h4, h4']
      · rw [h3] at h3'; cases h3'
    · rcases split_checks s' p q _ _ c h2 with ⟨q0', h3', h4'⟩ | ⟨h3', h4', h5'⟩ | ⟨h3', h4', h5'⟩
      · have := congrArg List.length h3'; rw [h3] at this; simp at this
      · rw [h3'] at h3; cases h3
      · have : s = s' ∧ code11Check 10 s = code11Check 10 s' := by
          rw [h4] at h4'
          obtain ⟨h6, h7⟩ := List.append_inj' h4' rfl
          exact ⟨h6, by simpa using h7⟩
        rw [h5, h5', this.1]
  · have hs' : ¬ s'.length > 10 := by
      intro hs'
      rw [if_neg hs, if_pos hs'] at hl; simp at hl; omega
    rw [if_neg hs] at h1
    rw [if_neg hs'] at h2
    rcases split_check s p q _ a h1 with ⟨q0, h3, h4⟩ | ⟨h3, h4, h5⟩
    · rcases split_check s' p q _ c h2 with ⟨q0', h3', h4'⟩ | ⟨h3', h4', h5'⟩
      · rw [h3] at h3'
        obtain ⟨h6, h7⟩ := List.append_inj' h3' rfl
        subst h6
        have h8 : code11Check 10 s = code11Check 10 s' := by simpa using h7
        exact code11_data_replace s s' p q0 a c h4 h4' (hA a (by rw [h4]; simp)) hc h8
      · have := congrArg List.length h3; rw [h3'] at this; simp at this
    · rcases split_check s' p q _ c h2 with ⟨q0', h3', h4'⟩ | ⟨h3', h4', h5'⟩
      · have := congrArg List.length h3'; rw [h3] at this; simp at this
      · rw [h5, h5', ← h4, h4']

/-- C21. Whatever symbol reads as a Code 11 text with exactly one character (data or check) replaced by another valid one
is rejected. -/
theorem C21_code11_single_error (s : List Char) (x : Code11.Code11) (hx : Code11.new s = .ok x)
    (bits : List Nat) (he : Code11.encode x = .ok bits) (p q : List Char) (a c : Char)
    (hr : readCode11 bits = some (p ++ a :: q)) (hc : c ∈ code11Alphabet) (hne : c ≠ a)
    (bits' : List Nat) (hr' : readCode11 bits' = some (p ++ c :: q)) : scanCode11 bits' = none := by
  obtain ⟨rfl, hA⟩ := code11_new_ok s x hx
  rw [code11_encode_eq s hA] at he
  cases he
  rw [readCode11_paint _ (code11_text_mem s hA)] at hr
  rw [scanCode11, hr', Option.bind_some]
  cases h : verifyCode11 (p ++ c :: q) with
  | none => rfl
  | some s' =>
    rw [verifyCode11_iff] at h
    exact absurd (code11_replace s s' p q a c hA (Option.some.inj hr) h.symm hc) hne

-- a symbol that reads "124-455" is rejected
example : verifyCode11 "123-455".toList = some "123-45".toList ∧ verifyCode11 "124-455".toList = none ∧
    readCode11 (paint (code11SymWidths "124-455".toList)) = some "124-455".toList := by decide

end Barcoders
