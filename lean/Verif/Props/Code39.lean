import Verif.Lemmas.Code39

/-!
# Code 39 (C13-C15)
-/

set_option autoImplicit false

namespace Barcoders
open Spec

/-- C13. The complete behaviour of `Code39::new` on strings below 4 GiB. -/
theorem C13_code39_new (s : List Char) (hs : byteLen s < 2 ^ 32) :
    Code39.new s =
      if byteLen s < 1 ∨ byteLen s > 256 then .err .length
      else if ∀ c ∈ s, c ∈ code39Alphabet then .ok ⟨s, false⟩ else .err .character := by
  rw [Code39.new, code39_init, Nat.mod_eq_of_lt hs]

example : Code39.new "A-1".toList = .ok ⟨"A-1".toList, false⟩ ∧ Code39.new "a".toList = .err .character := by decide

/-- C13. The complete behaviour of `Code39::with_checksum` on strings below 4 GiB. -/
theorem C13_code39_with_checksum (s : List Char) (hs : byteLen s < 2 ^ 32) :
    Code39.withChecksum s =
      if byteLen s < 1 ∨ byteLen s > 256 then .err .length
      else if ∀ c ∈ s, c ∈ code39Alphabet then .ok ⟨s, true⟩ else .err .character := by
  rw [Code39.withChecksum, code39_init, Nat.mod_eq_of_lt hs]

example : Code39.withChecksum "A-1".toList = .ok ⟨"A-1".toList, true⟩ ∧ Code39.withChecksum "".toList = .err .length := by decide

theorem code39_byteLen (s : List Char) (h : ∀ c ∈ s, c ∈ code39Alphabet) : byteLen s = s.length :=
  byteLen_ascii s (fun c hc => code39_ascii c (h c hc))

/-- C13. Both constructors accept exactly 1 to 256 characters of the alphabet. -/
theorem C13_code39_accepts (s : List Char) (hs : byteLen s < 2 ^ 32) :
    ((∃ x, Code39.new s = .ok x) ↔ 1 ≤ s.length ∧ s.length ≤ 256 ∧ ∀ c ∈ s, c ∈ code39Alphabet) ∧
    ((∃ x, Code39.withChecksum s = .ok x) ↔ 1 ≤ s.length ∧ s.length ≤ 256 ∧ ∀ c ∈ s, c ∈ code39Alphabet) := by
  rw [C13_code39_new s hs, C13_code39_with_checksum s hs]
  by_cases hA : ∀ c ∈ s, c ∈ code39Alphabet
  · rw [code39_byteLen s hA, if_pos hA, if_pos hA]
    by_cases hl : s.length < 1 ∨ s.length > 256
    · rw [if_pos hl, if_pos hl]
      constructor <;> exact ⟨fun ⟨_, h⟩ => (by cases h), fun h => (by omega)⟩
    · rw [if_neg hl, if_neg hl]
      constructor <;> exact ⟨fun _ => ⟨by omega, by omega, hA⟩, fun _ => ⟨_, rfl⟩⟩
  · rw [if_neg hA, if_neg hA]
    constructor <;>
    · constructor
      · rintro ⟨x, h⟩
        split at h <;> cases h
      · exact fun h => absurd h.2.2 hA

example : (∀ c ∈ "CODE 39".toList, c ∈ code39Alphabet) ∧ '*' ∉ code39Alphabet := by decide

/-- C13. The constructors never panic, whatever the length. -/
theorem C13_code39_no_panic (s : List Char) :
    (Code39.new s).isPanic = false ∧ (Code39.withChecksum s).isPanic = false := by
  rw [Code39.new, Code39.withChecksum, code39_init, code39_init]
  constructor <;>
  · split
    · rfl
    · split <;> rfl

example : Code39.new "1234".toList = .ok ⟨"1234".toList, false⟩ := by decide
example : Code39.withChecksum "AB-. $/+%".toList = .ok ⟨"AB-. $/+%".toList, true⟩ := by decide
example : Code39.new "".toList = .err .length := by decide
example : Code39.new "1212s".toList = .err .character := by decide
example : Code39.new "12*3".toList = .err .character := by decide

theorem code39_init_ok (s : List Char) (k : Bool) (x : Code39.Code39) (h : Code39.init s k = .ok x) :
    x = ⟨s, k⟩ ∧ ∀ c ∈ s, c ∈ code39Alphabet := by
  rw [code39_init] at h
  split at h
  · cases h
  · split at h
    · cases h; exact ⟨rfl, by assumption⟩
    · cases h

/-- C14. The scanner reads the data back from `Code39::new(s).encode()`. -/
theorem C14_code39_scan (s : List Char) (x : Code39.Code39) (h : Code39.new s = .ok x) :
    ∃ bits, Code39.encode x = .ok bits ∧ scanCode39 bits = some s := by
  obtain ⟨rfl, hA⟩ := code39_init_ok s false x h
  exact ⟨_, code39_encode_eq _ hA, scanCode39_paint _ hA⟩

example : ∃ x bits, Code39.new "A-1".toList = .ok x ∧ Code39.encode x = .ok bits ∧ scanCode39 bits = some "A-1".toList :=
  ⟨_, _, rfl, rfl, by decide⟩

theorem checked_of_scan (bits : List Nat) (s : List Char) (h : scanCode39 bits = some (s ++ [code39Check s])) :
    scanCode39Checked bits = some s := by
  rw [scanCode39Checked, h]
  simp

/-- C14. With checksum, the plain scanner reads the data and the check character, the verifying scanner the data. -/
theorem C14_code39_checksum_scan (s : List Char) (x : Code39.Code39) (h : Code39.withChecksum s = .ok x) :
    ∃ bits, Code39.encode x = .ok bits ∧ scanCode39 bits = some (s ++ [code39Check s]) ∧
      scanCode39Checked bits = some s := by
  obtain ⟨rfl, hA⟩ := code39_init_ok s true x h
  have hs := scanCode39_paint _ (code39_text_mem ⟨s, true⟩ hA)
  exact ⟨_, code39_encode_eq _ hA, hs, checked_of_scan _ _ hs⟩

example : ∃ x bits, Code39.withChecksum "A-1".toList = .ok x ∧ Code39.encode x = .ok bits ∧
    scanCode39Checked bits = some "A-1".toList := ⟨_, _, rfl, rfl, by decide⟩

/-- C14. Setting the public `checksum` field afterwards is the same as choosing the constructor. -/
theorem C14_code39_checksum_field (s : List Char) (k : Bool) (x : Code39.Code39)
    (h : Code39.new s = .ok x ∨ Code39.withChecksum s = .ok x) :
    ∃ bits, Code39.encode { x with checksum := k } = .ok bits ∧
      scanCode39 bits = some (if k then s ++ [code39Check s] else s) := by
  have : ∃ k', Code39.init s k' = .ok x := by
    rcases h with h | h
    · exact ⟨false, h⟩
    · exact ⟨true, h⟩
  obtain ⟨k', h⟩ := this
  obtain ⟨rfl, hA⟩ := code39_init_ok s k' x h
  refine ⟨_, code39_encode_eq ⟨s, k⟩ hA, ?_⟩
  rw [scanCode39_paint _ (code39_text_mem ⟨s, k⟩ hA)]
  rfl

example : ∃ x bits, Code39.withChecksum "CODE 39".toList = .ok x ∧ Code39.encode x = .ok bits ∧
    scanCode39 bits = some "CODE 39R".toList := ⟨_, _, rfl, rfl, by decide⟩

/-! ## Error detection -/

theorem code39Value_lt : ∀ c ∈ code39Alphabet, code39Value c < 43 := by decide

theorem code39Value_check (s : List Char) : code39Value (code39Check s) = (s.map code39Value).sum % 43 := by
  have key : ∀ i < 43, code39Value (code39Alphabet.getD i ' ') = i := by decide
  exact key _ (Nat.mod_lt _ (by omega))

theorem code39Value_inj (a c : Char) (ha : a ∈ code39Alphabet) (hc : c ∈ code39Alphabet)
    (h : code39Value a = code39Value c) : a = c := by
  have ha' := List.getElem_idxOf (List.idxOf_lt_length_of_mem ha)
  have hc' := List.getElem_idxOf (List.idxOf_lt_length_of_mem hc)
  unfold code39Value at h
  rw [← ha', ← hc']
  simp only [h]

/-- The verifying scanner accepts a reading iff its last character is the check character of the others. -/
theorem code39_checked_iff (bits : List Nat) (t s : List Char) (h : scanCode39 bits = some t) :
    scanCode39Checked bits = some s ↔ t = s ++ [code39Check s] := by
  rw [scanCode39Checked, h]
  simp only [Option.bind_eq_bind, Option.bind_some]
  constructor
  · intro h1
    split at h1
    · rename_i hc
      have := Option.some.inj h1
      rw [this] at hc
      obtain ⟨t0, h0⟩ := List.getLast?_eq_some_iff.mp hc.2
      rw [h0] at this
      rw [List.dropLast_concat] at this
      rw [h0, this]
    · cases h1
  · intro h1
    subst h1
    simp

/-- C15. Whatever symbol reads as a checksummed text with exactly one character (data or check) replaced by another
valid one is rejected by the verifying scanner. -/
theorem C15_code39_single_error (s : List Char) (x : Code39.Code39) (hx : Code39.withChecksum s = .ok x)
    (bits : List Nat) (he : Code39.encode x = .ok bits) (p q : List Char) (a c : Char)
    (hr : scanCode39 bits = some (p ++ a :: q)) (hc : c ∈ code39Alphabet) (hne : c ≠ a)
    (bits' : List Nat) (hr' : scanCode39 bits' = some (p ++ c :: q)) : scanCode39Checked bits' = none := by
  obtain ⟨bits0, he0, h1, -⟩ := C14_code39_checksum_scan s x hx
  rw [he] at he0
  cases he0
  obtain ⟨-, hA⟩ := code39_init_ok s true x hx
  rw [h1] at hr
  have hr := Option.some.inj hr
  cases hq : scanCode39Checked bits' with
  | none => rfl
  | some s' =>
    exfalso
    rw [code39_checked_iff bits' _ s' hr'] at hq
    rcases List.eq_nil_or_concat q with rfl | ⟨q0, z, rfl⟩
    · -- the check character itself is replaced
      obtain ⟨rfl, h2⟩ := List.append_inj' hr (by rfl)
      obtain ⟨rfl, h3⟩ := List.append_inj' hq (by rfl)
      cases h2; cases h3
      exact hne rfl
    · rw [List.concat_eq_append] at hr hq
      rw [← List.cons_append, ← List.append_assoc] at hr hq
      obtain ⟨h2, h3⟩ := List.append_inj' hr (by rfl)
      obtain ⟨h4, h5⟩ := List.append_inj' hq (by rfl)
      have h6 : code39Check s = code39Check s' := by simpa using h3.trans h5
      have h7 : (s.map code39Value).sum % 43 = (s'.map code39Value).sum % 43 := by
        rw [← code39Value_check, ← code39Value_check, h6]
      have ha : a ∈ code39Alphabet := hA a (by rw [h2]; simp)
      rw [h2, ← h4] at h7
      simp only [List.map_append, List.map_cons, List.sum_append, List.sum_cons] at h7
      have e1 := code39Value_lt a ha
      have e2 := code39Value_lt c hc
      exact hne (code39Value_inj c a hc ha (by omega))

/-- C15. The check character does not depend on the order of the data. -/
theorem C15_code39_check_order (s t : List Char) (hp : s.Perm t) (x y : Code39.Code39)
    (hx : Code39.withChecksum s = .ok x) (hy : Code39.withChecksum t = .ok y) :
    ∃ bits bits' k, Code39.encode x = .ok bits ∧ Code39.encode y = .ok bits' ∧
      scanCode39 bits = some (s ++ [k]) ∧ scanCode39 bits' = some (t ++ [k]) := by
  obtain ⟨bits, h1, h2, -⟩ := C14_code39_checksum_scan s x hx
  obtain ⟨bits', h3, h4, -⟩ := C14_code39_checksum_scan t y hy
  refine ⟨bits, bits', _, h1, h3, h2, ?_⟩
  rw [h4, code39Check, code39Check, (hp.map code39Value).sum_nat]

-- the symbol of "AB" + check "L", and the symbol of "AC" + "L": the latter is rejected
example : ∃ x y bits bits', Code39.withChecksum "AB".toList = .ok x ∧ Code39.encode x = .ok bits ∧
    scanCode39 bits = some ("A".toList ++ 'B' :: "L".toList) ∧
    Code39.new "ACL".toList = .ok y ∧ Code39.encode y = .ok bits' ∧
    scanCode39 bits' = some ("A".toList ++ 'C' :: "L".toList) ∧ scanCode39Checked bits' = none :=
  ⟨_, _, _, _, rfl, rfl, by decide, rfl, rfl, by decide, by decide⟩

end Barcoders
