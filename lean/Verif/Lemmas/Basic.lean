import Verif.Model.Helpers
import Verif.Spec.Gs1

set_option autoImplicit false

namespace Barcoders

theorem mapO_ok {α β : Type} (f : α → Outcome β) (g : α → β) (l : List α) (h : ∀ a ∈ l, f a = .ok (g a)) :
    mapO f l = .ok (l.map g) := by
  induction l with
  | nil => rfl
  | cons a l ih =>
    rw [mapO, h a (by simp), ih (fun x hx => h x (by simp [hx]))]
    rfl

theorem foldO_ok {α β : Type} (f : β → α → Outcome β) (g : β → α → β) (l : List α) (b : β)
    (h : ∀ a ∈ l, ∀ b, f b a = .ok (g b a)) : foldO f b l = .ok (l.foldl g b) := by
  induction l generalizing b with
  | nil => rfl
  | cons a l ih =>
    rw [foldO, h a (by simp), Outcome.ok_bind, ih _ (fun x hx => h x (by simp [hx]))]
    rfl

theorem foldl_append {α : Type} (e : α → List Nat) (l : List α) (i : List Nat) :
    l.foldl (fun enc c => enc ++ e c) i = i ++ l.flatMap e := by
  induction l generalizing i with
  | nil => simp
  | cons a l ih => simp [ih, List.append_assoc]

@[simp] theorem enumFrom_length {α : Type} (k : Nat) (l : List α) : (enumFrom k l).length = l.length := by
  induction l generalizing k with
  | nil => rfl
  | cons a l ih => simp [enumFrom, ih]

theorem enumFrom_append {α : Type} (k : Nat) (l m : List α) :
    enumFrom k (l ++ m) = enumFrom k l ++ enumFrom (k + l.length) m := by
  induction l generalizing k with
  | nil => simp [enumFrom]
  | cons a l ih => simp [enumFrom, ih, Nat.add_assoc, Nat.add_comm 1]

theorem idx_ok {α : Type} (l : List α) (i : Nat) (h : i < l.length) : idx l i = .ok l[i] := by
  simp [idx, h]

theorem idx_panic {α : Type} (l : List α) (i : Nat) (h : l.length ≤ i) : idx l i = .panic .bounds := by
  simp [idx, h]

theorem strLen_eq_byteLen (s : List Char) : strLen s = Spec.byteLen s := by
  unfold strLen Spec.byteLen
  induction s with
  | nil => rfl
  | cons c s ih =>
    rw [List.map_cons, List.sum_cons, ih, String.ofList_cons, String.utf8ByteSize_append]
    simp

theorem asU32_of_lt (n : Nat) (h : n < 2 ^ 32) : asU32 n = n := Nat.mod_eq_of_lt h

theorem u8_ok (b : Build) (n : Nat) (h : n < 256) : u8 b n = .ok n := by
  simp only [u8]; exact if_pos h

theorem u32_ok (b : Build) (n : Nat) (h : n < 2 ^ 32) : u32 b n = .ok n := by
  simp only [u32]; exact if_pos h

theorem one_le_utf8Size (c : Char) : 1 ≤ c.utf8Size := Char.utf8Size_pos c

theorem length_le_byteLen (s : List Char) : s.length ≤ Spec.byteLen s := by
  rw [← strLen_eq_byteLen, strLen]
  induction s with
  | nil => simp
  | cons c s ih =>
    have := one_le_utf8Size c
    simp; omega

theorem utf8Size_ascii (c : Char) (h : c.toNat < 128) : c.utf8Size = 1 := by
  apply Char.utf8Size_eq_one_iff.mpr
  have h2 : c.val.toNat < 128 := h
  have h3 : c.val ≤ 127 := by
    rw [UInt32.le_iff_toNat_le]
    simp; omega
  exact h3

theorem byteLen_ascii (s : List Char) (h : ∀ c ∈ s, c.toNat < 128) : Spec.byteLen s = s.length := by
  rw [← strLen_eq_byteLen, strLen]
  induction s with
  | nil => rfl
  | cons c s ih =>
    have ih := ih (fun x hx => h x (by simp [hx]))
    simp [utf8Size_ascii c (h c (by simp)), ih]; omega

/-- What `Parse::parse` does, for every string. -/
theorem parse_eq_mod (valid : List Char) (lo hi : Nat) (s : List Char) :
    parse valid lo hi s =
      if Spec.byteLen s % 2 ^ 32 < lo ∨ Spec.byteLen s % 2 ^ 32 > hi then .err .length
      else if ∀ c ∈ s, c ∈ valid then .ok s else .err .character := by
  unfold parse
  simp only [strLen_eq_byteLen, asU32]
  split
  · rfl
  · split
    · rename_i c hc
      have h1 := List.find?_some hc
      have h2 := List.mem_of_find?_eq_some hc
      rw [if_neg]
      intro hall
      have := hall c h2
      simp at h1
      exact h1 c this rfl
    · rename_i hn
      rw [List.find?_eq_none] at hn
      rw [if_pos]
      intro c hc
      simpa using hn c hc

/-- What `Parse::parse` does with a string below 4 GiB. -/
theorem parse_eq (valid : List Char) (lo hi : Nat) (s : List Char) (h : Spec.byteLen s < 2 ^ 32) :
    parse valid lo hi s =
      if Spec.byteLen s < lo ∨ Spec.byteLen s > hi then .err .length
      else if ∀ c ∈ s, c ∈ valid then .ok s else .err .character := by
  rw [parse_eq_mod, Nat.mod_eq_of_lt h]

theorem toNat_isDigit (c : Char) : c.isDigit = true ↔ 48 ≤ c.toNat ∧ c.toNat ≤ 57 := by
  simp only [Char.isDigit, Bool.and_eq_true, decide_eq_true_eq, ge_iff_le, UInt32.le_iff_toNat_le]
  rfl

theorem char_eq_of_toNat (c d : Char) (h : c.toNat = d.toNat) : c = d :=
  Char.toNat_inj.mp h

theorem digitChars_eq : Helpers.digitChars = ['0', '1', '2', '3', '4', '5', '6', '7', '8', '9'] := by decide

theorem mem_digitChars (c : Char) : c ∈ Helpers.digitChars ↔ c.isDigit = true := by
  constructor
  · intro h
    rw [digitChars_eq] at h
    simp only [List.mem_cons, List.not_mem_nil, or_false] at h
    rcases h with h | h | h | h | h | h | h | h | h | h <;> subst h <;> decide
  · intro h
    rw [toNat_isDigit] at h
    have h48 : c.toNat = 48 ∨ c.toNat = 49 ∨ c.toNat = 50 ∨ c.toNat = 51 ∨ c.toNat = 52 ∨ c.toNat = 53 ∨
      c.toNat = 54 ∨ c.toNat = 55 ∨ c.toNat = 56 ∨ c.toNat = 57 := by omega
    rw [digitChars_eq]
    rcases h48 with h | h | h | h | h | h | h | h | h | h
    · rw [char_eq_of_toNat c '0' h]; decide
    · rw [char_eq_of_toNat c '1' h]; decide
    · rw [char_eq_of_toNat c '2' h]; decide
    · rw [char_eq_of_toNat c '3' h]; decide
    · rw [char_eq_of_toNat c '4' h]; decide
    · rw [char_eq_of_toNat c '5' h]; decide
    · rw [char_eq_of_toNat c '6' h]; decide
    · rw [char_eq_of_toNat c '7' h]; decide
    · rw [char_eq_of_toNat c '8' h]; decide
    · rw [char_eq_of_toNat c '9' h]; decide

theorem forall_mem_digitChars (s : List Char) : (∀ c ∈ s, c ∈ Helpers.digitChars) ↔ Spec.AllDigits s := by
  simp only [mem_digitChars, Spec.AllDigits]

theorem digits_lt (s : List Char) (h : Spec.AllDigits s) : Spec.Digits (Spec.digitsOf s) := by
  intro d hd
  simp only [Spec.digitsOf, List.mem_map] at hd
  obtain ⟨c, hc, rfl⟩ := hd
  have := (toNat_isDigit c).mp (h c hc)
  simp only [Spec.digitValue, show '0'.toNat = 48 from rfl]
  omega

theorem digits_byteLen (s : List Char) (h : Spec.AllDigits s) : Spec.byteLen s = s.length :=
  byteLen_ascii s (fun c hc => by have := (toNat_isDigit c).mp (h c hc); omega)

theorem toDigits_eq (s : List Char) (h : Spec.AllDigits s) : Helpers.toDigits s = .ok (Spec.digitsOf s) := by
  unfold Helpers.toDigits
  rw [mapO_ok _ Spec.digitValue]
  · rfl
  · intro c hc
    have := (toNat_isDigit c).mp (h c hc)
    simp only [toDigit, if_pos this]
    rfl

end Barcoders
