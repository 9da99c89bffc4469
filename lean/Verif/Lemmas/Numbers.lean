import Verif.Lemmas.Basic

set_option autoImplicit false

namespace Barcoders

/-- A character for a digit. -/
theorem natDigitChar_spec : ∀ d < 10, (Nat.digitChar d).isDigit = true ∧ (Nat.digitChar d).toNat - 48 = d := by decide

/-- Reading decimal digits. -/
def readDigits (n : Nat) (l : List Char) : Nat := l.foldl (fun a c => 10 * a + (c.toNat - 48)) n

/-- The decimal digits of a number: digits only, the value, no leading zero. -/
theorem showNat_spec (n : Nat) :
    (∀ c ∈ showNat n, c.isDigit = true) ∧ readDigits 0 (showNat n) = n ∧ showNat n ≠ [] ∧
    (n = 0 → showNat n = ['0']) ∧ (0 < n → ∀ c ∈ (showNat n).head?, 0 < c.toNat - 48) := by
  induction n using Nat.strongRecOn with
  | _ n ih =>
    by_cases hn : n < 10
    · have h := Nat.toDigits_of_lt_base hn
      have hs := natDigitChar_spec n hn
      unfold showNat
      rw [h]
      refine ⟨by simpa using hs.1, by simp [readDigits, hs.2], by simp, ?_, ?_⟩
      · rintro rfl; rfl
      · intro h0 c hc
        simp only [List.head?_cons, Option.mem_def, Option.some.injEq] at hc
        rw [← hc, hs.2]
        exact h0
    · have h := Nat.toDigits_of_base_le (b := 10) (by omega) (Nat.le_of_not_lt hn)
      obtain ⟨h1, h2, h3, _, h5⟩ := ih (n / 10) (by omega)
      have hs := natDigitChar_spec (n % 10) (by omega)
      unfold showNat at *
      rw [h]
      refine ⟨?_, ?_, by simp, by omega, ?_⟩
      · intro c hc
        rw [List.mem_append, List.mem_singleton] at hc
        rcases hc with hc | rfl
        · exact h1 c hc
        · exact hs.1
      · unfold readDigits at *
        rw [List.foldl_append, h2]
        simp only [List.foldl_cons, List.foldl_nil, hs.2]
        omega
      · intro _ c hc
        cases hd : Nat.toDigits 10 (n / 10) with
        | nil => exact absurd hd h3
        | cons a l =>
          rw [hd] at hc h5
          simp only [List.cons_append, List.head?_cons, Option.mem_def, Option.some.injEq] at hc
          exact h5 (by omega) c (by simp [hc])

end Barcoders
