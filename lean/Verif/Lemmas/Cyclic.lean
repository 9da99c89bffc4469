import Verif.Spec.Cyclic

set_option autoImplicit false

namespace Barcoders
open Spec

theorem cyclicSum_append (n j : Nat) (l m : List Nat) :
    cyclicSum n j (l ++ m) = cyclicSum n j l + cyclicSum n (j + l.length) m := by
  induction l generalizing j with
  | nil => simp [cyclicSum]
  | cons a l ih =>
    rw [List.cons_append, cyclicSum, ih, cyclicSum, List.length_cons,
      Nat.add_assoc, Nat.add_assoc, Nat.add_comm 1 l.length]

/-- Split a text with two check characters at a position. -/
theorem split_checks (s p q : List Char) (y z a : Char) (h : s ++ [y, z] = p ++ a :: q) :
    (∃ q0, q = q0 ++ [y, z] ∧ s = p ++ a :: q0) ∨ (q = [z] ∧ p = s ∧ a = y) ∨ (q = [] ∧ p = s ++ [y] ∧ a = z) := by
  rcases List.eq_nil_or_concat q with rfl | ⟨q1, z', rfl⟩
  · right; right
    rw [List.append_cons] at h
    obtain ⟨h1, h2⟩ := List.append_inj' h rfl
    simp at h2
    exact ⟨rfl, h1.symm, h2.symm⟩
  · rw [List.concat_eq_append, List.append_cons, ← List.cons_append, ← List.append_assoc] at h
    obtain ⟨h1, h2⟩ := List.append_inj' h rfl
    have hz : z = z' := by simpa using h2
    subst hz
    rcases List.eq_nil_or_concat q1 with rfl | ⟨q2, y', rfl⟩
    · right; left
      obtain ⟨h3, h4⟩ := List.append_inj' h1 rfl
      simp at h4
      exact ⟨rfl, h3.symm, h4.symm⟩
    · left
      rw [List.concat_eq_append, ← List.cons_append, ← List.append_assoc] at h1
      obtain ⟨h3, h4⟩ := List.append_inj' h1 rfl
      have hy : y = y' := by simpa using h4
      subst hy
      exact ⟨q2, by simp, h3⟩

/-- Split a text with one check character at a position. -/
theorem split_check (s p q : List Char) (z a : Char) (h : s ++ [z] = p ++ a :: q) :
    (∃ q0, q = q0 ++ [z] ∧ s = p ++ a :: q0) ∨ (q = [] ∧ p = s ∧ a = z) := by
  rcases List.eq_nil_or_concat q with rfl | ⟨q1, z', rfl⟩
  · right
    obtain ⟨h1, h2⟩ := List.append_inj' h rfl
    simp at h2
    exact ⟨rfl, h1.symm, h2.symm⟩
  · left
    rw [List.concat_eq_append, ← List.cons_append, ← List.append_assoc] at h
    obtain ⟨h1, h2⟩ := List.append_inj' h rfl
    have hz : z = z' := by simpa using h2
    subst hz
    exact ⟨q1, by simp, h1⟩

end Barcoders
