import Verif.Lemmas.Mod10

set_option autoImplicit false

namespace Barcoders
open Spec

theorem altSum_append (w : Nat) (hw : w = 1 ∨ w = 3) (l m : List Nat) :
    altSum w (l ++ m) = altSum w l + altSum (if l.length % 2 = 0 then w else 4 - w) m := by
  induction l generalizing w with
  | nil => simp [altSum]
  | cons a l ih =>
    rw [List.cons_append, altSum, altSum, ih (4 - w) (by omega), Nat.add_assoc]
    congr 3
    simp only [List.length_cons]
    split <;> split <;> omega

/-- Replacing one digit by a different one always breaks validity. -/
theorem gs1Valid_replace (p q : List Nat) (a x : Nat) (ha : a < 10) (hx : x < 10)
    (h1 : Gs1Valid (p ++ a :: q)) (h2 : Gs1Valid (p ++ x :: q)) : x = a := by
  simp only [Gs1Valid, List.reverse_append, List.reverse_cons, List.append_assoc, List.singleton_append] at h1 h2
  rw [altSum_append 1 (by omega)] at h1 h2
  simp only [altSum] at h1 h2
  generalize altSum 1 q.reverse = Q at h1 h2
  split at h1
  · simp only [Nat.one_mul] at h1 h2
    rename_i hp
    rw [if_pos hp] at h2
    simp only [Nat.one_mul] at h2
    generalize altSum (4 - 1) p.reverse = P at h1 h2
    omega
  · rename_i hp
    rw [if_neg hp] at h2
    simp only [Nat.reduceSub] at h1 h2
    generalize altSum 1 p.reverse = P at h1 h2
    omega

/-- Swapping two adjacent digits keeps validity exactly when they differ by 0 or 5. -/
theorem gs1Valid_swap (p q : List Nat) (a c : Nat) (ha : a < 10) (hc : c < 10)
    (h1 : Gs1Valid (p ++ a :: c :: q)) :
    Gs1Valid (p ++ c :: a :: q) ↔ a = c ∨ a = c + 5 ∨ c = a + 5 := by
  simp only [Gs1Valid, List.reverse_append, List.reverse_cons, List.append_assoc, List.cons_append, List.nil_append] at h1 ⊢
  rw [altSum_append 1 (by omega)] at h1 ⊢
  simp only [altSum] at h1; simp only [altSum]
  generalize altSum 1 q.reverse = Q at h1 ⊢
  split at h1
  · rename_i hp
    rw [if_pos hp]
    simp only [Nat.reduceSub, Nat.one_mul] at h1 ⊢
    generalize altSum 1 p.reverse = P at h1 ⊢
    omega
  · rename_i hp
    rw [if_neg hp]
    simp only [Nat.reduceSub] at h1 ⊢
    generalize altSum 3 p.reverse = P at h1 ⊢
    omega

/-- A leading zero does not matter. -/
theorem gs1Valid_zero_cons (ds : List Nat) : Gs1Valid (0 :: ds) ↔ Gs1Valid ds := by
  simp only [Gs1Valid, List.reverse_cons]
  rw [altSum_append 1 (by omega)]
  simp [altSum]

theorem gs1Digit_zero_cons (ds : List Nat) : gs1Digit (0 :: ds) = gs1Digit ds := by
  simp only [gs1Digit, List.reverse_cons]
  rw [altSum_append 3 (by omega)]
  simp [altSum]

end Barcoders
