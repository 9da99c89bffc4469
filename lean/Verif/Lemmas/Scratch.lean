import Verif.Spec.Scratch

/-!
# Where two rows of characters differ
-/

set_option autoImplicit false

namespace Barcoders
open Spec

/-- Length of the common beginning of two rows. -/
def lead : List Nat → List Nat → Nat
  | x :: xs, y :: ys => if x = y then lead xs ys + 1 else 0
  | _, _ => 0

theorem lead_append_same (p x y : List Nat) : lead (p ++ x) (p ++ y) = p.length + lead x y := by
  induction p with
  | nil => simp
  | cons a p ih => simp only [List.cons_append, lead, ih, List.length_cons, if_true]; omega

theorem lead_append_ne (a a' x y : List Nat) (hl : a.length = a'.length) (hne : a ≠ a') :
    lead (a ++ x) (a' ++ y) = lead a a' := by
  induction a generalizing a' with
  | nil => cases a' with
    | nil => exact absurd rfl hne
    | cons => simp at hl
  | cons c a ih => cases a' with
    | nil => simp at hl
    | cons c' a' =>
      simp only [List.cons_append, lead]
      by_cases h : c = c'
      · subst h
        rw [if_pos rfl, if_pos rfl, ih a' (by simpa using hl) (by rintro rfl; exact hne rfl)]
      · rw [if_neg h, if_neg h]

theorem scratched_lead (n : Nat) (ms ms' : List Nat) (h : Scratched n ms ms') :
    ms.length = ms'.length ∧ ms.length ≤ n + lead ms ms' + lead ms.reverse ms'.reverse := by
  obtain ⟨u, v, v', w, rfl, rfl, hl, hn⟩ := h
  refine ⟨by simp [hl], ?_⟩
  have h1 : u.length ≤ lead (u ++ v ++ w) (u ++ v' ++ w) := by
    rw [List.append_assoc, List.append_assoc, lead_append_same]; omega
  have h2 : w.length ≤ lead (u ++ v ++ w).reverse (u ++ v' ++ w).reverse := by
    rw [List.reverse_append (bs := w), List.reverse_append (bs := w), lead_append_same, List.length_reverse]; omega
  simp only [List.length_append]
  omega

theorem first_diff {α : Type} [DecidableEq α] (l m : List α) (hl : l.length = m.length) (hne : l ≠ m) :
    ∃ P a a' R R', l = P ++ a :: R ∧ m = P ++ a' :: R' ∧ a ≠ a' ∧ R.length = R'.length := by
  induction l generalizing m with
  | nil => cases m with
    | nil => exact absurd rfl hne
    | cons => simp at hl
  | cons x l ih => cases m with
    | nil => simp at hl
    | cons y m =>
      by_cases h : x = y
      · subst h
        obtain ⟨P, a, a', R, R', h1, h2, h3, h4⟩ := ih m (by simpa using hl) (by rintro rfl; exact hne rfl)
        exact ⟨x :: P, a, a', R, R', by rw [h1]; rfl, by rw [h2]; rfl, h3, h4⟩
      · exact ⟨[], x, y, l, m, rfl, rfl, h, by simpa using hl⟩

theorem last_diff {α : Type} [DecidableEq α] (l m : List α) (hl : l.length = m.length) (hne : l ≠ m) :
    ∃ B c B' c' Q, l = B ++ c :: Q ∧ m = B' ++ c' :: Q ∧ c ≠ c' ∧ B.length = B'.length := by
  obtain ⟨P, a, a', R, R', h1, h2, h3, h4⟩ := first_diff l.reverse m.reverse (by simpa using hl) (by simpa using hne)
  refine ⟨R.reverse, a, R'.reverse, a', P.reverse, ?_, ?_, h3, by simpa using h4⟩
  · rw [← List.reverse_reverse l, h1]; simp
  · rw [← List.reverse_reverse m, h2]; simp

/-- Two texts of the same length are equal, or differ in one place, or have a first and a last difference. -/
theorem diff_cases {α : Type} [DecidableEq α] (l m : List α) (hl : l.length = m.length) (hne : l ≠ m) :
    (∃ P a a' Q, l = P ++ a :: Q ∧ m = P ++ a' :: Q ∧ a ≠ a') ∨
    ∃ P a a' B B' c c' Q, l = P ++ a :: (B ++ c :: Q) ∧ m = P ++ a' :: (B' ++ c' :: Q) ∧ a ≠ a' ∧ c ≠ c' ∧
      B.length = B'.length := by
  obtain ⟨P, a, a', R, R', rfl, rfl, h3, h4⟩ := first_diff l m hl hne
  by_cases h : R = R'
  · subst h
    exact Or.inl ⟨P, a, a', R, rfl, rfl, h3⟩
  · obtain ⟨B, c, B', c', Q, rfl, rfl, h5, h6⟩ := last_diff R R' h4 h
    exact Or.inr ⟨P, a, a', B, B', c, c', Q, rfl, rfl, h3, h5, h6⟩

/-- If two rows of characters differ by a scratch, and in more than one character, then the end of the first different
character, the characters between and the beginning of the last different character lie in the scratch. -/
theorem scratched_span {α : Type} (g : α → List Nat) (X Y : List Nat) (P B B' Q : List α) (a a' c c' : α) (n : Nat)
    (ha : g a ≠ g a') (hc : g c ≠ g c') (la : (g a).length = (g a').length) (lc : (g c).length = (g c').length)
    (lB : (B.flatMap g).length = (B'.flatMap g).length)
    (h : Scratched n (X ++ (P ++ a :: (B ++ c :: Q)).flatMap g ++ Y) (X ++ (P ++ a' :: (B' ++ c' :: Q)).flatMap g ++ Y)) :
    (g a).length + (B.flatMap g).length + (g c).length ≤ n + lead (g a) (g a') + lead (g c).reverse (g c').reverse := by
  have h1 := (scratched_lead n _ _ h).2
  have e1 : lead (X ++ (P ++ a :: (B ++ c :: Q)).flatMap g ++ Y) (X ++ (P ++ a' :: (B' ++ c' :: Q)).flatMap g ++ Y) =
      X.length + (P.flatMap g).length + lead (g a) (g a') := by
    simp only [List.flatMap_append, List.flatMap_cons, List.append_assoc]
    rw [lead_append_same, lead_append_same, lead_append_ne _ _ _ _ la ha]
    omega
  have e2 : lead (X ++ (P ++ a :: (B ++ c :: Q)).flatMap g ++ Y).reverse
      (X ++ (P ++ a' :: (B' ++ c' :: Q)).flatMap g ++ Y).reverse =
      Y.length + (Q.flatMap g).length + lead (g c).reverse (g c').reverse := by
    simp only [List.flatMap_append, List.flatMap_cons, List.reverse_append, List.append_assoc]
    rw [lead_append_same, lead_append_same, lead_append_ne _ _ _ _ (by simpa using lc) (by simpa using hc)]
    simp only [List.length_reverse]
    omega
  rw [e1, e2] at h1
  simp only [List.flatMap_append, List.flatMap_cons, List.length_append] at h1
  omega

end Barcoders
