import Verif.Lemmas.Basic

set_option autoImplicit false

namespace Barcoders
open Spec

/-- Sum of the entries at even positions. -/
def evenSum : List Nat → Nat
  | [] => 0
  | [a] => a
  | a :: _ :: l => a + evenSum l

/-- Sum of the entries at odd positions. -/
def oddSum : List Nat → Nat
  | [] => 0
  | _ :: l => evenSum l

theorem evenSum_cons (a : Nat) (l : List Nat) : evenSum (a :: l) = a + oddSum l := by
  cases l with
  | nil => rfl
  | cons b l => rfl

theorem oddSum_cons (a : Nat) (l : List Nat) : oddSum (a :: l) = evenSum l := rfl

theorem altSum_eq (l : List Nat) : altSum 1 l = evenSum l + 3 * oddSum l ∧ altSum 3 l = 3 * evenSum l + oddSum l := by
  induction l with
  | nil => exact ⟨rfl, rfl⟩
  | cons a l ih =>
    obtain ⟨h1, h3⟩ := ih
    simp only [altSum, evenSum_cons, oddSum_cons, Nat.reduceSub]
    constructor <;> omega

theorem evenSum_append_single (l : List Nat) (c : Nat) :
    evenSum (l ++ [c]) = evenSum l + (if l.length % 2 = 0 then c else 0) ∧
      oddSum (l ++ [c]) = oddSum l + (if l.length % 2 = 0 then 0 else c) := by
  induction l with
  | nil => simp [evenSum, oddSum]
  | cons a l ih =>
    obtain ⟨h1, h2⟩ := ih
    simp only [List.cons_append, evenSum_cons, oddSum_cons, List.length_cons]
    constructor
    · rw [h2]; split <;> split <;> omega
    · rw [h1]; split <;> split <;> omega

theorem evenSum_reverse (l : List Nat) :
    evenSum l.reverse = (if l.length % 2 = 1 then evenSum l else oddSum l) ∧
      oddSum l.reverse = (if l.length % 2 = 1 then oddSum l else evenSum l) := by
  induction l with
  | nil => simp [evenSum, oddSum]
  | cons a l ih =>
    obtain ⟨h1, h2⟩ := ih
    obtain ⟨e, o⟩ := evenSum_append_single l.reverse a
    rw [List.reverse_cons, e, o, h1, h2, List.length_reverse]
    simp only [evenSum_cons, oddSum_cons, List.length_cons]
    constructor <;> (split <;> split <;> split <;> omega)

theorem evenSum_le (l : List Nat) (h : Digits l) : evenSum l ≤ 9 * ((l.length + 1) / 2) ∧ oddSum l ≤ 9 * (l.length / 2) := by
  induction l with
  | nil => simp [evenSum, oddSum]
  | cons a l ih =>
    obtain ⟨h1, h2⟩ := ih (fun d hd => h d (by simp [hd]))
    have := h a (by simp)
    simp only [evenSum_cons, oddSum_cons, List.length_cons]
    omega

theorem mod10_fold_ok (b : Build) (l : List Nat) (k o e : Nat)
    (ho : o + (if k % 2 = 0 then oddSum l else evenSum l) < 256)
    (he : e + (if k % 2 = 0 then evenSum l else oddSum l) < 256) :
    foldO (Helpers.mod10Step b) (o, e) (enumFrom k l) =
      .ok (o + (if k % 2 = 0 then oddSum l else evenSum l), e + (if k % 2 = 0 then evenSum l else oddSum l)) := by
  induction l generalizing k o e with
  | nil => simp [enumFrom, foldO, oddSum, evenSum]
  | cons a l ih =>
    rw [enumFrom, foldO]
    by_cases hk : k % 2 = 1
    · have hk1 : ¬ (k % 2 = 0) := by omega
      have hk2 : (k + 1) % 2 = 0 := by omega
      simp only [hk1, if_false, evenSum_cons, oddSum_cons] at ho he ⊢
      have hs : Helpers.mod10Step b (o, e) (k, a) = .ok (o + a, e) := by
        simp only [Helpers.mod10Step, hk, if_true]
        rw [u8_ok b _ (by omega)]; rfl
      rw [hs, Outcome.ok_bind, ih (k + 1) (o + a) e (by simp only [hk2, if_true]; omega) (by simp only [hk2, if_true]; omega)]
      simp only [hk2, if_true, Nat.add_assoc]
    · have hk1 : k % 2 = 0 := by omega
      have hk2 : ¬ ((k + 1) % 2 = 0) := by omega
      simp only [hk1, if_true, evenSum_cons, oddSum_cons] at ho he ⊢
      have hs : Helpers.mod10Step b (o, e) (k, a) = .ok (o, e + a) := by
        simp only [Helpers.mod10Step, hk, if_false]
        rw [u8_ok b _ (by omega)]; rfl
      rw [hs, Outcome.ok_bind, ih (k + 1) o (e + a) (by simp only [hk2, if_false]; omega) (by simp only [hk2, if_false]; omega)]
      simp only [hk2, if_false, Nat.add_assoc]

/-- The checksum when nothing overflows. -/
theorem modulo10_true_ok (b : Build) (l : List Nat) (h : 3 * oddSum l + evenSum l < 256) :
    Helpers.modulo10Checksum b l true = .ok ((10 - (3 * oddSum l + evenSum l) % 10) % 10) := by
  unfold Helpers.modulo10Checksum enumerate
  rw [mod10_fold_ok b l 0 0 0 (by simp; omega) (by simp; omega)]
  simp only [Nat.zero_mod, if_true, Nat.zero_add, Outcome.ok_bind]
  rw [u8_ok b _ (by omega), Outcome.ok_bind, u8_ok b _ (by omega), Outcome.ok_bind]
  congr 1
  split <;> omega

/-- The checksum when nothing overflows. -/
theorem modulo10_false_ok (b : Build) (l : List Nat) (h : 3 * evenSum l + oddSum l < 256) :
    Helpers.modulo10Checksum b l false = .ok ((10 - (3 * evenSum l + oddSum l) % 10) % 10) := by
  unfold Helpers.modulo10Checksum enumerate
  rw [mod10_fold_ok b l 0 0 0 (by simp; omega) (by simp; omega)]
  simp only [Nat.zero_mod, if_true, Nat.zero_add, Outcome.ok_bind, Bool.false_eq_true, if_false]
  rw [u8_ok b _ (by omega), Outcome.ok_bind, u8_ok b _ (by omega), Outcome.ok_bind]
  congr 1
  split <;> omega

/-- Even-length data (EAN-13): weight 3 on the odd positions is the GS1 weighting. -/
theorem modulo10_true_gs1 (b : Build) (l : List Nat) (hl : l.length % 2 = 0) (h : 3 * oddSum l + evenSum l < 256) :
    Helpers.modulo10Checksum b l true = .ok (gs1Digit l) := by
  rw [modulo10_true_ok b l h, gs1Digit, (altSum_eq l.reverse).2, (evenSum_reverse l).1, (evenSum_reverse l).2,
    if_neg (by omega), if_neg (by omega)]

/-- Odd-length data (EAN-8, UPC-A, ITF): weight 3 on the even positions is the GS1 weighting. -/
theorem modulo10_false_gs1 (b : Build) (l : List Nat) (hl : l.length % 2 = 1) (h : 3 * evenSum l + oddSum l < 256) :
    Helpers.modulo10Checksum b l false = .ok (gs1Digit l) := by
  rw [modulo10_false_ok b l h, gs1Digit, (altSum_eq l.reverse).2, (evenSum_reverse l).1, (evenSum_reverse l).2,
    if_pos hl, if_pos hl]

theorem gs1Digit_lt (l : List Nat) : gs1Digit l < 10 := Nat.mod_lt _ (by omega)

/-- The check digit is the only digit that makes the number valid. -/
theorem gs1Valid_append (l : List Nat) (c : Nat) (hc : c < 10) : Gs1Valid (l ++ [c]) ↔ c = gs1Digit l := by
  simp only [Gs1Valid, gs1Digit, List.reverse_append, List.reverse_cons, List.reverse_nil, List.nil_append,
    List.singleton_append, altSum, Nat.one_mul, Nat.reduceSub]
  omega

end Barcoders
