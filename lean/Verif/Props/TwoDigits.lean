import Verif.Props.Ean
import Verif.Spec.Weights

/-!
# Two wrong digits of an article number (C86)
-/

set_option autoImplicit false

namespace Barcoders
open Spec

theorem altSum_get (w : Nat) (hw : w = 1 ∨ w = 3) (l r : List Nat) (a : Nat) :
    altSum w (l ++ a :: r) = altSum w (l ++ 0 :: r) + (if l.length % 2 = 0 then w else 4 - w) * a := by
  induction l generalizing w with
  | nil => simp [altSum]; omega
  | cons d l ih =>
    rw [List.cons_append, List.cons_append, altSum, altSum, ih (4 - w) (by omega), List.length_cons]
    rcases hw with rfl | rfl <;>
      rcases Nat.mod_two_eq_zero_or_one l.length with h | h <;>
      simp [h, Nat.add_mod] <;> omega

/-- The weighted sum of a number with two digits singled out. -/
theorem altSum_two (p m q : List Nat) (a c : Nat) :
    (altSum 1 (p ++ a :: (m ++ c :: q)).reverse : Int) = altSum 1 (p ++ 0 :: (m ++ 0 :: q)).reverse +
      gs1Weight (m.length + 1 + q.length) * a + gs1Weight q.length * c := by
  have e : ∀ u v : Nat, (p ++ u :: (m ++ v :: q)).reverse = (q.reverse ++ v :: m.reverse) ++ u :: p.reverse := by
    intro u v; simp
  rw [e, e, altSum_get 1 (Or.inl rfl) _ p.reverse a, List.append_assoc, List.cons_append,
    altSum_get 1 (Or.inl rfl) q.reverse _ c]
  simp only [List.append_assoc, List.cons_append, List.length_append, List.length_reverse, List.length_cons, gs1Weight,
    show q.length + (m.length + 1) = m.length + 1 + q.length by omega]
  generalize altSum 1 _ = S
  split <;> split <;> simp <;> omega

theorem gs1Valid_two (p m q : List Nat) (a c a' c' : Nat) (h : Gs1Valid (p ++ a :: (m ++ c :: q))) :
    Gs1Valid (p ++ a' :: (m ++ c' :: q)) ↔
      (gs1Weight (m.length + 1 + q.length) * ((a' : Int) - a) + gs1Weight q.length * ((c' : Int) - c)) % 10 = 0 := by
  have h1 := altSum_two p m q a c
  have h2 := altSum_two p m q a' c'
  unfold Gs1Valid at h ⊢
  rw [show (p ++ a' :: (m ++ c' :: q)).reverse = (p ++ a' :: (m ++ c' :: q)).reverse from rfl]
  generalize altSum 1 (p ++ a :: (m ++ c :: q)).reverse = S1 at *
  generalize altSum 1 (p ++ a' :: (m ++ c' :: q)).reverse = S2 at *
  generalize altSum 1 (p ++ 0 :: (m ++ 0 :: q)).reverse = S0 at *
  unfold gs1Weight at *
  split at h1 <;> split at h1 <;> simp_all <;> omega

/-- A complete number is judged by its check digit alone. -/
theorem complete_number_form {T : Type} (mk : List Nat → T) (f : List Char → Outcome T) (n : Nat) (hn : n < 100)
    (hf : ∀ s, f s = if byteLen s % 2 ^ 32 ≠ n ∧ byteLen s % 2 ^ 32 ≠ n + 1 then Outcome.err Error.length
      else if ¬ AllDigits s then .err .character
      else if s.length = n + 1 ∧ ¬ Gs1Valid (digitsOf s) then .err .checksum
      else .ok (mk ((digitsOf s).take n))) (s : List Char) (hD : AllDigits s) (hl : s.length = n + 1) :
    ((∃ y, f s = .ok y) ↔ Gs1Valid (digitsOf s)) ∧ (¬ Gs1Valid (digitsOf s) → f s = .err .checksum) := by
  have hfs : f s = if ¬ Gs1Valid (digitsOf s) then .err .checksum else .ok (mk ((digitsOf s).take n)) := by
    rw [hf, digits_byteLen _ hD, hl, if_neg (show ¬ ((n + 1) % 2 ^ 32 ≠ n ∧ (n + 1) % 2 ^ 32 ≠ n + 1) by omega),
      if_neg (not_not_intro hD)]
    simp
  rw [hfs]
  by_cases hg : Gs1Valid (digitsOf s) <;> simp [hg]

theorem two_digits {T : Type} (mk : List Nat → T) (f : List Char → Outcome T) (n : Nat) (hn : n < 100)
    (hf : ∀ s, f s = if byteLen s % 2 ^ 32 ≠ n ∧ byteLen s % 2 ^ 32 ≠ n + 1 then Outcome.err Error.length
      else if ¬ AllDigits s then .err .character
      else if s.length = n + 1 ∧ ¬ Gs1Valid (digitsOf s) then .err .checksum
      else .ok (mk ((digitsOf s).take n))) (p m q : List Char) (a c a' c' : Char) (x : T)
    (hl : (p ++ a :: (m ++ c :: q)).length = n + 1) (h : f (p ++ a :: (m ++ c :: q)) = .ok x)
    (ha' : a'.isDigit = true) (hc' : c'.isDigit = true) :
    ((∃ y, f (p ++ a' :: (m ++ c' :: q)) = .ok y) ↔
      (gs1Weight (m.length + 1 + q.length) * ((a'.toNat : Int) - a.toNat) +
        gs1Weight q.length * ((c'.toNat : Int) - c.toNat)) % 10 = 0) ∧
    ((∀ y, f (p ++ a' :: (m ++ c' :: q)) ≠ .ok y) → f (p ++ a' :: (m ++ c' :: q)) = .err .checksum) := by
  rw [hf] at h
  obtain ⟨-, hD, -, -, hv⟩ := decision_ok mk n _ x h
  have hv := hv hl
  have hD' : AllDigits (p ++ a' :: (m ++ c' :: q)) := by
    intro y hy
    simp only [List.mem_append, List.mem_cons] at hy
    rcases hy with hy | rfl | hy | rfl | hy
    · exact hD y (by simp [hy])
    · exact ha'
    · exact hD y (by simp [hy])
    · exact hc'
    · exact hD y (by simp [hy])
  have hl' : (p ++ a' :: (m ++ c' :: q)).length = n + 1 := by simpa using hl
  have ha := (toNat_isDigit a).mp (hD a (by simp))
  have hc := (toNat_isDigit c).mp (hD c (by simp))
  have ha'' := (toNat_isDigit a').mp ha'
  have hc'' := (toNat_isDigit c').mp hc'
  have e : ∀ u v, digitsOf (p ++ u :: (m ++ v :: q)) =
      digitsOf p ++ digitValue u :: (digitsOf m ++ digitValue v :: digitsOf q) := by
    intro u v; simp [digitsOf]
  rw [e] at hv
  have key := gs1Valid_two _ _ _ _ _ (digitValue a') (digitValue c') hv
  rw [← e] at key
  have z : '0'.toNat = 48 := rfl
  have d1 : ((digitValue a' : Int) - digitValue a) = (a'.toNat : Int) - a.toNat := by unfold digitValue; omega
  have d2 : ((digitValue c' : Int) - digitValue c) = (c'.toNat : Int) - c.toNat := by unfold digitValue; omega
  rw [d1, d2, show (digitsOf m).length = m.length by simp [digitsOf],
    show (digitsOf q).length = q.length by simp [digitsOf]] at key
  obtain ⟨k1, k2⟩ := complete_number_form mk f n hn hf _ hD' hl'
  rw [k1, key]
  refine ⟨Iff.rfl, fun hno => k2 (fun hg => ?_)⟩
  obtain ⟨y, hy⟩ := k1.mpr hg
  exact hno y hy

/-- C86. Two wrong digits of an accepted complete number, wherever they are: the new number is accepted iff the weighted
changes cancel modulo ten, else the error is `Err(Checksum)`. -/
theorem C86_ean13_two_digits (b : Build) (p m q : List Char) (a c a' c' : Char) (x : Ean13.EAN13)
    (hl : (p ++ a :: (m ++ c :: q)).length = 13) (h : Ean13.new b (p ++ a :: (m ++ c :: q)) = .ok x)
    (ha' : a'.isDigit = true) (hc' : c'.isDigit = true) :
    ((∃ y, Ean13.new b (p ++ a' :: (m ++ c' :: q)) = .ok y) ↔
      (gs1Weight (m.length + 1 + q.length) * ((a'.toNat : Int) - a.toNat) +
        gs1Weight q.length * ((c'.toNat : Int) - c.toNat)) % 10 = 0) ∧
    ((∀ y, Ean13.new b (p ++ a' :: (m ++ c' :: q)) ≠ .ok y) → Ean13.new b (p ++ a' :: (m ++ c' :: q)) = .err .checksum) :=
  two_digits Ean13.EAN13.mk (Ean13.new b) 12 (by omega) (ean13_new b) p m q a c a' c' x hl h ha' hc'

example : (Ean13.new .debug ("75".toList ++ '0' :: ("103".toList ++ '1' :: "311309".toList))).isOk = true ∧
    (Ean13.new .debug ("75".toList ++ '2' :: ("103".toList ++ '9' :: "311309".toList))).isOk = true ∧
    Ean13.new .debug ("75".toList ++ '2' :: ("103".toList ++ '8' :: "311309".toList)) = .err .checksum := by decide

/-- C86. The same for EAN-8. -/
theorem C86_ean8_two_digits (b : Build) (p m q : List Char) (a c a' c' : Char) (x : Ean8.EAN8)
    (hl : (p ++ a :: (m ++ c :: q)).length = 8) (h : Ean8.new b (p ++ a :: (m ++ c :: q)) = .ok x)
    (ha' : a'.isDigit = true) (hc' : c'.isDigit = true) :
    ((∃ y, Ean8.new b (p ++ a' :: (m ++ c' :: q)) = .ok y) ↔
      (gs1Weight (m.length + 1 + q.length) * ((a'.toNat : Int) - a.toNat) +
        gs1Weight q.length * ((c'.toNat : Int) - c.toNat)) % 10 = 0) ∧
    ((∀ y, Ean8.new b (p ++ a' :: (m ++ c' :: q)) ≠ .ok y) → Ean8.new b (p ++ a' :: (m ++ c' :: q)) = .err .checksum) :=
  two_digits Ean8.EAN8.mk (Ean8.new b) 7 (by omega) (ean8_new b) p m q a c a' c' x hl h ha' hc'

example : (Ean8.new .debug ("5".toList ++ '5' :: ([] ++ '1' :: "23457".toList))).isOk = true ∧
    (Ean8.new .debug ("5".toList ++ '6' :: ([] ++ '4' :: "23457".toList))).isOk = true ∧
    Ean8.new .debug ("5".toList ++ '6' :: ([] ++ '0' :: "23457".toList)) = .err .checksum := by decide

/-- C86. The same for UPC-A. -/
theorem C86_upca_two_digits (b : Build) (p m q : List Char) (a c a' c' : Char) (x : Upca.UPCA)
    (hl : (p ++ a :: (m ++ c :: q)).length = 12) (h : Upca.new b (p ++ a :: (m ++ c :: q)) = .ok x)
    (ha' : a'.isDigit = true) (hc' : c'.isDigit = true) :
    ((∃ y, Upca.new b (p ++ a' :: (m ++ c' :: q)) = .ok y) ↔
      (gs1Weight (m.length + 1 + q.length) * ((a'.toNat : Int) - a.toNat) +
        gs1Weight q.length * ((c'.toNat : Int) - c.toNat)) % 10 = 0) ∧
    ((∀ y, Upca.new b (p ++ a' :: (m ++ c' :: q)) ≠ .ok y) → Upca.new b (p ++ a' :: (m ++ c' :: q)) = .err .checksum) :=
  two_digits Upca.UPCA.mk (Upca.new b) 11 (by omega) (upca_new b) p m q a c a' c' x hl h ha' hc'

example : (Upca.new .debug ("01".toList ++ '2' :: ([] ++ '3' :: "45678905".toList))).isOk = true ∧
    (Upca.new .debug ("01".toList ++ '3' :: ([] ++ '0' :: "45678905".toList))).isOk = true ∧
    Upca.new .debug ("01".toList ++ '3' :: ([] ++ '2' :: "45678905".toList)) = .err .checksum := by decide

theorem gs1Weight_next (r : Nat) : (gs1Weight (r + 1) = 3 ∧ gs1Weight r = 1) ∨ (gs1Weight (r + 1) = 1 ∧ gs1Weight r = 3) := by
  unfold gs1Weight
  split <;> split <;> simp <;> omega

theorem isOk_of {T : Type} {o : Outcome T} (h : o.isOk = true) : ∃ x, o = .ok x := by
  cases o with
  | ok x => exact ⟨x, rfl⟩
  | err e => simp [Outcome.isOk] at h
  | panic p => simp [Outcome.isOk] at h

theorem isOk_of' {T : Type} {o : Outcome T} (h : ∃ x, o = .ok x) : o.isOk = true := by
  obtain ⟨x, rfl⟩ := h
  rfl

theorem new_digits {T : Type} (mk : List Nat → T) (f : List Char → Outcome T) (n : Nat)
    (hf : ∀ s, f s = if byteLen s % 2 ^ 32 ≠ n ∧ byteLen s % 2 ^ 32 ≠ n + 1 then Outcome.err Error.length
      else if ¬ AllDigits s then .err .character
      else if s.length = n + 1 ∧ ¬ Gs1Valid (digitsOf s) then .err .checksum
      else .ok (mk ((digitsOf s).take n))) (s : List Char) (x : T) (h : f s = .ok x) : AllDigits s := by
  rw [hf] at h
  exact (decision_ok mk n _ x h).2.1

theorem partner (r r' : Nat) (a c a' : Char) : ∃ c' : Char, c'.isDigit = true ∧
    (gs1Weight r * ((a'.toNat : Int) - a.toNat) + gs1Weight r' * ((c'.toNat : Int) - c.toNat)) % 10 = 0 ∧
    ∀ e : Char, e.isDigit = true →
      (gs1Weight r * ((a'.toNat : Int) - a.toNat) + gs1Weight r' * ((e.toNat : Int) - c.toNat)) % 10 = 0 → e = c' := by
  have uniq : ∀ e e' : Char, e.isDigit = true → e'.isDigit = true →
      (gs1Weight r * ((a'.toNat : Int) - a.toNat) + gs1Weight r' * ((e.toNat : Int) - c.toNat)) % 10 = 0 →
      (gs1Weight r * ((a'.toNat : Int) - a.toNat) + gs1Weight r' * ((e'.toNat : Int) - c.toNat)) % 10 = 0 → e = e' := by
    intro e e' he he' h1 h2
    have := (toNat_isDigit e).mp he
    have := (toNat_isDigit e').mp he'
    apply Char.toNat_inj.mp
    generalize gs1Weight r * ((a'.toNat : Int) - a.toNat) = K at h1 h2
    unfold gs1Weight at h1 h2
    split at h1
    · rw [if_pos (by assumption)] at h2; omega
    · rw [if_neg (by assumption)] at h2; omega
  have ex : ∃ c' ∈ "0123456789".toList,
      (gs1Weight r * ((a'.toNat : Int) - a.toNat) + gs1Weight r' * ((c'.toNat : Int) - c.toNat)) % 10 = 0 := by
    generalize gs1Weight r * ((a'.toNat : Int) - a.toNat) = K
    have e : ∀ d : Char, (K + gs1Weight r' * ((d.toNat : Int) - c.toNat)) =
        (K - gs1Weight r' * c.toNat) + gs1Weight r' * d.toNat := by
      intro d; rw [Int.mul_sub]; omega
    simp only [e]
    generalize K - gs1Weight r' * c.toNat = L
    have hL : L % 10 = 0 ∨ L % 10 = 1 ∨ L % 10 = 2 ∨ L % 10 = 3 ∨ L % 10 = 4 ∨ L % 10 = 5 ∨ L % 10 = 6 ∨ L % 10 = 7 ∨
        L % 10 = 8 ∨ L % 10 = 9 := by omega
    have hk : ∀ (k : Int) (d : Char), d ∈ "0123456789".toList → L % 10 = k → (k + gs1Weight r' * d.toNat) % 10 = 0 →
        ∃ c' ∈ "0123456789".toList, (L + gs1Weight r' * (c'.toNat : Int)) % 10 = 0 :=
      fun k d hd h1 h2 => ⟨d, hd, by omega⟩
    have tab : ∀ k ∈ [(0 : Int), 1, 2, 3, 4, 5, 6, 7, 8, 9], ∀ w ∈ [(1 : Int), 3], ∃ d ∈ "0123456789".toList,
        (k + w * d.toNat) % 10 = 0 := by decide
    have hw : gs1Weight r' ∈ [(1 : Int), 3] := by unfold gs1Weight; split <;> simp
    obtain ⟨d, hd, h2⟩ := tab (L % 10) (by simp; omega) _ hw
    exact hk _ d hd rfl h2
  obtain ⟨c', hc', hv⟩ := ex
  have hd : c'.isDigit = true := (by decide : ∀ d ∈ "0123456789".toList, d.isDigit = true) c' hc'
  exact ⟨c', hd, hv, fun e he h => uniq e c' he hd h hv⟩

/-- C86. Twin errors, `aa` typed as `bb`: unnoticed iff the digits differ by 5. -/
theorem C86_twins (b : Build) (p q : List Char) (a d : Char) (ha : a.isDigit = true) (hd : d.isDigit = true) :
    ((p ++ a :: a :: q).length = 13 → (Ean13.new b (p ++ a :: a :: q)).isOk = true →
      ((∃ y, Ean13.new b (p ++ d :: d :: q) = .ok y) ↔ a.toNat = d.toNat ∨ a.toNat = d.toNat + 5 ∨ d.toNat = a.toNat + 5)) ∧
    ((p ++ a :: a :: q).length = 8 → (Ean8.new b (p ++ a :: a :: q)).isOk = true →
      ((∃ y, Ean8.new b (p ++ d :: d :: q) = .ok y) ↔ a.toNat = d.toNat ∨ a.toNat = d.toNat + 5 ∨ d.toNat = a.toNat + 5)) ∧
    ((p ++ a :: a :: q).length = 12 → (Upca.new b (p ++ a :: a :: q)).isOk = true →
      ((∃ y, Upca.new b (p ++ d :: d :: q) = .ok y) ↔ a.toNat = d.toNat ∨ a.toNat = d.toNat + 5 ∨ d.toNat = a.toNat + 5)) := by
  refine ⟨?_, ?_, ?_⟩
  · intro hl h
    obtain ⟨x, h⟩ := isOk_of h
    refine Iff.trans (C86_ean13_two_digits b p [] q a a d d x hl h hd hd).1 ?_
    have := (toNat_isDigit a).mp ha
    have := (toNat_isDigit d).mp hd
    simp only [List.length_nil]
    rw [show 0 + 1 + q.length = q.length + 1 by omega]
    rcases gs1Weight_next q.length with ⟨e1, e2⟩ | ⟨e1, e2⟩ <;> rw [e1, e2] <;> omega
  · intro hl h
    obtain ⟨x, h⟩ := isOk_of h
    refine Iff.trans (C86_ean8_two_digits b p [] q a a d d x hl h hd hd).1 ?_
    have := (toNat_isDigit a).mp ha
    have := (toNat_isDigit d).mp hd
    simp only [List.length_nil]
    rw [show 0 + 1 + q.length = q.length + 1 by omega]
    rcases gs1Weight_next q.length with ⟨e1, e2⟩ | ⟨e1, e2⟩ <;> rw [e1, e2] <;> omega
  · intro hl h
    obtain ⟨x, h⟩ := isOk_of h
    refine Iff.trans (C86_upca_two_digits b p [] q a a d d x hl h hd hd).1 ?_
    have := (toNat_isDigit a).mp ha
    have := (toNat_isDigit d).mp hd
    simp only [List.length_nil]
    rw [show 0 + 1 + q.length = q.length + 1 by omega]
    rcases gs1Weight_next q.length with ⟨e1, e2⟩ | ⟨e1, e2⟩ <;> rw [e1, e2] <;> omega

example : (Ean8.new .debug ([] ++ '5' :: '5' :: "123457".toList)).isOk = true ∧
    (Ean8.new .debug ([] ++ '0' :: '0' :: "123457".toList)).isOk = true ∧
    (Ean8.new .debug ([] ++ '6' :: '6' :: "123457".toList)) = .err .checksum := by decide

/-- C86. Jump twin errors, `aca` typed as `dcd`: unnoticed iff the digits differ by 5. -/
theorem C86_jump_twins (b : Build) (p q : List Char) (a c d : Char) (ha : a.isDigit = true) (hd : d.isDigit = true) :
    ((p ++ a :: c :: a :: q).length = 13 → (Ean13.new b (p ++ a :: c :: a :: q)).isOk = true →
      ((∃ y, Ean13.new b (p ++ d :: c :: d :: q) = .ok y) ↔ a.toNat = d.toNat ∨ a.toNat = d.toNat + 5 ∨ d.toNat = a.toNat + 5)) ∧
    ((p ++ a :: c :: a :: q).length = 8 → (Ean8.new b (p ++ a :: c :: a :: q)).isOk = true →
      ((∃ y, Ean8.new b (p ++ d :: c :: d :: q) = .ok y) ↔ a.toNat = d.toNat ∨ a.toNat = d.toNat + 5 ∨ d.toNat = a.toNat + 5)) ∧
    ((p ++ a :: c :: a :: q).length = 12 → (Upca.new b (p ++ a :: c :: a :: q)).isOk = true →
      ((∃ y, Upca.new b (p ++ d :: c :: d :: q) = .ok y) ↔ a.toNat = d.toNat ∨ a.toNat = d.toNat + 5 ∨ d.toNat = a.toNat + 5)) := by
  refine ⟨?_, ?_, ?_⟩
  · intro hl h
    obtain ⟨x, h⟩ := isOk_of h
    refine Iff.trans (C86_ean13_two_digits b p [c] q a a d d x hl h hd hd).1 ?_
    have := (toNat_isDigit a).mp ha
    have := (toNat_isDigit d).mp hd
    have e : gs1Weight ([c].length + 1 + q.length) = gs1Weight q.length := by
      have e0 : ([c].length + 1 + q.length) % 2 = q.length % 2 := by simp only [List.length_singleton]; omega
      unfold gs1Weight
      rw [e0]
    rw [e]
    rcases gs1Weight_next q.length with ⟨e1, e2⟩ | ⟨e1, e2⟩ <;> rw [e2] <;> omega
  · intro hl h
    obtain ⟨x, h⟩ := isOk_of h
    refine Iff.trans (C86_ean8_two_digits b p [c] q a a d d x hl h hd hd).1 ?_
    have := (toNat_isDigit a).mp ha
    have := (toNat_isDigit d).mp hd
    have e : gs1Weight ([c].length + 1 + q.length) = gs1Weight q.length := by
      have e0 : ([c].length + 1 + q.length) % 2 = q.length % 2 := by simp only [List.length_singleton]; omega
      unfold gs1Weight
      rw [e0]
    rw [e]
    rcases gs1Weight_next q.length with ⟨e1, e2⟩ | ⟨e1, e2⟩ <;> rw [e2] <;> omega
  · intro hl h
    obtain ⟨x, h⟩ := isOk_of h
    refine Iff.trans (C86_upca_two_digits b p [c] q a a d d x hl h hd hd).1 ?_
    have := (toNat_isDigit a).mp ha
    have := (toNat_isDigit d).mp hd
    have e : gs1Weight ([c].length + 1 + q.length) = gs1Weight q.length := by
      have e0 : ([c].length + 1 + q.length) % 2 = q.length % 2 := by simp only [List.length_singleton]; omega
      unfold gs1Weight
      rw [e0]
    rw [e]
    rcases gs1Weight_next q.length with ⟨e1, e2⟩ | ⟨e1, e2⟩ <;> rw [e2] <;> omega

example : (Ean8.new .debug ("55".toList ++ '1' :: '2' :: '1' :: "453".toList)).isOk = true ∧
    (Ean8.new .debug ("55".toList ++ '6' :: '2' :: '6' :: "453".toList)).isOk = true ∧
    (Ean8.new .debug ("55".toList ++ '7' :: '2' :: '7' :: "453".toList)) = .err .checksum := by decide

/-- C86. Phonetic errors (`13`, thirteen, heard as `30`, thirty, and back) are always noticed. -/
theorem C86_phonetic (b : Build) (p q : List Char) (d : Char) (hd : d.isDigit = true) :
    ((p ++ '1' :: d :: q).length = 13 →
      ((Ean13.new b (p ++ '1' :: d :: q)).isOk = true → Ean13.new b (p ++ d :: '0' :: q) = .err .checksum) ∧
      ((Ean13.new b (p ++ d :: '0' :: q)).isOk = true → Ean13.new b (p ++ '1' :: d :: q) = .err .checksum)) ∧
    ((p ++ '1' :: d :: q).length = 8 →
      ((Ean8.new b (p ++ '1' :: d :: q)).isOk = true → Ean8.new b (p ++ d :: '0' :: q) = .err .checksum) ∧
      ((Ean8.new b (p ++ d :: '0' :: q)).isOk = true → Ean8.new b (p ++ '1' :: d :: q) = .err .checksum)) ∧
    ((p ++ '1' :: d :: q).length = 12 →
      ((Upca.new b (p ++ '1' :: d :: q)).isOk = true → Upca.new b (p ++ d :: '0' :: q) = .err .checksum) ∧
      ((Upca.new b (p ++ d :: '0' :: q)).isOk = true → Upca.new b (p ++ '1' :: d :: q) = .err .checksum)) := by
  refine ⟨?_, ?_, ?_⟩
  · intro hl
    have := (toNat_isDigit d).mp hd
    have h0 : '0'.toNat = 48 := rfl
    have h1 : '1'.toNat = 49 := rfl
    constructor
    · intro h
      obtain ⟨x, h⟩ := isOk_of h
      obtain ⟨k1, k2⟩ := C86_ean13_two_digits b p [] q '1' d d '0' x hl h hd (by decide)
      refine k2 (fun y hy => ?_)
      have := k1.mp ⟨y, hy⟩
      simp only [List.length_nil] at this
      rw [show 0 + 1 + q.length = q.length + 1 by omega, h0, h1] at this
      rcases gs1Weight_next q.length with ⟨e1, e2⟩ | ⟨e1, e2⟩ <;> rw [e1, e2] at this <;> omega
    · intro h
      obtain ⟨x, h⟩ := isOk_of h
      obtain ⟨k1, k2⟩ := C86_ean13_two_digits b p [] q d '0' '1' d x (by simpa using hl) h (by decide) hd
      refine k2 (fun y hy => ?_)
      have := k1.mp ⟨y, hy⟩
      simp only [List.length_nil] at this
      rw [show 0 + 1 + q.length = q.length + 1 by omega, h0, h1] at this
      rcases gs1Weight_next q.length with ⟨e1, e2⟩ | ⟨e1, e2⟩ <;> rw [e1, e2] at this <;> omega
  · intro hl
    have := (toNat_isDigit d).mp hd
    have h0 : '0'.toNat = 48 := rfl
    have h1 : '1'.toNat = 49 := rfl
    constructor
    · intro h
      obtain ⟨x, h⟩ := isOk_of h
      obtain ⟨k1, k2⟩ := C86_ean8_two_digits b p [] q '1' d d '0' x hl h hd (by decide)
      refine k2 (fun y hy => ?_)
      have := k1.mp ⟨y, hy⟩
      simp only [List.length_nil] at this
      rw [show 0 + 1 + q.length = q.length + 1 by omega, h0, h1] at this
      rcases gs1Weight_next q.length with ⟨e1, e2⟩ | ⟨e1, e2⟩ <;> rw [e1, e2] at this <;> omega
    · intro h
      obtain ⟨x, h⟩ := isOk_of h
      obtain ⟨k1, k2⟩ := C86_ean8_two_digits b p [] q d '0' '1' d x (by simpa using hl) h (by decide) hd
      refine k2 (fun y hy => ?_)
      have := k1.mp ⟨y, hy⟩
      simp only [List.length_nil] at this
      rw [show 0 + 1 + q.length = q.length + 1 by omega, h0, h1] at this
      rcases gs1Weight_next q.length with ⟨e1, e2⟩ | ⟨e1, e2⟩ <;> rw [e1, e2] at this <;> omega
  · intro hl
    have := (toNat_isDigit d).mp hd
    have h0 : '0'.toNat = 48 := rfl
    have h1 : '1'.toNat = 49 := rfl
    constructor
    · intro h
      obtain ⟨x, h⟩ := isOk_of h
      obtain ⟨k1, k2⟩ := C86_upca_two_digits b p [] q '1' d d '0' x hl h hd (by decide)
      refine k2 (fun y hy => ?_)
      have := k1.mp ⟨y, hy⟩
      simp only [List.length_nil] at this
      rw [show 0 + 1 + q.length = q.length + 1 by omega, h0, h1] at this
      rcases gs1Weight_next q.length with ⟨e1, e2⟩ | ⟨e1, e2⟩ <;> rw [e1, e2] at this <;> omega
    · intro h
      obtain ⟨x, h⟩ := isOk_of h
      obtain ⟨k1, k2⟩ := C86_upca_two_digits b p [] q d '0' '1' d x (by simpa using hl) h (by decide) hd
      refine k2 (fun y hy => ?_)
      have := k1.mp ⟨y, hy⟩
      simp only [List.length_nil] at this
      rw [show 0 + 1 + q.length = q.length + 1 by omega, h0, h1] at this
      rcases gs1Weight_next q.length with ⟨e1, e2⟩ | ⟨e1, e2⟩ <;> rw [e1, e2] at this <;> omega

example : (Ean8.new .debug ("55".toList ++ '1' :: '2' :: "3457".toList)).isOk = true ∧
    Ean8.new .debug ("55".toList ++ '2' :: '0' :: "3457".toList) = .err .checksum := by decide

/-- C86. For every wrong digit there is exactly one digit at a place to the right with which the number is accepted again. -/
theorem C86_one_partner (b : Build) (p m q : List Char) (a c a' : Char) (ha' : a'.isDigit = true) :
    ((p ++ a :: (m ++ c :: q)).length = 13 → (Ean13.new b (p ++ a :: (m ++ c :: q))).isOk = true →
      ∃ c', (Ean13.new b (p ++ a' :: (m ++ c' :: q))).isOk = true ∧
        ∀ e, (Ean13.new b (p ++ a' :: (m ++ e :: q))).isOk = true → e = c') ∧
    ((p ++ a :: (m ++ c :: q)).length = 8 → (Ean8.new b (p ++ a :: (m ++ c :: q))).isOk = true →
      ∃ c', (Ean8.new b (p ++ a' :: (m ++ c' :: q))).isOk = true ∧
        ∀ e, (Ean8.new b (p ++ a' :: (m ++ e :: q))).isOk = true → e = c') ∧
    ((p ++ a :: (m ++ c :: q)).length = 12 → (Upca.new b (p ++ a :: (m ++ c :: q))).isOk = true →
      ∃ c', (Upca.new b (p ++ a' :: (m ++ c' :: q))).isOk = true ∧
        ∀ e, (Upca.new b (p ++ a' :: (m ++ e :: q))).isOk = true → e = c') := by
  refine ⟨?_, ?_, ?_⟩
  · intro hl h
    obtain ⟨x, h⟩ := isOk_of h
    obtain ⟨c', hc', hv, hu⟩ := partner (m.length + 1 + q.length) q.length a c a'
    refine ⟨c', isOk_of' ((C86_ean13_two_digits b p m q a c a' c' x hl h ha' hc').1.mpr hv), fun e he => ?_⟩
    obtain ⟨y, hy⟩ := isOk_of he
    have hed : e.isDigit = true := new_digits Ean13.EAN13.mk (Ean13.new b) 12 (ean13_new b) _ y hy e (by simp)
    exact hu e hed ((C86_ean13_two_digits b p m q a c a' e x hl h ha' hed).1.mp ⟨y, hy⟩)
  · intro hl h
    obtain ⟨x, h⟩ := isOk_of h
    obtain ⟨c', hc', hv, hu⟩ := partner (m.length + 1 + q.length) q.length a c a'
    refine ⟨c', isOk_of' ((C86_ean8_two_digits b p m q a c a' c' x hl h ha' hc').1.mpr hv), fun e he => ?_⟩
    obtain ⟨y, hy⟩ := isOk_of he
    have hed : e.isDigit = true := new_digits Ean8.EAN8.mk (Ean8.new b) 7 (ean8_new b) _ y hy e (by simp)
    exact hu e hed ((C86_ean8_two_digits b p m q a c a' e x hl h ha' hed).1.mp ⟨y, hy⟩)
  · intro hl h
    obtain ⟨x, h⟩ := isOk_of h
    obtain ⟨c', hc', hv, hu⟩ := partner (m.length + 1 + q.length) q.length a c a'
    refine ⟨c', isOk_of' ((C86_upca_two_digits b p m q a c a' c' x hl h ha' hc').1.mpr hv), fun e he => ?_⟩
    obtain ⟨y, hy⟩ := isOk_of he
    have hed : e.isDigit = true := new_digits Upca.UPCA.mk (Upca.new b) 11 (upca_new b) _ y hy e (by simp)
    exact hu e hed ((C86_upca_two_digits b p m q a c a' e x hl h ha' hed).1.mp ⟨y, hy⟩)

example : (Ean8.new .debug ("5".toList ++ '5' :: ("12".toList ++ '3' :: "457".toList))).isOk = true ∧
    "0123456789".toList.filter (fun e => (Ean8.new .debug ("5".toList ++ '7' :: ("12".toList ++ e :: "457".toList))).isOk) =
      ['9'] := by decide

/-- C86. The same for a place to the left of the wrong digit. -/
theorem C86_one_partner_left (b : Build) (p m q : List Char) (a c c' : Char) (hc' : c'.isDigit = true) :
    ((p ++ a :: (m ++ c :: q)).length = 13 → (Ean13.new b (p ++ a :: (m ++ c :: q))).isOk = true →
      ∃ a', (Ean13.new b (p ++ a' :: (m ++ c' :: q))).isOk = true ∧
        ∀ e, (Ean13.new b (p ++ e :: (m ++ c' :: q))).isOk = true → e = a') ∧
    ((p ++ a :: (m ++ c :: q)).length = 8 → (Ean8.new b (p ++ a :: (m ++ c :: q))).isOk = true →
      ∃ a', (Ean8.new b (p ++ a' :: (m ++ c' :: q))).isOk = true ∧
        ∀ e, (Ean8.new b (p ++ e :: (m ++ c' :: q))).isOk = true → e = a') ∧
    ((p ++ a :: (m ++ c :: q)).length = 12 → (Upca.new b (p ++ a :: (m ++ c :: q))).isOk = true →
      ∃ a', (Upca.new b (p ++ a' :: (m ++ c' :: q))).isOk = true ∧
        ∀ e, (Upca.new b (p ++ e :: (m ++ c' :: q))).isOk = true → e = a') := by
  refine ⟨?_, ?_, ?_⟩
  · intro hl h
    obtain ⟨x, h⟩ := isOk_of h
    obtain ⟨a', ha', hv, hu⟩ := partner q.length (m.length + 1 + q.length) c a c'
    rw [Int.add_comm] at hv
    refine ⟨a', isOk_of' ((C86_ean13_two_digits b p m q a c a' c' x hl h ha' hc').1.mpr hv), fun e he => ?_⟩
    obtain ⟨y, hy⟩ := isOk_of he
    have hed : e.isDigit = true := new_digits Ean13.EAN13.mk (Ean13.new b) 12 (ean13_new b) _ y hy e (by simp)
    have hw := (C86_ean13_two_digits b p m q a c e c' x hl h hed hc').1.mp ⟨y, hy⟩
    rw [Int.add_comm] at hw
    exact hu e hed hw
  · intro hl h
    obtain ⟨x, h⟩ := isOk_of h
    obtain ⟨a', ha', hv, hu⟩ := partner q.length (m.length + 1 + q.length) c a c'
    rw [Int.add_comm] at hv
    refine ⟨a', isOk_of' ((C86_ean8_two_digits b p m q a c a' c' x hl h ha' hc').1.mpr hv), fun e he => ?_⟩
    obtain ⟨y, hy⟩ := isOk_of he
    have hed : e.isDigit = true := new_digits Ean8.EAN8.mk (Ean8.new b) 7 (ean8_new b) _ y hy e (by simp)
    have hw := (C86_ean8_two_digits b p m q a c e c' x hl h hed hc').1.mp ⟨y, hy⟩
    rw [Int.add_comm] at hw
    exact hu e hed hw
  · intro hl h
    obtain ⟨x, h⟩ := isOk_of h
    obtain ⟨a', ha', hv, hu⟩ := partner q.length (m.length + 1 + q.length) c a c'
    rw [Int.add_comm] at hv
    refine ⟨a', isOk_of' ((C86_upca_two_digits b p m q a c a' c' x hl h ha' hc').1.mpr hv), fun e he => ?_⟩
    obtain ⟨y, hy⟩ := isOk_of he
    have hed : e.isDigit = true := new_digits Upca.UPCA.mk (Upca.new b) 11 (upca_new b) _ y hy e (by simp)
    have hw := (C86_upca_two_digits b p m q a c e c' x hl h hed hc').1.mp ⟨y, hy⟩
    rw [Int.add_comm] at hw
    exact hu e hed hw

example : "0123456789".toList.filter (fun e => (Ean8.new .debug ("5".toList ++ e :: ("12".toList ++ '9' :: "457".toList))).isOk) =
    ['7'] := by decide

end Barcoders
