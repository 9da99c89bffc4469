import Verif.Lemmas.Ean

set_option autoImplicit false

namespace Barcoders
open Spec

/-- The shape shared by the constructors of EAN-13, EAN-8 and UPC-A. -/
theorem checked_new {T : Type} (mk : List Nat → T) (ck : T → Outcome Nat) (n : Nat)
    (hck : ∀ ds, ds.length = n → Digits ds → ck (mk ds) = .ok (gs1Digit ds)) (s : List Char) :
    (do
      let d ← parse Helpers.digitChars n (n + 1) s
      let digits ← Helpers.toDigits d
      let first ← slice digits 0 n
      if digits.length = n + 1 then do
        let c ← ck (mk first)
        let l ← idx digits n
        if c ≠ l then .err .checksum else .ok (mk first)
      else .ok (mk first)) =
    if byteLen s % 2 ^ 32 ≠ n ∧ byteLen s % 2 ^ 32 ≠ n + 1 then .err .length
    else if ¬ AllDigits s then .err .character
    else if s.length = n + 1 ∧ ¬ Gs1Valid (digitsOf s) then .err .checksum
    else .ok (mk ((digitsOf s).take n)) := by
  rw [parse_eq_mod]
  by_cases hL : byteLen s % 2 ^ 32 < n ∨ byteLen s % 2 ^ 32 > n + 1
  · rw [if_pos hL, if_pos (show byteLen s % 2 ^ 32 ≠ n ∧ byteLen s % 2 ^ 32 ≠ n + 1 by omega)]; rfl
  · rw [if_neg hL, if_neg (show ¬ (byteLen s % 2 ^ 32 ≠ n ∧ byteLen s % 2 ^ 32 ≠ n + 1) by omega)]
    by_cases hD : AllDigits s
    · rw [if_pos ((forall_mem_digitChars s).mpr hD), if_neg (show ¬ ¬ AllDigits s from not_not_intro hD), Outcome.ok_bind, toDigits_eq s hD,
        Outcome.ok_bind]
      have hlen : byteLen s = s.length := digits_byteLen s hD
      have hdl : (digitsOf s).length = s.length := by simp [digitsOf]
      have hge : n ≤ s.length := by
        have := Nat.mod_le (byteLen s) (2 ^ 32)
        omega
      have hsl : slice (digitsOf s) 0 n = .ok ((digitsOf s).take n) := by
        simp [slice, hdl, hge]
      rw [hsl, Outcome.ok_bind, hdl]
      by_cases h13 : s.length = n + 1
      · rw [if_pos h13, hck _ (by simp [hdl, hge]) (digits_take _ _ (digits_lt s hD)), Outcome.ok_bind,
          idx_ok _ _ (by omega), Outcome.ok_bind]
        have hsplit : digitsOf s = (digitsOf s).take n ++ [(digitsOf s)[n]'(by omega)] := by
          have := List.take_append_drop n (digitsOf s)
          rw [List.drop_eq_getElem_cons (by omega), List.drop_of_length_le (by omega)] at this
          exact this.symm
        have hlt : (digitsOf s)[n]'(by omega) < 10 := digits_lt s hD _ (List.getElem_mem _)
        have hv := gs1Valid_append ((digitsOf s).take n) _ hlt
        rw [← hsplit] at hv
        by_cases hg : Gs1Valid (digitsOf s)
        · rw [if_neg (by simpa using (hv.mp hg).symm), if_neg (by simp [hg])]
        · rw [if_pos, if_pos ⟨h13, hg⟩]
          intro e
          exact hg (hv.mpr e.symm)
      · rw [if_neg h13, if_neg (by simp [h13])]
    · rw [if_neg (fun h => hD ((forall_mem_digitChars s).mp h)), if_pos hD]
      rfl

/-- `EAN13::new`, completely, for every string and build. -/
theorem ean13_new (b : Build) (s : List Char) :
    Ean13.new b s =
      if byteLen s % 2 ^ 32 ≠ 12 ∧ byteLen s % 2 ^ 32 ≠ 13 then .err .length
      else if ¬ AllDigits s then .err .character
      else if s.length = 13 ∧ ¬ Gs1Valid (digitsOf s) then .err .checksum
      else .ok ⟨(digitsOf s).take 12⟩ :=
  checked_new Ean13.EAN13.mk (Ean13.checksumDigit b) 12 (ean13_checksum b) s

/-- `EAN8::new`, completely, for every string and build. -/
theorem ean8_new (b : Build) (s : List Char) :
    Ean8.new b s =
      if byteLen s % 2 ^ 32 ≠ 7 ∧ byteLen s % 2 ^ 32 ≠ 8 then .err .length
      else if ¬ AllDigits s then .err .character
      else if s.length = 8 ∧ ¬ Gs1Valid (digitsOf s) then .err .checksum
      else .ok ⟨(digitsOf s).take 7⟩ :=
  checked_new Ean8.EAN8.mk (Ean8.checksumDigit b) 7 (ean8_checksum b) s

/-- `UPCA::new`, completely, for every string and build. -/
theorem upca_new (b : Build) (s : List Char) :
    Upca.new b s =
      if byteLen s % 2 ^ 32 ≠ 11 ∧ byteLen s % 2 ^ 32 ≠ 12 then .err .length
      else if ¬ AllDigits s then .err .character
      else if s.length = 12 ∧ ¬ Gs1Valid (digitsOf s) then .err .checksum
      else .ok ⟨(digitsOf s).take 11⟩ :=
  checked_new Upca.UPCA.mk (Upca.checksumDigit b) 11 (upca_checksum b) s

/-- The consequences of acceptance. -/
theorem decision_ok {T : Type} (mk : List Nat → T) (n : Nat) (s : List Char) (x : T)
    (h : (if byteLen s % 2 ^ 32 ≠ n ∧ byteLen s % 2 ^ 32 ≠ n + 1 then Outcome.err Error.length
      else if ¬ AllDigits s then .err .character
      else if s.length = n + 1 ∧ ¬ Gs1Valid (digitsOf s) then .err .checksum
      else .ok (mk ((digitsOf s).take n))) = .ok x) :
    x = mk ((digitsOf s).take n) ∧ AllDigits s ∧ n ≤ s.length ∧ ((digitsOf s).take n).length = n ∧
      (s.length = n + 1 → Gs1Valid (digitsOf s)) := by
  split at h
  · cases h
  · split at h
    · cases h
    · split at h
      · cases h
      · rename_i h1 h2 h3
        have hD : AllDigits s := by simpa using h2
        have hlen : byteLen s = s.length := digits_byteLen s hD
        have hge : n ≤ s.length := by
          have := Nat.mod_le (byteLen s) (2 ^ 32)
          omega
        refine ⟨(Outcome.ok.inj h).symm, hD, hge, ?_, ?_⟩
        · simp [digitsOf, hge]
        · intro h13
          simpa [h13] using h3

/-- Split the twelve stored digits of an EAN-13. -/
theorem split12 (ds : List Nat) (h : ds.length = 12) :
    ∃ d0 d1 ls rs, ds = d0 :: d1 :: (ls ++ rs) ∧ ls.length = 5 ∧ rs.length = 5 := by
  match ds, h with
  | d0 :: d1 :: t, h =>
    refine ⟨d0, d1, t.take 5, t.drop 5, by simp, ?_, ?_⟩ <;> simp at h ⊢ <;> omega

theorem split7 (ds : List Nat) (hl : ds.length = 7) :
    ∃ ns ls rs, ds = ns ++ (ls ++ rs) ∧ ns.length = 2 ∧ ls.length = 2 ∧ rs.length = 3 := by
  refine ⟨ds.take 2, (ds.drop 2).take 2, (ds.drop 2).drop 2, ?_, ?_, ?_, ?_⟩
  · rw [List.take_append_drop, List.take_append_drop]
  all_goals simp; try omega

theorem split11 (ds : List Nat) (hl : ds.length = 11) :
    ∃ ls rs, ds = ls ++ rs ∧ ls.length = 6 ∧ rs.length = 5 := by
  refine ⟨ds.take 6, ds.drop 6, ?_, ?_, ?_⟩
  · rw [List.take_append_drop]
  all_goals simp; try omega

end Barcoders
