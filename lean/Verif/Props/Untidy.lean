import Verif.Spec.Untidy
import Verif.Props.Code128
import Verif.Props.EanSupp
import Verif.Props.ExactTF
import Verif.Props.Code39
import Verif.Props.Code93
import Verif.Props.Code11
import Verif.Props.Codabar
import Verif.Lemmas.CheckedNew

/-!
# C125: input that was not tidied up
-/

set_option autoImplicit false

namespace Barcoders

open Spec

/-- `Length` or `Character` is returned. -/
def Refused {α : Type} (o : Outcome α) : Prop := o = .err .length ∨ o = .err .character

theorem refused_ite {α : Type} (p q : Prop) [Decidable p] [Decidable q] (o o' : Outcome α) (h : ¬ q) (he : o' = .err .character) :
    Refused (if p then .err .length else if q then o else o') := by
  by_cases hp : p
  · rw [if_pos hp]; exact .inl rfl
  · rw [if_neg hp, if_neg h]; exact .inr he

theorem refused_ite_not {α : Type} (p q : Prop) [Decidable p] [Decidable q] (o : Outcome α) (h : ¬ q) :
    Refused (if p then .err .length else if ¬ q then .err .character else o) := by
  by_cases hp : p
  · rw [if_pos hp]; exact .inl rfl
  · rw [if_neg hp, if_pos h]; exact .inr rfl

theorem untidy_alphabets : ∀ c ∈ code93Alphabet ++ code39Alphabet ++ code11Alphabet ++ codabarAlphabet, ¬ Untidy c := by decide +kernel

theorem untidy_digit (c : Char) (h : c.isDigit = true) : ¬ Untidy c := by
  rw [toNat_isDigit] at h
  unfold Untidy
  omega

theorem refused_of (b : Build) (s : List Char) (c : Char) (hc : c ∈ s) (hd : c.isDigit = false) :
    Refused (Ean13.new b s) ∧ Refused (Ean8.new b s) ∧ Refused (Upca.new b s) ∧ Refused (EanSupp.new s) ∧ Refused (TF.standard s) ∧
    Refused (TF.interleaved b s) := by
  have h : ¬ AllDigits s := fun h => by rw [h c hc] at hd; cases hd
  rw [ean13_new, ean8_new, upca_new, supp_new, stf_new, itf_new]
  exact ⟨refused_ite_not _ _ _ h, refused_ite_not _ _ _ h, refused_ite_not _ _ _ h, refused_ite_not _ _ _ h, refused_ite_not _ _ _ h,
    refused_ite_not _ _ _ h⟩

/-- C125. A control character, a lower case letter or a character beyond ASCII, wherever it stands, is refused. -/
theorem C125_refused (b : Build) (s : List Char) (c : Char) (hc : c ∈ s) (hu : Untidy c) :
    Refused (Ean13.new b s) ∧ Refused (Ean8.new b s) ∧ Refused (Upca.new b s) ∧ Refused (EanSupp.new s) ∧ Refused (TF.standard s) ∧
    Refused (TF.interleaved b s) ∧ Refused (Code39.new s) ∧ Refused (Code39.withChecksum s) ∧ Refused (Code93.new s) ∧
    Refused (Code11.new s) ∧ Refused (Codabar.new s) := by
  have hd : c.isDigit = false := by
    cases h : c.isDigit with
    | false => rfl
    | true => exact absurd hu (untidy_digit c h)
  obtain ⟨h1, h2, h3, h4, h5, h6⟩ := refused_of b s c hc hd
  have key : ∀ A : List Char, (∀ c ∈ A, c ∈ code93Alphabet ++ code39Alphabet ++ code11Alphabet ++ codabarAlphabet) →
      ¬ ∀ c ∈ s, c ∈ A := fun A hA h => untidy_alphabets c (hA c (h c hc)) hu
  refine ⟨h1, h2, h3, h4, h5, h6, ?_, ?_, ?_, ?_, ?_⟩
  · rw [Code39.new, code39_init]
    exact refused_ite _ _ _ _ (key code39Alphabet (fun c h => by simp [h])) rfl
  · rw [Code39.withChecksum, code39_init]
    exact refused_ite _ _ _ _ (key code39Alphabet (fun c h => by simp [h])) rfl
  · rw [code93_new]
    exact refused_ite _ _ _ _ (key code93Alphabet (fun c h => by simp [h])) rfl
  · rw [code11_new]
    exact refused_ite _ _ _ _ (key code11Alphabet (fun c h => by simp [h])) rfl
  · rw [codabar_new]
    exact refused_ite _ _ _ _ (key codabarAlphabet (fun c h => by simp [h])) rfl

/-- A line read from a file, with its end; a number in full-width digits. -/
example : (Ean8.new .debug "9638507\n".toList) = .err .character ∧ (Ean8.new .debug "9638507".toList).isOk = true ∧
    Code39.new "abc".toList = .err .character ∧ TF.standard "\uff11\uff12".toList = .err .character := by decide

/-- C125. Blanks are data in Code 39 and Code 93 and refused in the others. -/
theorem C125_blank (b : Build) (s t : List Char) :
    (Refused (Ean13.new b (s ++ ' ' :: t)) ∧ Refused (Ean8.new b (s ++ ' ' :: t)) ∧ Refused (Upca.new b (s ++ ' ' :: t)) ∧
      Refused (EanSupp.new (s ++ ' ' :: t)) ∧ Refused (TF.standard (s ++ ' ' :: t)) ∧ Refused (TF.interleaved b (s ++ ' ' :: t)) ∧
      Refused (Code11.new (s ++ ' ' :: t)) ∧ Refused (Codabar.new (s ++ ' ' :: t))) ∧
    ((∃ x, Code39.new (s ++ t) = .ok x) → s.length + t.length < 256 →
      ∃ x ms, Code39.new (s ++ ' ' :: t) = .ok x ∧ Code39.encode x = .ok ms ∧ scanCode39 ms = some (s ++ ' ' :: t)) ∧
    ((∃ x, Code93.new (s ++ t) = .ok x) → s.length + t.length < 256 →
      ∃ x ms, Code93.new (s ++ ' ' :: t) = .ok x ∧ Code93.encode x = .ok ms ∧ scanCode93 ms = some (s ++ ' ' :: t)) := by
  have hc : ' ' ∈ s ++ ' ' :: t := by simp
  have bl : ∀ A : List Char, ' ' ∈ A → (∀ c ∈ s ++ t, c ∈ A) → ∀ c ∈ s ++ ' ' :: t, c ∈ A := by
    intro A hA h c hc
    rcases List.mem_append.mp hc with h' | h'
    · exact h c (List.mem_append.mpr (.inl h'))
    · rcases List.mem_cons.mp h' with rfl | h'
      · exact hA
      · exact h c (List.mem_append.mpr (.inr h'))
  obtain ⟨h1, h2, h3, h4, h5, h6⟩ := refused_of b _ ' ' hc (by decide)
  refine ⟨⟨h1, h2, h3, h4, h5, h6, ?_, ?_⟩, ?_, ?_⟩
  · rw [code11_new]
    exact refused_ite _ _ _ _ (fun h => absurd (h ' ' hc) (by decide)) rfl
  · rw [codabar_new]
    exact refused_ite _ _ _ _ (fun h => absurd (h ' ' hc) (by decide)) rfl
  · rintro ⟨x, hx⟩ hl
    have hA := bl _ (by decide) (code39_init_ok _ _ _ hx).2
    have hb := code39_byteLen _ hA
    have hl' : (s ++ ' ' :: t).length = s.length + t.length + 1 := by simp; omega
    have hn : Code39.new (s ++ ' ' :: t) = .ok ⟨s ++ ' ' :: t, false⟩ := by
      rw [C13_code39_new _ (by omega), if_neg (by omega), if_pos hA]
    obtain ⟨ms, e, r⟩ := C14_code39_scan _ _ hn
    exact ⟨_, ms, hn, e, r⟩
  · rintro ⟨x, hx⟩ hl
    have hA := bl _ (by decide) (code93_new_ok _ _ hx).2
    have hb := code93_byteLen _ hA
    have hl' : (s ++ ' ' :: t).length = s.length + t.length + 1 := by simp; omega
    have hn : Code93.new (s ++ ' ' :: t) = .ok ⟨s ++ ' ' :: t⟩ := by
      rw [C16_code93_new _ (by omega), if_neg (by omega), if_pos hA]
    obtain ⟨ms, e, r⟩ := C17_code93_scan _ _ hn
    exact ⟨_, ms, hn, e, r⟩

example : Code39.new "A ".toList = .ok ⟨"A ".toList, false⟩ ∧ Code11.new "1 ".toList = .err .character ∧
    Ean8.new .debug "9638507 ".toList = .err .character := by decide

/-! ## Code 128 -/

theorem lastSet_cons (set : CodeSet) (c : Char) (s : List Char) : lastSet set (c :: s) = lastSet ((setOf c).getD set) s := by
  rw [lastSet, setOf]
  (repeat' split) <;> rfl

theorem run128_append (set : CodeSet) (carry : Option Char) (s t : List Char) (h : (run128 set carry s).isSome = true) :
    (run128 set carry (s ++ t)).isSome = (run128 (lastSet set s) none t).isSome := by
  induction s generalizing set carry with
  | nil =>
    cases carry with
    | none => rfl
    | some d => simp [run128] at h
  | cons c s ih =>
    rw [run128_cons] at h
    rw [List.cons_append, run128_cons, lastSet_cons]
    cases hs : setOf c with
    | some set' =>
      rw [hs] at h
      cases carry with
      | some d => simp at h
      | none =>
        simp only [] at h ⊢
        cases hv : val set [c] with
        | none => rw [hv] at h; simp at h
        | some v =>
          rw [hv, Option.bind_some, Option.isSome_map] at h
          rw [Option.bind_some, Option.isSome_map, ih _ _ h]
          rfl
    | none =>
      rw [hs] at h
      simp only [Option.getD_none] at h ⊢
      by_cases hd : c.isDigit = true ∧ set = .C
      · rw [if_pos hd] at h ⊢
        obtain ⟨-, rfl⟩ := hd
        cases carry with
        | none => exact ih _ _ h
        | some d =>
          simp only [] at h ⊢
          cases hv : val .C [d, c] with
          | none => rw [hv] at h; simp at h
          | some v =>
            rw [hv, Option.bind_some, Option.isSome_map] at h
            rw [Option.bind_some, Option.isSome_map, ih _ _ h]
      · rw [if_neg hd] at h ⊢
        cases hv : val set [c] with
        | none => rw [hv] at h; simp at h
        | some v =>
          rw [hv, Option.bind_some, Option.isSome_map] at h
          rw [Option.bind_some, Option.isSome_map, ih _ _ h]

/-- C125. Which character may follow accepted Code 128 data: one of the code set in force, or a change of code set. -/
theorem C125_code128 (s : List Char) (x : Code128.Code128) (h : Code128.new s = .ok x) (c : Char) :
    (∃ y, Code128.new (s ++ [c]) = .ok y) ↔ code128Single (lastSet .A s) c ∨ ∃ set, set ≠ lastSet .A s ∧ c = set.char := by
  obtain ⟨set, r, rfl, hD⟩ := (C27_code128_new s).2.1.mp ⟨x, h⟩
  have e : lastSet .A (set.char :: r) = lastSet set r := by rw [lastSet_cons, (setOf_iff _ _).mpr rfl]; rfl
  rw [(C27_code128_new _).2.1, e]
  have h1 : Code128WellFormed (set.char :: r ++ [c]) ↔ Code128Data (lastSet set r) [c] := by
    rw [← (run128_iff [c]).1, ← run128_append set none r [c] (((run128_iff r).1 set).mpr hD), (run128_iff _).1]
    constructor
    · rintro ⟨set', r', e, hD'⟩
      rw [List.cons_append, List.cons.injEq] at e
      have : set = set' := by
        have h1 := (setOf_iff set.char set').mpr e.1
        rw [(setOf_iff _ set).mpr rfl] at h1
        exact Option.some.inj h1
      subst this
      rw [e.2]
      exact hD'
    · intro hD'
      exact ⟨set, r ++ [c], rfl, hD'⟩
  rw [h1]
  generalize lastSet set r = z
  constructor
  · intro hD'
    generalize hl : [c] = l at hD'
    cases hD' with
    | nil => cases hl
    | single _ c' s' h1 h2 =>
      rw [List.cons.injEq] at hl
      exact .inl (by rw [hl.1]; exact h1)
    | pair d e n s' =>
      rw [List.cons.injEq] at hl
      have := congrArg List.length hl.2
      simp at this
    | switch _ set' s' h1 h2 =>
      rw [List.cons.injEq] at hl
      exact .inr ⟨set', fun h => h1 h.symm, hl.1⟩
  · rintro (h | ⟨set', h3, rfl⟩)
    · exact .single _ _ _ h (.nil _)
    · exact .switch _ _ _ (fun h => h3 h.symm) (.nil _)

/-- C125. A line end or tab at the end of Code 128 data is accepted in set A only, a blank in sets A and B, and no other
character beyond ASCII than the marks of the notation. -/
theorem C125_code128_line (s : List Char) (x : Code128.Code128) (h : Code128.new s = .ok x) :
    (∀ c ∈ ['\n', '\r', '\t'], (∃ y, Code128.new (s ++ [c]) = .ok y) ↔ lastSet .A s = .A) ∧
    ((∃ y, Code128.new (s ++ [' ']) = .ok y) ↔ lastSet .A s ≠ .C) ∧
    (∀ c ∈ s, c.toNat < 127 ∨ c ∈ ['À', 'Ɓ', 'Ć', fnc1, fnc2, fnc3, fnc4, shiftChar, delChar]) := by
  refine ⟨?_, ?_, ?_⟩
  · intro c hc
    rw [C125_code128 s x h]
    generalize lastSet .A s = z
    simp only [List.mem_cons, List.not_mem_nil, or_false] at hc
    rcases hc with rfl | rfl | rfl <;> cases z <;> simp [code128Single, fnc1, fnc2, fnc3, fnc4, shiftChar, delChar] <;>
      intro y _ <;> cases y <;> decide
  · rw [C125_code128 s x h]
    generalize lastSet .A s = z
    cases z <;> simp [code128Single, fnc1, fnc2, fnc3, fnc4, shiftChar, delChar]
    intro y _
    cases y <;> decide
  · obtain ⟨set, r, rfl, hD⟩ := (C27_code128_new s).2.1.mp ⟨x, h⟩
    have mark : ∀ set : CodeSet, set.char ∈ ['À', 'Ɓ', 'Ć', fnc1, fnc2, fnc3, fnc4, shiftChar, delChar] := by
      intro set; cases set <;> decide
    have dig : ∀ d : Char, d.isDigit = true → d.toNat < 127 := by
      intro d hd; rw [toNat_isDigit] at hd; omega
    have key : ∀ c ∈ r, c.toNat < 127 ∨ c ∈ ['À', 'Ɓ', 'Ć', fnc1, fnc2, fnc3, fnc4, shiftChar, delChar] := by
      clear h
      induction hD with
      | nil => intro c hc; cases hc
      | single set c s h1 h2 ih =>
        intro a ha
        rcases List.mem_cons.mp ha with rfl | ha
        · cases set <;> simp only [code128Single] at h1 <;> simp only [List.mem_cons, List.not_mem_nil, or_false] <;>
            (try rcases h1 with h1 | h1 | h1 | h1 | h1 | h1 | h1) <;> first | (left; omega) | (right; simp [h1]) | decide
        · exact ih a ha
      | pair d e n s hd he h2 ih =>
        intro a ha
        rcases List.mem_cons.mp ha with rfl | ha
        · exact .inl (dig _ hd)
        · rcases List.mem_append.mp ha with ha | ha
          · rw [List.eq_of_mem_replicate ha]; right; decide
          · rcases List.mem_cons.mp ha with rfl | ha
            · exact .inl (dig _ he)
            · exact ih a ha
      | switch set set' s h1 h2 ih =>
        intro a ha
        rcases List.mem_cons.mp ha with rfl | ha
        · exact .inr (mark _)
        · exact ih a ha
    intro c hc
    rcases List.mem_cons.mp hc with rfl | hc
    · exact .inr (mark _)
    · exact key c hc

example : (Code128.new "ÀAB\n".toList).isOk = true ∧ Code128.new "ƁAB\n".toList = .err .character ∧
    (Code128.new "ƁAB ".toList).isOk = true ∧ Code128.new "Ć12 ".toList = .err .character ∧
    Code128.new "\ufeffƁAB".toList = .err .character := by decide +kernel

end Barcoders
