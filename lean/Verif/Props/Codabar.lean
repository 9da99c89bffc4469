import Verif.Lemmas.Codabar

/-!
# Codabar (C22, C23)
-/

set_option autoImplicit false

namespace Barcoders
open Spec

/-- C22. The complete behaviour of `Codabar::new` on strings below 4 GiB. -/
theorem C22_codabar_new (s : List Char) (hs : byteLen s < 2 ^ 32) :
    Codabar.new s =
      if byteLen s < 1 ∨ byteLen s > 256 then .err .length
      else if ∀ c ∈ s, c ∈ codabarAlphabet then .ok ⟨s.map unitOf⟩ else .err .character := by
  rw [codabar_new, Nat.mod_eq_of_lt hs]

example : Codabar.new "A1:B".toList = .ok ⟨"A1:B".toList.map unitOf⟩ := by decide

theorem codabar_byteLen (s : List Char) (h : ∀ c ∈ s, c ∈ codabarAlphabet) : byteLen s = s.length :=
  byteLen_ascii s (fun c hc => codabar_ascii c (h c hc))

/-- C22. `Codabar::new` accepts exactly 1 to 256 characters of the alphabet. -/
theorem C22_codabar_accepts (s : List Char) (hs : byteLen s < 2 ^ 32) :
    (∃ x, Codabar.new s = .ok x) ↔ 1 ≤ s.length ∧ s.length ≤ 256 ∧ ∀ c ∈ s, c ∈ codabarAlphabet := by
  rw [C22_codabar_new s hs]
  by_cases hA : ∀ c ∈ s, c ∈ codabarAlphabet
  · rw [codabar_byteLen s hA, if_pos hA]
    by_cases hl : s.length < 1 ∨ s.length > 256
    · rw [if_pos hl]
      exact ⟨fun ⟨_, h⟩ => (by cases h), fun h => (by omega)⟩
    · rw [if_neg hl]
      exact ⟨fun _ => ⟨by omega, by omega, hA⟩, fun _ => ⟨_, rfl⟩⟩
  · rw [if_neg hA]
    constructor
    · rintro ⟨x, h⟩
      split at h <;> cases h
    · exact fun h => absurd h.2.2 hA

example : (∀ c ∈ "A12:34/5.6+7$8-9D".toList, c ∈ codabarAlphabet) ∧ ¬ (∀ c ∈ "A1E".toList, c ∈ codabarAlphabet) := by decide

/-- C22. The error is `Length` exactly when the byte length is out of range, and `Character` otherwise. -/
theorem C22_codabar_errors (s : List Char) (hs : byteLen s < 2 ^ 32) (e : Error) :
    Codabar.new s = .err e ↔
      (e = .length ∧ (byteLen s < 1 ∨ byteLen s > 256)) ∨
      (e = .character ∧ 1 ≤ byteLen s ∧ byteLen s ≤ 256 ∧ ∃ c ∈ s, c ∉ codabarAlphabet) := by
  rw [C22_codabar_new s hs]
  split
  · rename_i hl
    cases e <;> simp_all <;> omega
  · rename_i hl
    split
    · rename_i hA
      constructor
      · intro h; cases h
      · rintro (⟨-, h⟩ | ⟨-, -, -, c, hc, hc'⟩)
        · exact absurd h hl
        · exact absurd (hA c hc) hc'
    · rename_i hA
      have : ∃ c ∈ s, c ∉ codabarAlphabet := by simpa using hA
      cases e <;> simp_all <;> omega

example : Codabar.new "A1a".toList = .err .character ∧ Codabar.new (List.replicate 257 '1') = .err .length := by decide +kernel

/-- C22. `Codabar::new` never panics, whatever the length. -/
theorem C22_codabar_no_panic (s : List Char) : (Codabar.new s).isPanic = false := by
  rw [codabar_new]
  split
  · rfl
  · split <;> rfl

example : (Codabar.new "A12:34/5.6+7$8-9D".toList).isOk = true := by decide
example : Codabar.new "".toList = .err .length := by decide
example : Codabar.new "A12X34D".toList = .err .character := by decide

theorem codabar_new_ok (s : List Char) (x : Codabar.Codabar) (h : Codabar.new s = .ok x) :
    x = ⟨s.map unitOf⟩ ∧ (∀ c ∈ s, c ∈ codabarAlphabet) ∧ s ≠ [] := by
  rw [codabar_new] at h
  split at h
  · cases h
  · rename_i hl
    split at h
    · cases h
      refine ⟨rfl, by assumption, ?_⟩
      rintro rfl
      exact hl (Or.inl (by decide))
    · cases h

/-- C23 (part). From every accepted string without `+`, a standard Codabar scanner reads the string with `B` and `C`
exchanged. Missing from the full statement: it is false. The code draws `B` as the standard `C` and vice versa, and draws
`+` as a pattern no scanner knows; see the two theorems below. -/
theorem C23_codabar_scan_partial (s : List Char) (x : Codabar.Codabar) (h : Codabar.new s = .ok x) (hp : '+' ∉ s) :
    scanCodabar (Codabar.encode x) = some (s.map swapBC) := by
  obtain ⟨rfl, hA, hne⟩ := codabar_new_ok s x h
  exact scanCodabar_symbol s hA hp hne

example : ∃ x, Codabar.new "B7-C".toList = .ok x ∧ '+' ∉ "B7-C".toList ∧
    scanCodabar (Codabar.encode x) = some "C7-B".toList := ⟨_, rfl, by decide, by decide⟩

/-- C23 (part). Without `+`, `B` and `C`, the scanner reads exactly the string. -/
theorem C23_codabar_scan_plain_partial (s : List Char) (x : Codabar.Codabar) (h : Codabar.new s = .ok x)
    (hp : '+' ∉ s) (hb : 'B' ∉ s) (hc : 'C' ∉ s) : scanCodabar (Codabar.encode x) = some s := by
  rw [C23_codabar_scan_partial s x h hp]
  congr 1
  conv => rhs; rw [← List.map_id s]
  apply List.map_congr_left
  intro c hm
  have h1 : c ≠ 'B' := by rintro rfl; exact hb hm
  have h2 : c ≠ 'C' := by rintro rfl; exact hc hm
  simp [swapBC, h1, h2]

example : ∃ x, Codabar.new "A12:34/5.6$8-9D".toList = .ok x ∧
    scanCodabar (Codabar.encode x) = some "A12:34/5.6$8-9D".toList := ⟨_, rfl, by decide⟩

/-- C23 fails: a standard scanner reads `B` where the user wrote `C`. -/
theorem C23_codabar_b_c_swapped : ∃ x, Codabar.new "B12C".toList = .ok x ∧
    scanCodabar (Codabar.encode x) = some "C12B".toList := ⟨_, rfl, by decide⟩

/-- The code's pattern for `+` is in no chart. -/
theorem codabar_plus_read : readCodabarChar (wU (unitOf '+') ++ [1]) = none := by decide

theorem readAll_none {α β : Type} (k : Nat) (hk : 0 < k) (f : List Nat → Option α) (w : β → List Nat) (ds : List β)
    (h : ∀ d ∈ ds, (w d).length = k) (d : β) (hd : d ∈ ds) (hn : f (w d) = none) : readAll k f (ds.flatMap w) = none := by
  induction ds with
  | nil => cases hd
  | cons a ds ih =>
    rw [List.flatMap_cons]
    have hl := h a (by simp)
    have hne : w a ≠ [] := by intro e; rw [e] at hl; simp at hl; omega
    have := readAllFrom_group k f [] (w a) (ds.flatMap w) hne (by simpa using hl)
    rw [readAll, this]
    simp only [List.nil_append]
    rcases List.mem_cons.mp hd with rfl | hd
    · rw [hn]; rfl
    · have e := ih (fun x hx => h x (by simp [hx])) hd
      rw [readAll] at e
      rw [e]
      cases f (w a) <;> rfl

/-- C23 fails: no symbol containing `+` can be read by a standard scanner, wherever the `+` is. -/
theorem C23_codabar_plus_unreadable (s : List Char) (x : Codabar.Codabar) (h : Codabar.new s = .ok x) (hp : '+' ∈ s) :
    scanCodabar (Codabar.encode x) = none := by
  obtain ⟨rfl, hA, hne⟩ := codabar_new_ok s x h
  obtain ⟨t, c, rfl⟩ : ∃ t c, s = t ++ [c] := by
    rcases List.eq_nil_or_concat s with h | ⟨t, c, h⟩
    · exact absurd h hne
    · exact ⟨t, c, by simpa using h⟩
  rw [List.map_append, List.map_cons, List.map_nil, codabar_encode_eq, scanCodabar, codabar_elements]
  simp only [Option.bind_eq_bind, Option.bind_some]
  rw [codabar_gap]
  exact readAll_none 8 (by omega) _ _ _ (fun u _ => by rw [List.length_append, (wU_spec u).2.1]; rfl) (unitOf '+')
    (by
      have : unitOf '+' ∈ (t ++ [c]).map unitOf := List.mem_map_of_mem hp
      simpa using this) codabar_plus_read

example : ∃ x, Codabar.new "A1+2D".toList = .ok x ∧ scanCodabar (Codabar.encode x) = none := ⟨_, rfl, by decide⟩

end Barcoders
