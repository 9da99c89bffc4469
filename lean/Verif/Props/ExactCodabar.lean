import Verif.Props.Codabar
import Verif.Spec.CodabarOwn

/-!
# Codabar, exactly as it is (C54)
-/

set_option autoImplicit false

namespace Barcoders
open Spec

/-- C54. What a standard Codabar scanner makes of every accepted string: nothing if it contains `+`, otherwise the string
with `B` and `C` exchanged. -/
theorem C54_codabar_scan (s : List Char) (x : Codabar.Codabar) (h : Codabar.new s = .ok x) :
    scanCodabar (Codabar.encode x) =
      if '+' ∈ s then none
      else some (s.map fun c => if c = 'B' then 'C' else if c = 'C' then 'B' else c) := by
  split
  · exact C23_codabar_plus_unreadable s x h (by assumption)
  · exact C23_codabar_scan_partial s x h (by assumption)

example : ∃ x y, Codabar.new "A1B".toList = .ok x ∧ scanCodabar (Codabar.encode x) = some "A1C".toList ∧
    Codabar.new "A+B".toList = .ok y ∧ scanCodabar (Codabar.encode y) = none := ⟨_, _, rfl, by decide, rfl, by decide⟩

theorem codabar_own_read : ∀ c ∈ codabarAlphabet, readOwnCodabarChar (wU (unitOf c) ++ [1]) = some c := by decide

/-- C54. No information is lost: a scanner that knows the library's table reads back exactly every accepted string. -/
theorem C54_codabar_own_scan (s : List Char) (x : Codabar.Codabar) (h : Codabar.new s = .ok x) :
    scanOwnCodabar (Codabar.encode x) = some s := by
  obtain ⟨rfl, hA, hne⟩ := codabar_new_ok s x h
  obtain ⟨t, c, rfl⟩ : ∃ t c, s = t ++ [c] := by
    rcases List.eq_nil_or_concat s with h | ⟨t, c, h⟩
    · exact absurd h hne
    · exact ⟨t, c, by simpa using h⟩
  rw [List.map_append, List.map_cons, List.map_nil, codabar_encode_eq, scanOwnCodabar, codabar_elements]
  simp only [Option.bind_eq_bind, Option.bind_some]
  rw [codabar_gap]
  have := readAll_flatMap 8 (by omega) readOwnCodabarChar (fun c => wU (unitOf c) ++ [1]) id (t ++ [c]) (by
    intro d hd
    exact ⟨by rw [List.length_append, (wU_spec _).2.1]; rfl, codabar_own_read d (hA d hd)⟩)
  rw [List.map_id] at this
  rw [← this]
  simp [List.flatMap_map]

example : ∃ x, Codabar.new "A+B".toList = .ok x ∧ scanOwnCodabar (Codabar.encode x) = some "A+B".toList := ⟨_, rfl, by decide⟩

/-- C54. The standard scanner reads exactly the data if and only if it has no `+`, `B` or `C`. -/
theorem C54_codabar_scan_iff (s : List Char) (x : Codabar.Codabar) (h : Codabar.new s = .ok x) :
    scanCodabar (Codabar.encode x) = some s ↔ '+' ∉ s ∧ 'B' ∉ s ∧ 'C' ∉ s := by
  constructor
  · intro hs
    rw [C54_codabar_scan s x h] at hs
    split at hs
    · cases hs
    · rename_i hp
      rw [Option.some.injEq] at hs
      have fix : ∀ c ∈ s, (if c = 'B' then 'C' else if c = 'C' then 'B' else c) = c := by
        have : ∀ l : List Char, (l.map fun c => if c = 'B' then 'C' else if c = 'C' then 'B' else c) = l →
            ∀ c ∈ l, (if c = 'B' then 'C' else if c = 'C' then 'B' else c) = c := by
          intro l
          induction l with
          | nil => simp
          | cons a l ih =>
            intro he c hc
            rw [List.map_cons, List.cons.injEq] at he
            rcases List.mem_cons.mp hc with rfl | hc
            · exact he.1
            · exact ih he.2 c hc
        exact this s hs
      refine ⟨hp, fun hb => ?_, fun hc => ?_⟩
      · exact absurd (fix 'B' hb) (by decide)
      · exact absurd (fix 'C' hc) (by decide)
  · rintro ⟨h1, h2, h3⟩
    exact C23_codabar_scan_plain_partial s x h h1 h2 h3

example : ∃ x, Codabar.new "B1+2C".toList = .ok x ∧ scanOwnCodabar (Codabar.encode x) = some "B1+2C".toList ∧
    scanCodabar (Codabar.encode x) = none := ⟨_, rfl, by decide⟩

end Barcoders
