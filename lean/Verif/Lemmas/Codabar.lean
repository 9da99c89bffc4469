import Verif.Lemmas.Elements
import Verif.Lemmas.Basic
import Verif.Model.Codabar
import Verif.Spec.Codabar

set_option autoImplicit false

namespace Barcoders
open Spec

/-- The seven widths the code uses for a unit. -/
def wU (u : Codabar.Unit) : List Nat := (runs u.lookup).map Prod.snd

theorem wU_spec (u : Codabar.Unit) : u.lookup = paintFrom 1 (wU u) ∧ (wU u).length = 7 ∧ (∀ w ∈ wU u, 0 < w ∧ w ≤ 2) := by
  cases u <;> decide

/-- The unit of a character. -/
def unitOf (c : Char) : Codabar.Unit := (Codabar.Unit.fromChar c).getD .Zero

theorem codabar_fromChar : ∀ c ∈ codabarAlphabet, Codabar.Unit.fromChar c = some (unitOf c) := by decide

theorem codabar_valid (c : Char) : c ∈ Codabar.validChars ↔ c ∈ codabarAlphabet := by
  have h1 : ∀ c ∈ Codabar.validChars, c ∈ codabarAlphabet := by decide
  have h2 : ∀ c ∈ codabarAlphabet, c ∈ Codabar.validChars := by decide
  exact ⟨h1 c, h2 c⟩

theorem codabar_ascii : ∀ c ∈ codabarAlphabet, c.toNat < 128 := by decide

/-- `Codabar::new`, completely, for every string. -/
theorem codabar_new (s : List Char) :
    Codabar.new s =
      if byteLen s % 2 ^ 32 < 1 ∨ byteLen s % 2 ^ 32 > 256 then .err .length
      else if ∀ c ∈ s, c ∈ codabarAlphabet then .ok ⟨s.map unitOf⟩ else .err .character := by
  unfold Codabar.new Codabar.parseData
  rw [parse_eq_mod]
  simp only [codabar_valid]
  split
  · rfl
  · split
    · rename_i hA
      rw [Outcome.ok_bind, mapO_ok _ unitOf]
      · rfl
      · intro c hc
        rw [codabar_fromChar c (hA c hc)]; rfl
    · rfl

/-- Element widths of a symbol. -/
def codabarSymWidths (us : List Codabar.Unit) (u : Codabar.Unit) : List Nat := us.flatMap (fun u => wU u ++ [1]) ++ wU u

theorem codabar_fold (len k : Nat) (acc : List Nat) (us : List Codabar.Unit) (u : Codabar.Unit)
    (h : len = k + us.length + 1) :
    (enumFrom k (us ++ [u])).foldl (Codabar.encodeStep len) acc =
      acc ++ us.flatMap (fun u => u.lookup ++ [0]) ++ u.lookup := by
  induction us generalizing k acc with
  | nil =>
    simp only [List.nil_append, enumFrom, List.foldl_cons, List.foldl_nil, Codabar.encodeStep]
    rw [if_neg (by simp at h; omega)]
    simp
  | cons v us ih =>
    rw [List.cons_append, enumFrom, List.foldl_cons, ih (k + 1) _ (by simp at h; omega), Codabar.encodeStep,
      if_pos (by simp at h; simp only; omega)]
    simp

theorem codabar_encode_eq (us : List Codabar.Unit) (u : Codabar.Unit) :
    Codabar.encode ⟨us ++ [u]⟩ = paint (codabarSymWidths us u) := by
  unfold Codabar.encode
  rw [enumerate, codabar_fold _ 0 [] us u (by simp), codabarSymWidths, paint, paintFrom_append_even 1 (by omega),
    paintFrom_flatMap 1 (by omega), ← (wU_spec u).1]
  · congr 1
    rw [List.nil_append, List.flatMap_def, List.flatMap_def]
    congr 1
    apply List.map_congr_left
    intro v _
    rw [paintFrom_append_odd 1 (by omega) _ _ (by rw [(wU_spec v).2.1]), ← (wU_spec v).1]
    rfl
  · intro v _
    rw [List.length_append, (wU_spec v).2.1]; rfl
  · rw [flatMap_length_eq 8 _ _ (fun v _ => by rw [List.length_append, (wU_spec v).2.1]; rfl)]
    omega

theorem codabar_widths_pos (us : List Codabar.Unit) (u : Codabar.Unit) : ∀ w ∈ codabarSymWidths us u, 0 < w ∧ w ≤ 2 := by
  intro w hw
  rw [codabarSymWidths, List.mem_append, List.mem_flatMap] at hw
  rcases hw with ⟨v, _, hw⟩ | hw
  · rw [List.mem_append, List.mem_singleton] at hw
    rcases hw with hw | hw
    · exact (wU_spec v).2.2 w hw
    · omega
  · exact (wU_spec u).2.2 w hw

theorem codabar_elements (us : List Codabar.Unit) (u : Codabar.Unit) :
    elements (paint (codabarSymWidths us u)) = some (codabarSymWidths us u) := by
  apply elements_paint _ (fun w hw => (codabar_widths_pos us u w hw).1)
  intro h
  have := congrArg List.length h
  rw [codabarSymWidths, List.length_append, (wU_spec u).2.1] at this
  simp at this

theorem codabar_gap (us : List Codabar.Unit) (u : Codabar.Unit) :
    codabarSymWidths us u ++ [1] = (us ++ [u]).flatMap (fun u => wU u ++ [1]) := by
  simp [codabarSymWidths]

/-- Exchange `B` and `C`. -/
def swapBC (c : Char) : Char := if c = 'B' then 'C' else if c = 'C' then 'B' else c

theorem codabar_read : ∀ c ∈ codabarAlphabet, c ≠ '+' → readCodabarChar (wU (unitOf c) ++ [1]) = some (swapBC c) := by
  decide

theorem scanCodabar_symbol (s : List Char) (h : ∀ c ∈ s, c ∈ codabarAlphabet) (hp : '+' ∉ s) (hne : s ≠ []) :
    scanCodabar (Codabar.encode ⟨s.map unitOf⟩) = some (s.map swapBC) := by
  obtain ⟨s, c, rfl⟩ : ∃ t c, s = t ++ [c] := by
    rcases List.eq_nil_or_concat s with h | ⟨t, c, h⟩
    · exact absurd h hne
    · exact ⟨t, c, by simpa using h⟩
  rw [List.map_append, List.map_cons, List.map_nil, codabar_encode_eq, scanCodabar, codabar_elements]
  simp only [Option.bind_eq_bind, Option.bind_some]
  rw [codabar_gap]
  have := readAll_flatMap 8 (by omega) readCodabarChar (fun c => wU (unitOf c) ++ [1]) swapBC (s ++ [c]) (by
    intro d hd
    refine ⟨by rw [List.length_append, (wU_spec _).2.1]; rfl, codabar_read d (h d hd) ?_⟩
    rintro rfl
    exact hp hd)
  rw [← this]
  simp [List.flatMap_map]

end Barcoders
