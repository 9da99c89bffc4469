import Verif.Lemmas.Elements
import Verif.Lemmas.Basic
import Verif.Model.Code93
import Verif.Spec.Code93
import Verif.Lemmas.Cyclic

set_option autoImplicit false

namespace Barcoders
open Spec

theorem code93_alphabet : Code93.CHARS.map Prod.fst = code93Alphabet := by decide

/-- The six widths of a character. -/
def w93 (c : Char) : List Nat := ((code93Chart.find? (fun p => p.1 == c)).map Prod.snd).getD []

theorem w93_spec : ∀ c ∈ '*' :: code93Alphabet, (w93 c).length = 6 ∧ readCode93Char (w93 c) = some c ∧
    (∀ w ∈ w93 c, 0 < w ∧ w ≤ 4) := by decide

theorem w93_enc : ∀ c ∈ code93Alphabet, Code93.charEncoding c = .ok (paintFrom 1 (w93 c)) := by decide

theorem w93_guard : Code93.GUARD = paintFrom 1 (w93 '*') := by decide

theorem code93_pos : ∀ c ∈ code93Alphabet, Code93.getCharPos c = .ok (code93Value c) := by decide

theorem code93_ascii : ∀ c ∈ code93Alphabet, c.toNat < 128 := by decide

theorem code93_nostar : '*' ∉ code93Alphabet := by decide

theorem code93Check_mem (n : Nat) (s : List Char) : code93Check n s ∈ code93Alphabet := by
  have h : cyclicSum n 0 (s.map code93Value).reverse % 47 < code93Alphabet.length := Nat.mod_lt _ (by decide)
  rw [code93Check, List.getD_eq_getElem?_getD, List.getElem?_eq_getElem h]
  exact List.getElem_mem h

/-- `Code93::new`, completely, for every string. -/
theorem code93_new (s : List Char) :
    Code93.new s =
      if byteLen s % 2 ^ 32 < 1 ∨ byteLen s % 2 ^ 32 > 256 then .err .length
      else if ∀ c ∈ s, c ∈ code93Alphabet then .ok ⟨s⟩ else .err .character := by
  unfold Code93.new Code93.parseData
  rw [parse_eq_mod, code93_alphabet]
  split
  · rfl
  · split <;> rfl

theorem weight_eq (T n : Nat) (hT : 0 < T) (i len : Nat) (h : len - i = n + 1) :
    Code93.weight len T i = n % T + 1 := by
  unfold Code93.weight
  simp only [h]
  have h1 := Nat.mod_add_div n T
  have h2 := Nat.mod_lt n hT
  have e : (n + 1) % T = (n % T + 1) % T := by rw [Nat.mod_add_mod]
  rw [e]
  by_cases hc : n % T + 1 = T
  · rw [hc, Nat.mod_self]; simp
  · rw [Nat.mod_eq_of_lt (show n % T + 1 < T by omega)]
    simp

theorem weights_fold (T : Nat) (hT : 0 < T) (len k acc : Nat) (ps : List Nat) (h : len = k + ps.length) :
    (enumFrom k ps).foldl (fun acc p => acc + Code93.weight len T p.1 * p.2) acc = acc + cyclicSum T 0 ps.reverse := by
  induction ps generalizing k acc with
  | nil => simp [enumFrom, cyclicSum]
  | cons d ps ih =>
    rw [enumFrom, List.foldl_cons, ih (k + 1) _ (by simp at h; omega), List.reverse_cons, cyclicSum_append, cyclicSum,
      cyclicSum, weight_eq T ps.length hT k len (by simp at h; omega)]
    simp only [List.length_reverse, Nat.zero_add, Nat.add_zero]
    omega

theorem code93_checksumChar (T : Nat) (hT : 0 < T) (s : List Char) (h : ∀ c ∈ s, c ∈ code93Alphabet) :
    Code93.checksumChar s T = .ok (some (code93Check T s)) := by
  have hlt : cyclicSum T 0 (s.map code93Value).reverse % 47 < code93Alphabet.length := Nat.mod_lt _ (by decide)
  unfold Code93.checksumChar
  rw [mapO_ok _ code93Value s (fun c hc => code93_pos c (h c hc)), Outcome.ok_bind]
  have hl : Code93.CHARS.length = 47 := by decide
  simp only [hl]
  rw [enumerate, weights_fold T hT s.length 0 0 _ (by simp), Nat.zero_add, ← List.getElem?_map, code93_alphabet, code93Check,
    List.getD_eq_getElem?_getD, List.getElem?_eq_getElem hlt]
  rfl

/-- The characters shown between start and stop. -/
def code93Text (s : List Char) : List Char :=
  s ++ [code93Check 20 s, code93Check 15 (s ++ [code93Check 20 s])]

/-- Element widths of a Code 93 symbol. -/
def code93SymWidths (t : List Char) : List Nat := ('*' :: (t ++ ['*'])).flatMap w93 ++ [1]

theorem code93_text_mem (s : List Char) (h : ∀ c ∈ s, c ∈ code93Alphabet) : ∀ c ∈ code93Text s, c ∈ code93Alphabet := by
  intro c hc
  simp only [code93Text, List.mem_append, List.mem_cons, List.not_mem_nil, or_false] at hc
  rcases hc with hc | hc | hc
  · exact h c hc
  · rw [hc]; exact code93Check_mem _ _
  · rw [hc]; exact code93Check_mem _ _

theorem star_text_mem (alphabet t : List Char) (h : ∀ c ∈ t, c ∈ alphabet) : ∀ c ∈ '*' :: (t ++ ['*']), c ∈ '*' :: alphabet := by
  intro c hc
  simp only [List.mem_cons, List.mem_append, List.not_mem_nil, or_false] at hc ⊢
  rcases hc with hc | hc | hc
  · exact Or.inl hc
  · exact Or.inr (h c hc)
  · exact Or.inl hc

theorem code93_encode_eq (s : List Char) (h : ∀ c ∈ s, c ∈ code93Alphabet) :
    Code93.encode ⟨s⟩ = .ok (paint (code93SymWidths (code93Text s))) := by
  have hc : ∀ c ∈ s ++ [code93Check 20 s], c ∈ code93Alphabet := by
    intro c hc
    rcases List.mem_append.mp hc with hc | hc
    · exact h c hc
    · rw [List.mem_singleton] at hc; rw [hc]; exact code93Check_mem _ _
  have hp : Code93.payload ⟨s⟩ = .ok ((code93Text s).flatMap (fun c => paintFrom 1 (w93 c))) := by
    unfold Code93.payload Code93.cChecksumChar Code93.kChecksumChar
    simp only [code93_checksumChar 20 (by omega) s h, Outcome.ok_bind, unwrap,
      code93_checksumChar 15 (by omega) _ hc, w93_enc _ (code93Check_mem _ _)]
    rw [foldO_ok _ (fun enc c => enc ++ paintFrom 1 (w93 c)), foldl_append, Outcome.ok_bind]
    · simp [Code93.pushEncoding, code93Text]
    · intro c hc enc
      rw [w93_enc c (h c hc)]
      simp [Code93.pushEncoding]
  have hm := star_text_mem _ _ (code93_text_mem s h)
  unfold Code93.encode
  rw [hp, Outcome.ok_bind, w93_guard, code93SymWidths, paint, paintFrom_append_even 1 (by omega), paintFrom_flatMap 1 (by omega)]
  · simp [Helpers.joinSlices, List.append_assoc, Code93.TERMINATOR, paintFrom]
  · intro c hc
    rw [(w93_spec c (hm c hc)).1]
  · rw [flatMap_length_eq 6 _ _ (fun c hc => (w93_spec c (hm c hc)).1)]
    omega

theorem code93_widths_pos (t : List Char) (h : ∀ c ∈ t, c ∈ code93Alphabet) : ∀ w ∈ code93SymWidths t, 0 < w ∧ w ≤ 4 := by
  intro w hw
  have hm := star_text_mem _ _ h
  rw [code93SymWidths, List.mem_append, List.mem_flatMap, List.mem_singleton] at hw
  rcases hw with ⟨c, hc, hw⟩ | hw
  · exact (w93_spec c (hm c hc)).2.2 w hw
  · omega

theorem readCode93_paint (t : List Char) (h : ∀ c ∈ t, c ∈ code93Alphabet) :
    readCode93 (paint (code93SymWidths t)) = some t := by
  have hm := star_text_mem _ _ h
  have hr := readAll_flatMap 6 (by omega) readCode93Char w93 id ('*' :: (t ++ ['*'])) (by
    intro c hc
    have := w93_spec c (hm c hc)
    exact ⟨this.1, this.2.1⟩)
  rw [List.map_id] at hr
  rw [readCode93, elements_paint _ (fun w hw => (code93_widths_pos t h w hw).1) (by simp [code93SymWidths])]
  have h1 : (code93SymWidths t).getLast? = some 1 := by rw [code93SymWidths, List.getLast?_concat]
  have h2 : (code93SymWidths t).dropLast = ('*' :: (t ++ ['*'])).flatMap w93 := by
    rw [code93SymWidths, List.dropLast_concat]
  have ht : ('*' :: (t ++ ['*'])).tail.dropLast = t := by simp
  simp only [Option.bind_eq_bind, Option.bind_some, h1, h2, hr, ht, if_true]
  rw [if_pos]
  · refine ⟨by simp, rfl, ?_, fun hs => code93_nostar (h _ hs)⟩
    rw [← List.cons_append, List.getLast?_concat]

theorem verifyCode93_text (s : List Char) : verifyCode93 (code93Text s) = some s := by
  have h : (code93Text s).dropLast.dropLast = s := by
    rw [code93Text, List.append_cons, List.dropLast_concat, List.dropLast_concat]
  unfold verifyCode93
  simp only [h]
  rw [if_pos]
  refine ⟨?_, rfl⟩
  rw [code93Text, List.length_append]
  simp

end Barcoders
