import Verif.Lemmas.Elements
import Verif.Lemmas.Basic
import Verif.Model.Code39
import Verif.Spec.Code39

set_option autoImplicit false

namespace Barcoders
open Spec

theorem code39_alphabet : Code39.CHARS.map Prod.fst = code39Alphabet := by decide

/-- The nine widths of a character. -/
def w39 (c : Char) : List Nat := ((code39Chart.find? (fun p => p.1 == c)).map Prod.snd).getD []

theorem w39_spec : ∀ c ∈ '*' :: code39Alphabet, (w39 c).length = 9 ∧ readCode39Char (w39 c ++ [1]) = some c ∧
    (∀ w ∈ w39 c, 0 < w ∧ w ≤ 2) := by decide

theorem w39_enc : ∀ c ∈ code39Alphabet, Code39.charEncoding c = .ok (paintFrom 1 (w39 c)) := by decide

theorem w39_guard : Code39.GUARD = paintFrom 1 (w39 '*') := by decide

theorem code39_pos : ∀ c ∈ code39Alphabet, Code39.getCharPos c = .ok (code39Value c) := by decide

theorem code39_ascii : ∀ c ∈ code39Alphabet, c.toNat < 128 := by decide

theorem code39_nostar : '*' ∉ code39Alphabet := by decide

theorem code39Check_mem (s : List Char) : code39Check s ∈ code39Alphabet := by
  have h : (s.map code39Value).sum % 43 < code39Alphabet.length := Nat.mod_lt _ (by decide)
  rw [code39Check, List.getD_eq_getElem?_getD, List.getElem?_eq_getElem h]
  exact List.getElem_mem h

/-- `Code39::new` and `with_checksum`, completely, for every string. -/
theorem code39_init (s : List Char) (k : Bool) :
    Code39.init s k =
      if byteLen s % 2 ^ 32 < 1 ∨ byteLen s % 2 ^ 32 > 256 then .err .length
      else if ∀ c ∈ s, c ∈ code39Alphabet then .ok ⟨s, k⟩ else .err .character := by
  unfold Code39.init Code39.parseData
  rw [parse_eq_mod, code39_alphabet]
  split
  · rfl
  · split <;> rfl

theorem code39_checksumChar (s : List Char) (k : Bool) (h : ∀ c ∈ s, c ∈ code39Alphabet) :
    Code39.checksumChar ⟨s, k⟩ = .ok (some (code39Check s)) := by
  have hlt : (s.map code39Value).sum % 43 < code39Alphabet.length := Nat.mod_lt _ (by decide)
  unfold Code39.checksumChar
  rw [mapO_ok _ code39Value s (fun c hc => code39_pos c (h c hc)), Outcome.ok_bind]
  have hl : Code39.CHARS.length = 43 := by decide
  simp only [hl]
  rw [← List.getElem?_map, code39_alphabet, code39Check, List.getD_eq_getElem?_getD, List.getElem?_eq_getElem hlt]
  rfl

/-- What is shown: the data, and the check character if asked for. -/
def code39Text (x : Code39.Code39) : List Char := if x.checksum then x.data ++ [code39Check x.data] else x.data

/-- Element widths of a Code 39 symbol. -/
def code39Widths (t : List Char) : List Nat := ('*' :: t).flatMap (fun c => w39 c ++ [1]) ++ w39 '*'

theorem code39_text_mem (x : Code39.Code39) (h : ∀ c ∈ x.data, c ∈ code39Alphabet) :
    ∀ c ∈ code39Text x, c ∈ code39Alphabet := by
  intro c hc
  unfold code39Text at hc
  split at hc
  · rcases List.mem_append.mp hc with hc | hc
    · exact h c hc
    · rw [List.mem_singleton] at hc; rw [hc]; exact code39Check_mem _
  · exact h c hc

theorem w39_group (c : Char) (h : c ∈ '*' :: code39Alphabet) : paintFrom 1 (w39 c ++ [1]) = paintFrom 1 (w39 c) ++ [0] := by
  rw [paintFrom_append_odd 1 (by omega) _ _ (by rw [(w39_spec c h).1])]
  rfl

theorem code39_encode_eq (x : Code39.Code39) (h : ∀ c ∈ x.data, c ∈ code39Alphabet) :
    Code39.encode x = .ok (paint (code39Widths (code39Text x))) := by
  obtain ⟨s, k⟩ := x
  have hp : Code39.payload ⟨s, k⟩ = .ok ([0] ++ (code39Text ⟨s, k⟩).flatMap (fun c => paintFrom 1 (w39 c) ++ [0])) := by
    unfold Code39.payload
    rw [foldO_ok _ (fun enc c => enc ++ (paintFrom 1 (w39 c) ++ [0])), foldl_append, Outcome.ok_bind]
    · cases k with
      | false => rfl
      | true =>
        unfold Code39.checksumEncoding
        rw [code39_checksumChar s true h]
        simp only [Outcome.ok_bind, if_true]
        rw [w39_enc _ (code39Check_mem s)]
        simp [code39Text, Code39.pushEncoding]
    · intro c hc enc
      rw [w39_enc c (h c hc)]
      simp [Code39.pushEncoding]
  unfold Code39.encode
  rw [hp, Outcome.ok_bind, w39_guard, code39Widths, paint, paintFrom_append_even 1 (by omega), paintFrom_flatMap 1 (by omega)]
  · have e : ('*' :: code39Text ⟨s, k⟩).flatMap (fun c => paintFrom 1 (w39 c ++ [1])) =
        ('*' :: code39Text ⟨s, k⟩).flatMap (fun c => paintFrom 1 (w39 c) ++ [0]) := by
      rw [List.flatMap_def, List.flatMap_def]
      congr 1
      apply List.map_congr_left
      intro c hc
      apply w39_group
      rcases List.mem_cons.mp hc with hc | hc
      · simp [hc]
      · exact List.mem_cons_of_mem _ (code39_text_mem _ h c hc)
    rw [e]
    simp [Helpers.joinSlices, List.append_assoc]
  · intro c hc
    rw [List.length_append, (w39_spec c _).1]
    · rfl
    · rcases List.mem_cons.mp hc with hc | hc
      · simp [hc]
      · exact List.mem_cons_of_mem _ (code39_text_mem _ h c hc)
  · have : ∀ c ∈ '*' :: code39Text ⟨s, k⟩, (w39 c ++ [1]).length = 10 := by
      intro c hc
      rw [List.length_append, (w39_spec c _).1]
      · rfl
      · rcases List.mem_cons.mp hc with hc | hc
        · simp [hc]
        · exact List.mem_cons_of_mem _ (code39_text_mem _ h c hc)
    rw [flatMap_length_eq 10 _ _ this]
    omega

theorem code39_widths_pos (t : List Char) (h : ∀ c ∈ t, c ∈ code39Alphabet) : ∀ w ∈ code39Widths t, 0 < w ∧ w ≤ 2 := by
  intro w hw
  simp only [code39Widths, List.mem_append, List.mem_flatMap, List.mem_cons, List.not_mem_nil, or_false] at hw
  rcases hw with ⟨c, hc, hw | hw⟩ | hw
  · apply (w39_spec c _).2.2 w hw
    rcases hc with hc | hc
    · simp [hc]
    · exact List.mem_cons_of_mem _ (h c hc)
  · omega
  · exact (w39_spec '*' (by simp)).2.2 w hw

theorem scanCode39_paint (t : List Char) (h : ∀ c ∈ t, c ∈ code39Alphabet) :
    scanCode39 (paint (code39Widths t)) = some t := by
  have h' : ∀ c ∈ '*' :: (t ++ ['*']), c ∈ '*' :: code39Alphabet := by
    intro c hc
    simp only [List.mem_cons, List.mem_append, List.not_mem_nil, or_false] at hc ⊢
    rcases hc with hc | hc | hc
    · exact Or.inl hc
    · exact Or.inr (h c hc)
    · exact Or.inl hc
  have hr := readAll_flatMap 10 (by omega) readCode39Char (fun c => w39 c ++ [1]) id ('*' :: (t ++ ['*'])) (by
    intro c hc
    have := w39_spec c (h' c hc)
    exact ⟨by rw [List.length_append, this.1]; rfl, this.2.1⟩)
  have e : ('*' :: (t ++ ['*'])).flatMap (fun c => w39 c ++ [1]) = code39Widths t ++ [1] := by
    simp [code39Widths, List.append_assoc]
  rw [e, List.map_id] at hr
  have hne : code39Widths t ≠ [] := by
    have : w39 '*' ≠ [] := by decide
    simp [code39Widths, this]
  rw [scanCode39, elements_paint _ (fun w hw => (code39_widths_pos t h w hw).1) hne]
  simp only [Option.bind_eq_bind, Option.bind_some, hr]
  have ht : ('*' :: (t ++ ['*'])).tail.dropLast = t := by simp
  rw [betweenStars, ht, if_pos]
  refine ⟨by simp, rfl, ?_, fun hs => code39_nostar (h _ hs)⟩
  rw [← List.cons_append, List.getLast?_concat]

end Barcoders
