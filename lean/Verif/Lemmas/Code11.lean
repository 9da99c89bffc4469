import Verif.Lemmas.Elements
import Verif.Lemmas.Basic
import Verif.Lemmas.Cyclic
import Verif.Model.Code11
import Verif.Spec.Code11

set_option autoImplicit false

namespace Barcoders
open Spec

theorem code11_alphabet : Code11.CHARS.map Prod.fst = code11Alphabet := by decide

/-- The five widths of a character. -/
def w11 (c : Char) : List Nat := ((code11Chart.find? (fun p => p.1 == c)).map Prod.snd).getD []

theorem w11_spec : ∀ c ∈ '*' :: code11Alphabet, (w11 c).length = 5 ∧ readCode11Char (w11 c ++ [1]) = some c ∧
    (∀ w ∈ w11 c, 0 < w ∧ w ≤ 2) := by decide

theorem w11_enc : ∀ c ∈ code11Alphabet, Code11.charEncoding c = .ok (paintFrom 1 (w11 c)) := by decide

theorem w11_guard : Code11.GUARD = paintFrom 1 (w11 '*') := by decide

theorem code11_pos : ∀ c ∈ code11Alphabet, Code11.getCharPos c = .ok (code11Value c) := by decide

theorem code11_ascii : ∀ c ∈ code11Alphabet, c.toNat < 128 := by decide

theorem code11_nostar : '*' ∉ code11Alphabet := by decide

theorem code11Check_mem (n : Nat) (s : List Char) : code11Check n s ∈ code11Alphabet := by
  have h : cyclicSum n 0 (s.map code11Value).reverse % 11 < code11Alphabet.length := Nat.mod_lt _ (by decide)
  rw [code11Check, List.getD_eq_getElem?_getD, List.getElem?_eq_getElem h]
  exact List.getElem_mem h

/-- `Code11::new`, completely, for every string. -/
theorem code11_new (s : List Char) :
    Code11.new s =
      if byteLen s % 2 ^ 32 < 1 ∨ byteLen s % 2 ^ 32 > 256 then .err .length
      else if ∀ c ∈ s, c ∈ code11Alphabet then .ok ⟨s⟩ else .err .character := by
  unfold Code11.new Code11.parseData
  rw [parse_eq_mod, code11_alphabet]
  split
  · rfl
  · split <;> rfl

theorem weight11_eq (T n : Nat) (hT : 0 < T) : Code11.weight T (n + 1) = n % T + 1 := by
  unfold Code11.weight
  simp only []
  have h1 := Nat.mod_add_div n T
  have h2 := Nat.mod_lt n hT
  have e : (n + 1) % T = (n % T + 1) % T := by rw [Nat.mod_add_mod]
  rw [e]
  by_cases hc : n % T + 1 = T
  · rw [hc, Nat.mod_self]; simp
  · rw [Nat.mod_eq_of_lt (show n % T + 1 < T by omega)]
    simp

theorem weights11_fold (T : Nat) (hT : 0 < T) (k acc : Nat) (ps : List Nat) :
    (enumFrom k ps).foldl (fun acc p => acc + Code11.weight T (p.1 + 1) * p.2) acc = acc + cyclicSum T k ps := by
  induction ps generalizing k acc with
  | nil => simp [enumFrom, cyclicSum]
  | cons d ps ih =>
    rw [enumFrom, List.foldl_cons, ih (k + 1), cyclicSum, weight11_eq T k hT]
    simp only []
    omega

theorem code11_checksumChar (T : Nat) (hT : 0 < T) (s : List Char) (h : ∀ c ∈ s, c ∈ code11Alphabet) :
    Code11.checksumChar s T = .ok (some (code11Check T s)) := by
  have hlt : cyclicSum T 0 (s.map code11Value).reverse % 11 < code11Alphabet.length := Nat.mod_lt _ (by decide)
  unfold Code11.checksumChar
  rw [mapO_ok _ code11Value s (fun c hc => code11_pos c (h c hc)), Outcome.ok_bind]
  have hl : Code11.CHARS.length = 11 := by decide
  simp only [hl]
  rw [enumerate, weights11_fold T hT 0 0, Nat.zero_add, ← List.getElem?_map, code11_alphabet, code11Check,
    List.getD_eq_getElem?_getD, List.getElem?_eq_getElem hlt]
  rfl

/-- The characters shown between start and stop. -/
def code11Text (s : List Char) : List Char :=
  if s.length > 10 then s ++ [code11Check 10 s, code11Check 9 (s ++ [code11Check 10 s])] else s ++ [code11Check 10 s]

/-- Element widths of a Code 11 symbol. -/
def code11SymWidths (t : List Char) : List Nat := ('*' :: t).flatMap (fun c => w11 c ++ [1]) ++ w11 '*'

theorem code11_text_mem (s : List Char) (h : ∀ c ∈ s, c ∈ code11Alphabet) : ∀ c ∈ code11Text s, c ∈ code11Alphabet := by
  intro c hc
  unfold code11Text at hc
  split at hc
  · simp only [List.mem_append, List.mem_cons, List.not_mem_nil, or_false] at hc
    rcases hc with hc | hc | hc
    · exact h c hc
    · rw [hc]; exact code11Check_mem _ _
    · rw [hc]; exact code11Check_mem _ _
  · simp only [List.mem_append, List.mem_cons, List.not_mem_nil, or_false] at hc
    rcases hc with hc | hc
    · exact h c hc
    · rw [hc]; exact code11Check_mem _ _

theorem star_cons_mem (alphabet t : List Char) (h : ∀ c ∈ t, c ∈ alphabet) : ∀ c ∈ '*' :: t, c ∈ '*' :: alphabet := by
  intro c hc
  rcases List.mem_cons.mp hc with hc | hc
  · simp [hc]
  · exact List.mem_cons_of_mem _ (h c hc)

theorem w11_group (c : Char) (h : c ∈ '*' :: code11Alphabet) : paintFrom 1 (w11 c ++ [1]) = paintFrom 1 (w11 c) ++ [0] := by
  rw [paintFrom_append_odd 1 (by omega) _ _ (by rw [(w11_spec c h).1])]
  rfl

theorem code11_encode_eq (s : List Char) (h : ∀ c ∈ s, c ∈ code11Alphabet) :
    Code11.encode ⟨s⟩ = .ok (paint (code11SymWidths (code11Text s))) := by
  have hc : ∀ c ∈ s ++ [code11Check 10 s], c ∈ code11Alphabet := by
    intro c hc
    rcases List.mem_append.mp hc with hc | hc
    · exact h c hc
    · rw [List.mem_singleton] at hc; rw [hc]; exact code11Check_mem _ _
  have hp : Code11.payload ⟨s⟩ = .ok ((code11Text s).flatMap (fun c => paintFrom 1 (w11 c) ++ [0])) := by
    unfold Code11.payload Code11.cChecksumChar Code11.kChecksumChar
    simp only [code11_checksumChar 10 (by omega) s h, Outcome.ok_bind, unwrap,
      code11_checksumChar 9 (by omega) _ hc, w11_enc _ (code11Check_mem _ _)]
    rw [foldO_ok _ (fun enc c => enc ++ (paintFrom 1 (w11 c) ++ [0])), foldl_append, Outcome.ok_bind, code11Text]
    · split
      · simp [Code11.pushEncoding, Code11.SEPARATOR]
      · simp [Code11.pushEncoding, Code11.SEPARATOR]
    · intro c hc enc
      rw [w11_enc c (h c hc)]
      simp [Code11.pushEncoding, Code11.SEPARATOR]
  have hm := star_cons_mem _ _ (code11_text_mem s h)
  unfold Code11.encode
  rw [hp, Outcome.ok_bind, w11_guard, code11SymWidths, paint, paintFrom_append_even 1 (by omega), paintFrom_flatMap 1 (by omega)]
  · have e : ('*' :: code11Text s).flatMap (fun c => paintFrom 1 (w11 c ++ [1])) =
        ('*' :: code11Text s).flatMap (fun c => paintFrom 1 (w11 c) ++ [0]) := by
      rw [List.flatMap_def, List.flatMap_def]
      congr 1
      apply List.map_congr_left
      intro c hc
      exact w11_group c (hm c hc)
    rw [e]
    simp [Helpers.joinSlices, List.append_assoc, Code11.SEPARATOR]
  · intro c hc
    rw [List.length_append, (w11_spec c (hm c hc)).1]
    rfl
  · rw [flatMap_length_eq 6 _ _ (fun c hc => by rw [List.length_append, (w11_spec c (hm c hc)).1]; rfl)]
    omega

theorem code11_widths_pos (t : List Char) (h : ∀ c ∈ t, c ∈ code11Alphabet) : ∀ w ∈ code11SymWidths t, 0 < w ∧ w ≤ 2 := by
  intro w hw
  have hm := star_cons_mem _ _ h
  rw [code11SymWidths, List.mem_append, List.mem_flatMap] at hw
  rcases hw with ⟨c, hc, hw⟩ | hw
  · rw [List.mem_append, List.mem_singleton] at hw
    rcases hw with hw | hw
    · exact (w11_spec c (hm c hc)).2.2 w hw
    · omega
  · exact (w11_spec '*' (by simp)).2.2 w hw

theorem readCode11_paint (t : List Char) (h : ∀ c ∈ t, c ∈ code11Alphabet) :
    readCode11 (paint (code11SymWidths t)) = some t := by
  have h' : ∀ c ∈ '*' :: (t ++ ['*']), c ∈ '*' :: code11Alphabet := by
    intro c hc
    simp only [List.mem_cons, List.mem_append, List.not_mem_nil, or_false] at hc ⊢
    rcases hc with hc | hc | hc
    · exact Or.inl hc
    · exact Or.inr (h c hc)
    · exact Or.inl hc
  have hr := readAll_flatMap 6 (by omega) readCode11Char (fun c => w11 c ++ [1]) id ('*' :: (t ++ ['*'])) (by
    intro c hc
    have := w11_spec c (h' c hc)
    exact ⟨by rw [List.length_append, this.1]; rfl, this.2.1⟩)
  have e : ('*' :: (t ++ ['*'])).flatMap (fun c => w11 c ++ [1]) = code11SymWidths t ++ [1] := by
    simp [code11SymWidths, List.append_assoc]
  rw [e, List.map_id] at hr
  have hne : code11SymWidths t ≠ [] := by
    have : w11 '*' ≠ [] := by decide
    simp [code11SymWidths, this]
  rw [readCode11, elements_paint _ (fun w hw => (code11_widths_pos t h w hw).1) hne]
  have ht : ('*' :: (t ++ ['*'])).tail.dropLast = t := by simp
  simp only [Option.bind_eq_bind, Option.bind_some, hr, ht]
  rw [if_pos]
  refine ⟨by simp, rfl, ?_, fun hs => code11_nostar (h _ hs)⟩
  rw [← List.cons_append, List.getLast?_concat]

theorem verifyCode11_text (s : List Char) : verifyCode11 (code11Text s) = some s := by
  unfold code11Text verifyCode11
  split
  · rename_i hl
    have h : (s ++ [code11Check 10 s, code11Check 9 (s ++ [code11Check 10 s])]).dropLast.dropLast = s := by
      rw [List.append_cons, List.dropLast_concat, List.dropLast_concat]
    rw [if_neg (by simp; omega), if_pos (by simp; omega)]
    simp only [h]
    rw [if_pos trivial]
  · have h : (s ++ [code11Check 10 s]).dropLast = s := by rw [List.dropLast_concat]
    rw [if_pos (by simp; omega)]
    simp only [h]
    rw [if_pos trivial]

end Barcoders
