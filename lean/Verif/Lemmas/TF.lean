import Verif.Lemmas.Elements
import Verif.Lemmas.Mod10
import Verif.Model.TF
import Verif.Spec.TwoOfFive

set_option autoImplicit false

namespace Barcoders
open Spec

/-- Module widths of the five elements of a digit. -/
def wTF (d : Nat) : List Nat := (TF.WIDTHS.getD d []).map (fun c => if c = 'W' then 3 else 1)

/-- Alternate bars and spaces. -/
def alternate : List Nat → List Nat → List Nat
  | b :: bs, s :: ss => b :: s :: alternate bs ss
  | bs, _ => bs

/-- Ten widths of an interleaved pair. -/
def wItf (p : Nat × Nat) : List Nat := alternate (wTF p.1) (wTF p.2)

/-- Ten widths of a standard digit. -/
def wStf (d : Nat) : List Nat := alternate (wTF d) [1, 1, 1, 1, 1]

theorem wItf_spec : ∀ a < 10, ∀ b < 10, (wItf (a, b)).length = 10 ∧ TF.interleave a b = .ok (paintFrom 1 (wItf (a, b))) ∧
    readItfPair ((wItf (a, b)).map classify) = some [a, b] ∧ (∀ w ∈ wItf (a, b), 0 < w ∧ w ≤ 3) := by
  decide +kernel

theorem wStf_spec : ∀ d < 10, (wStf d).length = 10 ∧ TF.charEncoding d = .ok (paintFrom 1 (wStf d)) ∧
    readStfDigit ((wStf d).map classify) = some d ∧ (∀ w ∈ wStf d, 0 < w ∧ w ≤ 3) := by
  decide +kernel

/-- Consecutive pairs. -/
def pairs : List Nat → List (Nat × Nat)
  | a :: b :: r => (a, b) :: pairs r
  | _ => []

theorem chunks2_pairs (l : List Nat) (h : l.length % 2 = 0) : TF.chunks2 l = (pairs l).map (fun p => [p.1, p.2]) := by
  match l, h with
  | [], _ => rfl
  | [_], h => simp at h
  | a :: b :: r, h =>
    rw [TF.chunks2, pairs, List.map_cons, chunks2_pairs r (by simp at h; omega)]

theorem pairs_flatten (l : List Nat) (h : l.length % 2 = 0) : ((pairs l).map (fun p => [p.1, p.2])).flatten = l := by
  match l, h with
  | [], _ => rfl
  | [_], h => simp at h
  | a :: b :: r, h =>
    rw [pairs, List.map_cons, List.flatten_cons, pairs_flatten r (by simp at h; omega)]
    rfl

theorem pairs_length (l : List Nat) : (pairs l).length = l.length / 2 := by
  match l with
  | [] => rfl
  | [_] => simp [pairs]
  | a :: b :: r =>
    rw [pairs, List.length_cons, pairs_length r]
    simp only [List.length_cons]
    omega

theorem pairs_lt (l : List Nat) (h : Digits l) : ∀ p ∈ pairs l, p.1 < 10 ∧ p.2 < 10 := by
  match l with
  | [] => simp [pairs]
  | [_] => simp [pairs]
  | a :: b :: r =>
    intro p hp
    rw [pairs, List.mem_cons] at hp
    rcases hp with rfl | hp
    · exact ⟨h a (by simp), h b (by simp)⟩
    · exact pairs_lt r (fun d hd => h d (by simp [hd])) p hp

/-- Element widths of the symbols. -/
def itfWidths (ds : List Nat) : List Nat := [1, 1, 1, 1] ++ ((pairs ds).flatMap wItf ++ [2, 1, 1])
def stfWidths (ds : List Nat) : List Nat := [2, 1, 2, 1, 1, 1] ++ (ds.flatMap wStf ++ [2, 1, 1, 1, 2, 1])

theorem itf_encode_eq (ds : List Nat) (hd : Digits ds) (he : ds.length % 2 = 0) :
    TF.encode (.Interleaved ds) = .ok (paint (itfWidths ds)) := by
  have hp : TF.itfPayload (.Interleaved ds) = .ok ((pairs ds).flatMap (fun p => paintFrom 1 (wItf p))) := by
    unfold TF.itfPayload
    rw [TF.rawData, chunks2_pairs ds he, mapO_ok _ (fun c => paintFrom 1 (wItf (c.getD 0 0, c.getD 1 0)))]
    · simp only [Outcome.ok_bind, Helpers.joinIters]
      simp [List.flatMap_map]
    · intro c hc
      simp only [List.mem_map] at hc
      obtain ⟨⟨a, b⟩, hab, rfl⟩ := hc
      have := pairs_lt ds hd _ hab
      exact (wItf_spec a this.1 b this.2).2.1
  have hl : ∀ p ∈ pairs ds, (wItf p).length = 10 := fun p hp =>
    (wItf_spec p.1 (pairs_lt ds hd p hp).1 p.2 (pairs_lt ds hd p hp).2).1
  unfold TF.encode
  simp only []
  rw [hp, Outcome.ok_bind, itfWidths, paint, paintFrom_append_even 1 (by omega) _ _ (by decide),
    paintFrom_append_even 1 (by omega), paintFrom_flatMap 1 (by omega)]
  · simp [Helpers.joinSlices, TF.ITF_START, TF.ITF_STOP, paintFrom]
  · intro p hp; rw [hl p hp]
  · rw [flatMap_length_eq 10 _ _ hl]; omega

theorem stf_encode_eq (ds : List Nat) (hd : Digits ds) :
    TF.encode (.Standard ds) = .ok (paint (stfWidths ds)) := by
  have hp : TF.stfPayload (.Standard ds) = .ok (ds.flatMap (fun p => paintFrom 1 (wStf p))) := by
    unfold TF.stfPayload
    rw [TF.rawData, foldO_ok _ (fun e d => e ++ paintFrom 1 (wStf d)), foldl_append]
    · rfl
    · intro d h e
      rw [(wStf_spec d (hd d h)).2.1]; rfl
  have hl : ∀ p ∈ ds, (wStf p).length = 10 := fun p hp => (wStf_spec p (hd p hp)).1
  unfold TF.encode
  simp only []
  rw [hp, Outcome.ok_bind, stfWidths, paint, paintFrom_append_even 1 (by omega) _ _ (by decide),
    paintFrom_append_even 1 (by omega), paintFrom_flatMap 1 (by omega)]
  · simp [Helpers.joinSlices, TF.STF_START, TF.STF_STOP, paintFrom]
  · intro p hp; rw [hl p hp]
  · rw [flatMap_length_eq 10 _ _ hl]; omega

theorem itf_pos (ds : List Nat) (hd : Digits ds) : ∀ w ∈ itfWidths ds, 0 < w ∧ w ≤ 3 := by
  intro w hw
  simp only [itfWidths, List.mem_append, List.mem_cons, List.not_mem_nil, or_false, List.mem_flatMap] at hw
  rcases hw with hw | ⟨p, hp, hw⟩ | hw
  · omega
  · have := pairs_lt ds hd p hp
    exact (wItf_spec p.1 this.1 p.2 this.2).2.2.2 w hw
  · omega

theorem stf_pos (ds : List Nat) (hd : Digits ds) : ∀ w ∈ stfWidths ds, 0 < w ∧ w ≤ 3 := by
  intro w hw
  simp only [stfWidths, List.mem_append, List.mem_cons, List.not_mem_nil, or_false, List.mem_flatMap] at hw
  rcases hw with hw | ⟨p, hp, hw⟩ | hw
  · omega
  · exact (wStf_spec p (hd p hp)).2.2.2 w hw
  · omega

theorem expectEnd_append (p es : List Nat) : expectEnd p (es ++ p) = some es := by
  rw [expectEnd, List.reverse_append, expect_append]
  simp

theorem scanItf_paint (ds : List Nat) (hd : Digits ds) (he : ds.length % 2 = 0) :
    scanItf (paint (itfWidths ds)) = some ds := by
  rw [scanItf, elements_paint _ (fun w hw => (itf_pos ds hd w hw).1) (by simp [itfWidths])]
  have h1 : (itfWidths ds).map classify =
      [1, 1, 1, 1] ++ ((pairs ds).flatMap (fun p => (wItf p).map classify) ++ [2, 1, 1]) := by
    simp [itfWidths, List.map_flatMap, classify]
  have h2 := readAll_flatMap 10 (by omega) readItfPair (fun p => (wItf p).map classify) (fun p => [p.1, p.2]) (pairs ds)
    (by
      intro p hp
      have := pairs_lt ds hd p hp
      have := wItf_spec p.1 this.1 p.2 this.2
      exact ⟨by rw [List.length_map]; exact this.1, this.2.2.1⟩)
  simp only [Option.bind_eq_bind, Option.bind_some, h1, expect_append, expectEnd_append, h2, pairs_flatten ds he]

theorem stfWidths_even (ds : List Nat) (hd : Digits ds) : (stfWidths ds).length % 2 = 0 := by
  rw [stfWidths, List.length_append, List.length_append,
    flatMap_length_eq 10 _ _ (fun d h => (wStf_spec d (hd d h)).1)]
  simp
  omega

theorem scanStf_paint (ds : List Nat) (hd : Digits ds) : scanStf (paint (stfWidths ds)) = some ds := by
  rw [scanStf, elements_paint _ (fun w hw => (stf_pos ds hd w hw).1) (by simp [stfWidths])]
  have h1 : ((stfWidths ds).dropLast).map classify =
      [2, 1, 2, 1, 1, 1] ++ (ds.flatMap (fun p => (wStf p).map classify) ++ [2, 1, 1, 1, 2]) := by
    have : stfWidths ds = ([2, 1, 2, 1, 1, 1] ++ (ds.flatMap wStf ++ [2, 1, 1, 1, 2])) ++ [1] := by simp [stfWidths]
    rw [this, List.dropLast_concat]
    simp [List.map_flatMap, classify]
  have h2 := readAll_flatMap 10 (by omega) readStfDigit (fun p => (wStf p).map classify) id ds
    (by
      intro d hp
      have := wStf_spec d (hd d hp)
      exact ⟨by rw [List.length_map]; exact this.1, this.2.2.1⟩)
  simp only [Option.bind_eq_bind, Option.bind_some, stfWidths_even ds hd, if_true, h1, expect_append, expectEnd_append, h2,
    List.map_id]

/-! ## The checksum, with overflow -/

/-- Release builds: all sums are modulo 256. -/
theorem mod10_fold_release (l : List Nat) (k o e : Nat) :
    foldO (Helpers.mod10Step .release) (o % 256, e % 256) (enumFrom k l) =
      .ok ((o + (if k % 2 = 0 then oddSum l else evenSum l)) % 256,
        (e + (if k % 2 = 0 then evenSum l else oddSum l)) % 256) := by
  have hu : ∀ n, u8 .release n = .ok (n % 256) := by
    intro n
    simp only [u8]
    split
    · rw [Nat.mod_eq_of_lt (by assumption)]
    · rfl
  induction l generalizing k o e with
  | nil => simp [enumFrom, foldO, oddSum, evenSum]
  | cons a l ih =>
    rw [enumFrom, foldO]
    by_cases hk : k % 2 = 1
    · have hk1 : ¬ (k % 2 = 0) := by omega
      have hk2 : (k + 1) % 2 = 0 := by omega
      have hs : Helpers.mod10Step .release (o % 256, e % 256) (k, a) = .ok ((o + a) % 256, e % 256) := by
        simp only [Helpers.mod10Step, hk, if_true, hu, Outcome.ok_bind, Nat.mod_add_mod]
      rw [hs, Outcome.ok_bind, ih (k + 1) (o + a) e]
      simp only [hk1, hk2, if_true, if_false, evenSum_cons, oddSum_cons, Nat.add_assoc]
    · have hk1 : k % 2 = 0 := by omega
      have hk2 : ¬ ((k + 1) % 2 = 0) := by omega
      have hs : Helpers.mod10Step .release (o % 256, e % 256) (k, a) = .ok (o % 256, (e + a) % 256) := by
        simp only [Helpers.mod10Step, hk, if_false, hu, Outcome.ok_bind, Nat.mod_add_mod]
      rw [hs, Outcome.ok_bind, ih (k + 1) o (e + a)]
      simp only [hk1, hk2, if_true, if_false, evenSum_cons, oddSum_cons, Nat.add_assoc]

theorem modulo10_false_release (l : List Nat) :
    Helpers.modulo10Checksum .release l false = .ok ((10 - (3 * evenSum l + oddSum l) % 256 % 10) % 10) := by
  have hu : ∀ n, u8 .release n = .ok (n % 256) := by
    intro n
    simp only [u8]
    split
    · rw [Nat.mod_eq_of_lt (by assumption)]
    · rfl
  have h := mod10_fold_release l 0 0 0
  simp only [Nat.zero_mod, if_true, Nat.zero_add] at h
  unfold Helpers.modulo10Checksum enumerate
  rw [h]
  simp only [Outcome.ok_bind, Bool.false_eq_true, if_false, hu]
  congr 1
  have e : (oddSum l % 256 + evenSum l % 256 * 3 % 256) % 256 = (3 * evenSum l + oddSum l) % 256 := by omega
  rw [e]
  split <;> omega

/-- Debug builds: the loop either ends with exact sums or panics. -/
theorem mod10_fold_debug (l : List Nat) (k o e : Nat) :
    foldO (Helpers.mod10Step .debug) (o, e) (enumFrom k l) = .panic .overflow ∨
    foldO (Helpers.mod10Step .debug) (o, e) (enumFrom k l) =
      .ok (o + (if k % 2 = 0 then oddSum l else evenSum l), e + (if k % 2 = 0 then evenSum l else oddSum l)) := by
  have hu : ∀ n, u8 .debug n = .ok n ∨ u8 .debug n = .panic .overflow := by
    intro n
    simp only [u8]
    split
    · exact Or.inl rfl
    · exact Or.inr rfl
  induction l generalizing k o e with
  | nil => right; simp [enumFrom, foldO, oddSum, evenSum]
  | cons a l ih =>
    rw [enumFrom, foldO]
    by_cases hk : k % 2 = 1
    · have hk1 : ¬ (k % 2 = 0) := by omega
      have hk2 : (k + 1) % 2 = 0 := by omega
      simp only [Helpers.mod10Step, hk, if_true]
      rcases hu (o + a) with h | h
      · rw [h, Outcome.ok_bind, Outcome.ok_bind]
        have := ih (k + 1) (o + a) e
        rw [if_neg (by decide : ¬ (1 = 0)), if_neg (by decide : ¬ (1 = 0))]
        simpa only [hk1, hk2, if_true, if_false, evenSum_cons, oddSum_cons, Nat.add_assoc] using this
      · left; rw [h]; rfl
    · have hk1 : k % 2 = 0 := by omega
      have hk2 : ¬ ((k + 1) % 2 = 0) := by omega
      simp only [Helpers.mod10Step, hk, if_false]
      rcases hu (e + a) with h | h
      · rw [h, Outcome.ok_bind, Outcome.ok_bind]
        have := ih (k + 1) o (e + a)
        simpa only [hk1, hk2, if_true, if_false, evenSum_cons, oddSum_cons, Nat.add_assoc] using this
      · left; rw [h]; rfl

theorem modulo10_false_debug (l : List Nat) (h : 256 ≤ 3 * evenSum l + oddSum l) :
    Helpers.modulo10Checksum .debug l false = .panic .overflow := by
  have hu : ∀ n, 256 ≤ n → u8 .debug n = .panic .overflow := by
    intro n hn
    simp only [u8]
    rw [if_neg (by omega)]
  have hu2 : ∀ n, u8 .debug n = .ok n ∨ u8 .debug n = .panic .overflow := by
    intro n
    simp only [u8]
    split
    · exact Or.inl rfl
    · exact Or.inr rfl
  unfold Helpers.modulo10Checksum enumerate
  rcases mod10_fold_debug l 0 0 0 with hf | hf
  · rw [hf]; rfl
  · simp only [Nat.zero_mod, if_true, Nat.zero_add] at hf
    rw [hf]
    simp only [Outcome.ok_bind, Bool.false_eq_true, if_false]
    rcases hu2 (evenSum l * 3) with h3 | h3
    · rw [h3, Outcome.ok_bind, hu _ (by omega)]; rfl
    · rw [h3]; rfl

/-- `TF::standard`, completely, for every string. -/
theorem stf_new (s : List Char) :
    TF.standard s =
      if byteLen s % 2 ^ 32 < 1 ∨ byteLen s % 2 ^ 32 > 256 then .err .length
      else if ¬ AllDigits s then .err .character
      else .ok (.Standard (digitsOf s)) := by
  unfold TF.standard TF.parseData
  rw [parse_eq_mod]
  split
  · rfl
  · by_cases hD : AllDigits s
    · rw [if_pos ((forall_mem_digitChars s).mpr hD), if_neg (not_not_intro hD), Outcome.ok_bind, toDigits_eq s hD]
      rfl
    · rw [if_neg (fun h => hD ((forall_mem_digitChars s).mp h)), if_pos hD]
      rfl

/-- `TF::interleaved`, completely, for every string and build. -/
theorem itf_new (b : Build) (s : List Char) :
    TF.interleaved b s =
      if byteLen s % 2 ^ 32 < 1 ∨ byteLen s % 2 ^ 32 > 256 then .err .length
      else if ¬ AllDigits s then .err .character
      else if s.length % 2 = 0 then .ok (.Interleaved (digitsOf s))
      else if altSum 3 (digitsOf s).reverse < 256 then .ok (.Interleaved (digitsOf s ++ [gs1Digit (digitsOf s)]))
      else match b with
        | .debug => .panic .overflow
        | .release => .ok (.Interleaved (digitsOf s ++ [(10 - altSum 3 (digitsOf s).reverse % 256 % 10) % 10])) := by
  unfold TF.interleaved TF.parseData
  rw [parse_eq_mod]
  split
  · rfl
  · by_cases hD : AllDigits s
    · rw [if_pos ((forall_mem_digitChars s).mpr hD), if_neg (not_not_intro hD), Outcome.ok_bind, toDigits_eq s hD,
        Outcome.ok_bind]
      have hl : (digitsOf s).length = s.length := by simp [digitsOf]
      rw [hl]
      by_cases hev : s.length % 2 = 0
      · rw [if_neg (by omega), if_pos hev]
      · rw [if_pos (by omega), if_neg hev]
        have ha : altSum 3 (digitsOf s).reverse = 3 * evenSum (digitsOf s) + oddSum (digitsOf s) := by
          rw [(altSum_eq _).2, (evenSum_reverse _).1, (evenSum_reverse _).2, if_pos (by omega), if_pos (by omega)]
        rw [ha]
        by_cases hlt : 3 * evenSum (digitsOf s) + oddSum (digitsOf s) < 256
        · rw [if_pos hlt, modulo10_false_gs1 b _ (by omega) hlt]; rfl
        · rw [if_neg hlt]
          cases b with
          | debug => rw [modulo10_false_debug _ (by omega)]; rfl
          | release => rw [modulo10_false_release]; rfl
    · rw [if_neg (fun h => hD ((forall_mem_digitChars s).mp h)), if_pos hD]
      rfl

end Barcoders
