import Verif.Props.Measure

/-!
# C70: symbols of concatenated data
-/

set_option autoImplicit false

namespace Barcoders
open Spec

theorem cut_append (h b₁ b₂ t : List Nat) :
    (h ++ b₁ ++ t).take ((h ++ b₁ ++ t).length - t.length) ++ (h ++ b₂ ++ t).drop h.length = h ++ (b₁ ++ b₂) ++ t := by
  rw [List.length_append, Nat.add_sub_cancel, List.take_left, List.append_assoc h b₂, List.drop_left]
  simp only [List.append_assoc]

/-- C70. Codabar: the symbol of concatenated texts is the two symbols with one narrow space between them. -/
theorem C70_codabar (b : Build) (s t : List Char) (ms ms' : List Nat) (h : Drawn b .codabar s ms) (h' : Drawn b .codabar t ms')
    (hl : s.length + t.length ≤ 256) : Drawn b .codabar (s ++ t) (ms ++ [0] ++ ms') := by
  obtain ⟨x, hx, rfl⟩ := h
  obtain ⟨y, hy, rfl⟩ := h'
  obtain ⟨rfl, hA, hne⟩ := codabar_new_ok s x hx
  obtain ⟨rfl, hB, hne'⟩ := codabar_new_ok t y hy
  have hC : ∀ c ∈ s ++ t, c ∈ codabarAlphabet := by
    intro c hc
    rcases List.mem_append.mp hc with hc | hc
    · exact hA c hc
    · exact hB c hc
  refine ⟨⟨(s ++ t).map unitOf⟩, ?_, ?_⟩
  · have hb := codabar_byteLen (s ++ t) hC
    rw [List.length_append] at hb
    have : 0 < s.length := List.length_pos_iff.mpr hne
    rw [C22_codabar_new _ (by omega), if_neg (by omega), if_pos hC]
  · have key : ∀ (us : List Codabar.Unit) (u : Codabar.Unit),
        Codabar.encode ⟨us ++ [u]⟩ = us.flatMap (fun u => u.lookup ++ [0]) ++ u.lookup := fun us u => by
      rw [Codabar.encode, enumerate, codabar_fold _ 0 [] us u (by simp), List.nil_append]
    obtain ⟨us, u, hu⟩ : ∃ us u, s.map unitOf = us ++ [u] := by
      rw [← List.dropLast_concat_getLast hne, List.map_append]; exact ⟨_, _, rfl⟩
    obtain ⟨vs, v, hv⟩ : ∃ vs v, t.map unitOf = vs ++ [v] := by
      rw [← List.dropLast_concat_getLast hne', List.map_append]; exact ⟨_, _, rfl⟩
    rw [List.map_append, hu, hv, key, key, ← List.append_assoc, key]
    simp only [List.flatMap_append, List.flatMap_cons, List.flatMap_nil, List.append_nil, List.append_assoc]

/-- C70. Code 39 (without check character): cut the closing `*` of one symbol and the opening `*` and its gap of the other, and
put the rests together. -/
theorem C70_code39 (s t : List Char) (x y : Code39.Code39) (ms ms' : List Nat) (hx : Code39.new s = .ok x)
    (hy : Code39.new t = .ok y) (he : Code39.encode x = .ok ms) (he' : Code39.encode y = .ok ms')
    (hl : s.length + t.length ≤ 256) :
    ∃ z, Code39.new (s ++ t) = .ok z ∧ Code39.encode z = .ok (ms.take (ms.length - 12) ++ ms'.drop 13) := by
  obtain ⟨rfl, hA⟩ := code39_init_ok s false x hx
  obtain ⟨rfl, hB⟩ := code39_init_ok t false y hy
  have hC : ∀ c ∈ s ++ t, c ∈ code39Alphabet := by
    intro c hc
    rcases List.mem_append.mp hc with hc | hc
    · exact hA c hc
    · exact hB c hc
  have hb := code39_byteLen (s ++ t) hC
  have hne : s ≠ [] := by
    rintro rfl
    have : Code39.new [] = .err .length := rfl
    rw [this] at hx; cases hx
  have : 0 < s.length := List.length_pos_iff.mpr hne
  rw [List.length_append] at hb
  refine ⟨⟨s ++ t, false⟩, by rw [C13_code39_new _ (by omega), if_neg (by omega), if_pos hC], ?_⟩
  have key : ∀ r : List Char, (∀ c ∈ r, c ∈ code39Alphabet) → Code39.encode ⟨r, false⟩ =
      .ok (paintFrom 1 (w39 '*' ++ [1]) ++ r.flatMap (fun c => paintFrom 1 (w39 c ++ [1])) ++ paintFrom 1 (w39 '*')) := by
    intro r hr
    have hev : ∀ c ∈ '*' :: r, (w39 c ++ [1]).length % 2 = 0 := fun c hc => by
      rw [List.length_append, (w39_spec c (star_cons_mem _ _ hr c hc)).1]; rfl
    rw [code39_encode_eq ⟨r, false⟩ hr]
    show Outcome.ok (paint (code39Widths r)) = _
    rw [code39Widths, paint, paintFrom_append_even 1 (by omega), paintFrom_flatMap 1 (by omega) _ _ hev, List.flatMap_cons]
    rw [flatMap_length 10 _ _ (fun c hc => by rw [List.length_append, (w39_spec c (star_cons_mem _ _ hr c hc)).1]; rfl)]
    omega
  rw [key s hA, Outcome.ok.injEq] at he
  rw [key t hB, Outcome.ok.injEq] at he'
  rw [key _ hC, List.flatMap_append, ← he, ← he']
  exact congrArg _ (cut_append _ _ _ _).symm

example : ∃ x y z ms ms' ms'', Code39.new "A1".toList = .ok x ∧ Code39.new "B".toList = .ok y ∧ Code39.new "A1B".toList = .ok z ∧
    Code39.encode x = .ok ms ∧ Code39.encode y = .ok ms' ∧ Code39.encode z = .ok ms'' ∧
    ms'' = ms.take (ms.length - 12) ++ ms'.drop 13 := ⟨_, _, _, _, _, _, rfl, rfl, rfl, rfl, rfl, rfl, by decide +kernel⟩

/-- C70. Standard 2 of 5: cut the stop pattern of one symbol and the start pattern of the other. -/
theorem C70_stf (b : Build) (s t : List Char) (ms ms' : List Nat) (h : Drawn b .stf s ms) (h' : Drawn b .stf t ms')
    (hl : s.length + t.length ≤ 256) : Drawn b .stf (s ++ t) (ms.take (ms.length - 8) ++ ms'.drop 8) := by
  obtain ⟨x, hx, he⟩ := h
  obtain ⟨y, hy, he'⟩ := h'
  obtain ⟨hA, h1⟩ := stf_symbol s x hx
  obtain ⟨hB, h2⟩ := stf_symbol t y hy
  have hC : AllDigits (s ++ t) := by
    intro c hc
    rcases List.mem_append.mp hc with hc | hc
    · exact hA c hc
    · exact hB c hc
  have hb := digits_byteLen (s ++ t) hC
  have hne : s ≠ [] := by
    rintro rfl
    have : TF.standard [] = .err .length := rfl
    rw [this] at hx; cases hx
  have : 0 < s.length := List.length_pos_iff.mpr hne
  rw [List.length_append] at hb
  refine ⟨.Standard (digitsOf (s ++ t)), ?_, ?_⟩
  · rw [C24_stf_new _ (by omega), if_neg (by omega), if_neg (not_not_intro hC)]
  · have key : ∀ ds, Digits ds → paint (stfWidths ds) =
        paintFrom 1 [2, 1, 2, 1, 1, 1] ++ ds.flatMap (fun d => paintFrom 1 (wStf d)) ++ paintFrom 1 [2, 1, 1, 1, 2, 1] := by
      intro ds hd
      have hev : ∀ d ∈ ds, (wStf d).length % 2 = 0 := fun d h => (by decide : ∀ d < 10, (wStf d).length % 2 = 0) d (hd d h)
      have hev' : (ds.flatMap wStf).length % 2 = 0 := by
        rw [flatMap_length 10 _ _ (fun d h => (by decide : ∀ d < 10, (wStf d).length = 10) d (hd d h))]; omega
      rw [stfWidths, paint, paintFrom_append_even 1 (by omega) _ _ rfl, paintFrom_append_even 1 (by omega) _ _ hev',
        paintFrom_flatMap 1 (by omega) _ _ hev, List.append_assoc]
    have hd : digitsOf (s ++ t) = digitsOf s ++ digitsOf t := List.map_append
    rw [stf_encode_eq _ (digits_lt _ hC), key _ (digits_lt _ hC), hd, List.flatMap_append]
    rw [h1, key _ (digits_lt s hA), Outcome.ok.injEq] at he
    rw [h2, key _ (digits_lt t hB), Outcome.ok.injEq] at he'
    rw [← he, ← he']
    exact congrArg _ (cut_append _ _ _ _).symm

example : ∃ ms ms' ms'', Drawn .debug .stf "12".toList ms ∧ Drawn .debug .stf "3".toList ms' ∧ Drawn .debug .stf "123".toList ms'' ∧
    ms'' = ms.take (ms.length - 8) ++ ms'.drop 8 :=
  ⟨_, _, _, ⟨_, rfl, rfl⟩, ⟨_, rfl, rfl⟩, ⟨_, rfl, rfl⟩, by decide +kernel⟩

theorem pairs_append (l r : List Nat) (h : l.length % 2 = 0) : pairs (l ++ r) = pairs l ++ pairs r := by
  match l, h with
  | [], _ => rfl
  | [a], h => simp at h
  | a :: c :: l, h =>
    rw [List.cons_append, List.cons_append, pairs, pairs, pairs_append l r (by simp at h; omega), List.cons_append]

/-- C70. Interleaved 2 of 5, even numbers of digits. -/
theorem C70_itf (b : Build) (s t : List Char) (ms ms' : List Nat) (h : Drawn b .itf s ms) (h' : Drawn b .itf t ms')
    (hs : s.length % 2 = 0) (ht : t.length % 2 = 0) (hl : s.length + t.length ≤ 256) :
    Drawn b .itf (s ++ t) (ms.take (ms.length - 4) ++ ms'.drop 4) := by
  obtain ⟨x, hx, he⟩ := h
  obtain ⟨y, hy, he'⟩ := h'
  have key0 : ∀ (s : List Char) (x : TF.TF), s.length % 2 = 0 → TF.interleaved b s = .ok x → AllDigits s ∧ s ≠ [] ∧
      TF.encode x = .ok (paint (itfWidths (digitsOf s))) := by
    intro s x hs hx
    obtain ⟨ds, -, -, -, hA, hc, he⟩ := itf_symbol b s x hx
    rcases hc with ⟨-, rfl⟩ | ⟨h, -⟩
    · refine ⟨hA, ?_, he⟩
      rintro rfl
      have : TF.interleaved b [] = .err .length := rfl
      rw [this] at hx; cases hx
    · omega
  obtain ⟨hA, hne, h1⟩ := key0 s x hs hx
  obtain ⟨hB, -, h2⟩ := key0 t y ht hy
  have hC : AllDigits (s ++ t) := by
    intro c hc
    rcases List.mem_append.mp hc with hc | hc
    · exact hA c hc
    · exact hB c hc
  have hb := digits_byteLen (s ++ t) hC
  have : 0 < s.length := List.length_pos_iff.mpr hne
  rw [List.length_append] at hb
  have hlen : ∀ r, (digitsOf r).length = r.length := fun r => by simp [digitsOf]
  refine ⟨.Interleaved (digitsOf (s ++ t)), ?_, ?_⟩
  · rw [C26_itf_new b _ (by omega), if_neg (by omega), if_neg (not_not_intro hC), if_pos (by simp; omega)]
  · have key : ∀ ds, Digits ds → ds.length % 2 = 0 → paint (itfWidths ds) =
        paintFrom 1 [1, 1, 1, 1] ++ (pairs ds).flatMap (fun d => paintFrom 1 (wItf d)) ++ paintFrom 1 [2, 1, 1] := by
      intro ds hd he
      have hw : ∀ p ∈ pairs ds, (wItf p).length = 10 := fun p hp =>
        (wItf_spec p.1 (pairs_lt ds hd p hp).1 p.2 (pairs_lt ds hd p hp).2).1
      have hev' : ((pairs ds).flatMap wItf).length % 2 = 0 := by
        rw [flatMap_length 10 _ _ hw]; omega
      rw [itfWidths, paint, paintFrom_append_even 1 (by omega) _ _ rfl, paintFrom_append_even 1 (by omega) _ _ hev',
        paintFrom_flatMap 1 (by omega) _ _ (fun d h => by rw [hw d h]), List.append_assoc]
    have hd : digitsOf (s ++ t) = digitsOf s ++ digitsOf t := List.map_append
    have hce : (digitsOf (s ++ t)).length % 2 = 0 := by rw [hlen, List.length_append]; omega
    rw [itf_encode_eq _ (digits_lt _ hC) hce, key _ (digits_lt _ hC) hce, hd, pairs_append _ _ (by rw [hlen]; exact hs),
      List.flatMap_append]
    rw [h1, key _ (digits_lt s hA) (by rw [hlen]; exact hs), Outcome.ok.injEq] at he
    rw [h2, key _ (digits_lt t hB) (by rw [hlen]; exact ht), Outcome.ok.injEq] at he'
    rw [← he, ← he']
    exact congrArg _ (cut_append _ _ _ _).symm

example : ∃ ms ms' ms'', Drawn .debug .codabar "A12".toList ms ∧ Drawn .debug .codabar "34B".toList ms' ∧
    Drawn .debug .codabar "A1234B".toList ms'' ∧ ms'' = ms ++ [0] ++ ms' :=
  ⟨_, _, _, ⟨_, rfl, rfl⟩, ⟨_, rfl, rfl⟩, ⟨_, rfl, rfl⟩, by decide +kernel⟩

example : ∃ x y z ms ms' ms'', Code39.new "AB".toList = .ok x ∧ Code39.new "-12".toList = .ok y ∧
    Code39.new "AB-12".toList = .ok z ∧ Code39.encode x = .ok ms ∧ Code39.encode y = .ok ms' ∧ Code39.encode z = .ok ms'' ∧
    ms'' = ms.take (ms.length - 12) ++ ms'.drop 13 :=
  ⟨_, _, _, _, _, _, rfl, rfl, rfl, rfl, rfl, rfl, by decide +kernel⟩

example : ∃ ms ms' ms'', Drawn .debug .itf "12".toList ms ∧ Drawn .debug .itf "3456".toList ms' ∧
    Drawn .debug .itf "123456".toList ms'' ∧ ms'' = ms.take (ms.length - 4) ++ ms'.drop 4 :=
  ⟨_, _, _, ⟨_, rfl, rfl⟩, ⟨_, rfl, rfl⟩, ⟨_, rfl, rfl⟩, by decide +kernel⟩

example : ∃ ms ms' ms'', Drawn .debug .stf "12".toList ms ∧ Drawn .debug .stf "3".toList ms' ∧
    Drawn .debug .stf "123".toList ms'' ∧ ms'' = ms.take (ms.length - 8) ++ ms'.drop 8 :=
  ⟨_, _, _, ⟨_, rfl, rfl⟩, ⟨_, rfl, rfl⟩, ⟨_, rfl, rfl⟩, by decide +kernel⟩

end Barcoders
