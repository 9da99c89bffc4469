import Verif.Props.Cross

/-!
# Symbols of different symbologies (C58)
-/

set_option autoImplicit false

namespace Barcoders
open Spec

/-- The symbologies of the library. -/
inductive Kind
  | ean13 | ean8 | upca | supp | code39 | code93 | code11 | codabar | stf | itf | code128

/-- In build `b` the constructor of `k` accepts `s` and `encode` returns `ms`. -/
def Drawn (b : Build) : Kind → List Char → List Nat → Prop
  | .ean13, s, ms => ∃ x, Ean13.new b s = .ok x ∧ Ean13.encode b x = .ok ms
  | .ean8, s, ms => ∃ x, Ean8.new b s = .ok x ∧ Ean8.encode b x = .ok ms
  | .upca, s, ms => ∃ x, Upca.new b s = .ok x ∧ Upca.encode b x = .ok ms
  | .supp, s, ms => ∃ x, EanSupp.new s = .ok x ∧ EanSupp.encode b x = .ok ms
  | .code39, s, ms => ∃ x, (Code39.new s = .ok x ∨ Code39.withChecksum s = .ok x) ∧ Code39.encode x = .ok ms
  | .code93, s, ms => ∃ x, Code93.new s = .ok x ∧ Code93.encode x = .ok ms
  | .code11, s, ms => ∃ x, Code11.new s = .ok x ∧ Code11.encode x = .ok ms
  | .codabar, s, ms => ∃ x, Codabar.new s = .ok x ∧ Codabar.encode x = ms
  | .stf, s, ms => ∃ x, TF.standard s = .ok x ∧ TF.encode x = .ok ms
  | .itf, s, ms => ∃ x, TF.interleaved b s = .ok x ∧ TF.encode x = .ok ms
  | .code128, s, ms => ∃ x, Code128.new s = .ok x ∧ Code128.encode b x = .ok ms

/-- The widest of some elements. -/
def widest (es : List Nat) : Nat := es.foldr max 0

theorem widest_le (es : List Nat) (k : Nat) (h : ∀ w ∈ es, w ≤ k) : widest es ≤ k := by
  induction es with
  | nil => exact Nat.zero_le k
  | cons a es ih =>
    have h1 := h a (by simp)
    have h2 := ih (fun w hw => h w (by simp [hw]))
    unfold widest at h2 ⊢
    rw [List.foldr_cons]
    omega

theorem le_widest (es : List Nat) (w : Nat) (h : w ∈ es) : w ≤ widest es := by
  induction es with
  | nil => simp at h
  | cons a es ih =>
    unfold widest at ih ⊢
    rw [List.foldr_cons]
    rcases List.mem_cons.mp h with rfl | h
    · omega
    · have := ih h; omega

/-- What tells the elements of a symbol of each symbology from those of the others. -/
def Marks : Kind → List Char → List Nat → Prop
  | .ean13, _, es | .upca, _, es => es.getD 0 0 = 1 ∧ es.getD 1 0 = 1 ∧ es.getD 2 0 = 1 ∧ es.length = 59
  | .ean8, _, es => es.getD 0 0 = 1 ∧ es.getD 1 0 = 1 ∧ es.getD 2 0 = 1 ∧ es.length = 43 ∧ es.sum = 67
  | .supp, _, es => es.getD 0 0 = 1 ∧ es.getD 1 0 = 1 ∧ es.getD 2 0 = 2 ∧
      es.getD 3 0 + es.getD 4 0 + es.getD 5 0 + es.getD 6 0 = 7
  | .code39, _, es => es.getD 0 0 = 1 ∧ es.getD 1 0 = 2 ∧ es.getD 2 0 = 1 ∧ es.getD 3 0 = 1 ∧ es.getD 4 0 = 2 ∧
      es.getD 5 0 = 1 ∧ es.getD 6 0 = 2
  | .code93, _, es => es.getD 0 0 = 1 ∧ es.getD 1 0 = 1 ∧ es.getD 2 0 = 1 ∧ es.getD 3 0 = 1 ∧ es.getD 4 0 = 4 ∧
      es.sum % 9 = 1 ∧ es.length % 6 = 1
  | .code11, _, es => es.getD 0 0 = 1 ∧ es.getD 1 0 = 1 ∧ es.getD 2 0 = 2 ∧ es.getD 3 0 = 2 ∧ es.getD 4 0 = 1 ∧
      es.getD 5 0 = 1 ∧ es.getD 6 0 ≤ 2
  | .codabar, s, es => es.length % 8 = 7 ∧ widest es ≤ 2 ∧ es.getD 4 0 ≤ 2 ∧
      ¬ (es.getD 0 0 = 1 ∧ es.getD 1 0 = 2 ∧ es.getD 2 0 = 1 ∧ es.getD 3 0 = 1 ∧ es.getD 4 0 = 2 ∧
        es.getD 5 0 = 1 ∧ es.getD 6 0 = 2) ∧
      ¬ (es.getD 2 0 = 2 ∧ es.getD 3 0 + es.getD 4 0 + es.getD 5 0 + es.getD 6 0 = 7) ∧
      es.getD 3 0 + es.getD 4 0 + es.getD 5 0 ≤ 6 ∧
      (s.head? ≠ some '$' → ¬ (es.getD 0 0 = 1 ∧ es.getD 1 0 = 1 ∧ es.getD 2 0 = 2 ∧ es.getD 3 0 = 2 ∧ es.getD 4 0 = 1 ∧
        es.getD 5 0 = 1))
  | .stf, _, es => es.getD 0 0 = 2 ∧ es.getD 1 0 = 1 ∧ es.getD 2 0 = 2 ∧ es.length % 2 = 0
  | .itf, _, es => es.getD 0 0 = 1 ∧ es.getD 1 0 = 1 ∧ es.getD 2 0 = 1 ∧ es.getD 3 0 = 1 ∧ es.getD 4 0 ≤ 3 ∧
      3 ≤ widest es ∧ es.length % 10 = 7
  | .code128, _, es => es.getD 0 0 = 2 ∧ es.getD 1 0 = 1 ∧ es.getD 2 0 = 1 ∧ es.getD 3 0 + es.getD 4 0 + es.getD 5 0 = 7

theorem codabar_first7 : ∀ c ∈ codabarAlphabet, ∀ es, es = wU (unitOf c) →
      es.getD 4 0 ≤ 2 ∧
      ¬ (es.getD 0 0 = 1 ∧ es.getD 1 0 = 2 ∧ es.getD 2 0 = 1 ∧ es.getD 3 0 = 1 ∧ es.getD 4 0 = 2 ∧
        es.getD 5 0 = 1 ∧ es.getD 6 0 = 2) ∧
      ¬ (es.getD 2 0 = 2 ∧ es.getD 3 0 + es.getD 4 0 + es.getD 5 0 + es.getD 6 0 = 7) ∧
      es.getD 3 0 + es.getD 4 0 + es.getD 5 0 ≤ 6 ∧
      (c ≠ '$' → ¬ (es.getD 0 0 = 1 ∧ es.getD 1 0 = 1 ∧ es.getD 2 0 = 2 ∧ es.getD 3 0 = 2 ∧ es.getD 4 0 = 1 ∧
        es.getD 5 0 = 1)) := by
  intro c hc es he
  subst he
  revert c
  decide

theorem getD_append_lt (l r : List Nat) (i : Nat) (h : i < l.length) : (l ++ r).getD i 0 = l.getD i 0 := by
  simp [List.getD, List.getElem?_append_left h]

theorem drawn_marks (b : Build) (k : Kind) (s : List Char) (ms : List Nat) (h : Drawn b k s ms) :
    ∃ es, elements ms = some es ∧ Marks k s es := by
  cases k with
  | ean13 =>
    obtain ⟨x, hx, he⟩ := h
    obtain ⟨d0, ls, rs, h0, hls, hrs, ll, lr, -, e⟩ := ean13_symbol b s x hx
    rw [e, Outcome.ok.injEq] at he
    subst he
    have hz := zip_snd_lt (setsOf d0) ls hls
    have hlen : ((setsOf d0).zip ls).length = 6 := by simp [(parity_spec d0 h0).2.2.2.2.2, ll]
    refine ⟨_, elements_paint _ (fun w hw => (ean13Widths_pos d0 ls rs hls hrs w hw).1) (halves_ne_nil _ _), rfl, rfl, rfl, ?_⟩
    simp only [ean13Widths, halvesWidths, List.length_append, wAB_length_of _ hz, wA_length_of _ hrs, hlen, lr]
    rfl
  | ean8 =>
    obtain ⟨x, hx, he⟩ := h
    obtain ⟨ls, rs, hls, hrs, ll, lr, -, e⟩ := ean8_symbol b s x hx
    rw [e, Outcome.ok.injEq] at he
    subst he
    refine ⟨_, elements_paint _ (fun w hw => (halves_pos _ _ (flatMap_wA_pos _ hls) (flatMap_wA_pos _ hrs) w hw).1)
      (halves_ne_nil _ _), rfl, rfl, rfl, ?_, ?_⟩
    · simp only [halvesWidths, List.length_append, wA_length_of _ hls, wA_length_of _ hrs, ll, lr]
      rfl
    · simp only [halvesWidths, List.sum_append, wA_flatMap_sum _ hls, wA_flatMap_sum _ hrs, ll, lr]
      rfl
  | upca =>
    obtain ⟨x, hx, he⟩ := h
    obtain ⟨ls, rs, hls, hrs, ll, lr, -, e⟩ := upca_symbol b s x hx
    rw [e, Outcome.ok.injEq] at he
    subst he
    refine ⟨_, elements_paint _ (fun w hw => (halves_pos _ _ (flatMap_wA_pos _ hls) (flatMap_wA_pos _ hrs) w hw).1)
      (halves_ne_nil _ _), rfl, rfl, rfl, ?_⟩
    simp only [halvesWidths, List.length_append, wA_length_of _ hls, wA_length_of _ hrs, ll, lr]
    rfl
  | supp =>
    obtain ⟨x, hx, he⟩ := h
    obtain ⟨ws, e, hl, hd, -, -, h25⟩ := supp_symbol s x hx
    rw [e, Outcome.ok.injEq] at he
    subst he
    obtain ⟨⟨q, d⟩, ps, rfl⟩ := List.exists_cons_of_ne_nil (l := ws) (by rintro rfl; simp at hl; omega)
    refine ⟨_, elements_paint _ (fun w hw => (suppWidths_pos _ hd w hw).1) (by simp [suppWidths]), rfl, rfl, rfl, ?_⟩
    have hq : ∀ d < 10, ∀ q, (wAB (q, d)).length = 4 ∧
        (wAB (q, d)).getD 0 0 + (wAB (q, d)).getD 1 0 + (wAB (q, d)).getD 2 0 + (wAB (q, d)).getD 3 0 = 7 := by decide
    obtain ⟨hq1, hq2⟩ := hq d (hd (q, d) (by simp)) q
    have e1 := getD_append_lt (wAB (q, d)) (ps.flatMap (fun q => [1, 1] ++ wAB q)) 0 (by omega)
    have e2 := getD_append_lt (wAB (q, d)) (ps.flatMap (fun q => [1, 1] ++ wAB q)) 1 (by omega)
    have e3 := getD_append_lt (wAB (q, d)) (ps.flatMap (fun q => [1, 1] ++ wAB q)) 2 (by omega)
    have e4 := getD_append_lt (wAB (q, d)) (ps.flatMap (fun q => [1, 1] ++ wAB q)) 3 (by omega)
    rw [← e1, ← e2, ← e3, ← e4] at hq2
    exact hq2
  | code39 =>
    obtain ⟨x, hx, he⟩ := h
    have : ∃ t, (∀ c ∈ t, c ∈ code39Alphabet) ∧ Code39.encode x = .ok (paint (code39Widths t)) := by
      rcases hx with hx | hx
      · exact ⟨_, code39_symbol s false x hx⟩
      · exact ⟨_, code39_symbol s true x hx⟩
    obtain ⟨t, ht, e⟩ := this
    rw [e, Outcome.ok.injEq] at he
    subst he
    exact ⟨_, elements_paint _ (fun w hw => (code39_widths_pos t ht w hw).1) (by rw [code39Widths, List.flatMap_cons]; simp),
      rfl, rfl, rfl, rfl, rfl, rfl, rfl⟩
  | code93 =>
    obtain ⟨x, hx, he⟩ := h
    obtain ⟨hA, e⟩ := code93_symbol s x hx
    rw [e, Outcome.ok.injEq] at he
    subst he
    have hm := star_text_mem _ _ hA
    have hs := flatMap_sum 9 w93 ('*' :: (code93Text s ++ ['*'])) (fun c hc => w93_sum c (hm c hc))
    have hl := flatMap_length 6 w93 ('*' :: (code93Text s ++ ['*'])) (fun c hc => (w93_spec c (hm c hc)).1)
    refine ⟨_, elements_paint _ (fun w hw => (code93_widths_pos _ hA w hw).1) (by simp [code93SymWidths]),
      rfl, rfl, rfl, rfl, rfl, ?_, ?_⟩
    · rw [code93SymWidths, List.sum_append, hs]; simp
    · rw [code93SymWidths, List.length_append, hl]; simp
  | code11 =>
    obtain ⟨x, hx, he⟩ := h
    obtain ⟨hA, e⟩ := code11_symbol s x hx
    rw [e, Outcome.ok.injEq] at he
    subst he
    have hpos := code11_widths_pos _ hA
    refine ⟨_, elements_paint _ (fun w hw => (hpos w hw).1) (by rw [code11SymWidths, List.flatMap_cons]; simp),
      rfl, rfl, rfl, rfl, rfl, rfl, ?_⟩
    rw [List.getD]
    cases hg : (code11SymWidths (code11Text s))[6]? with
    | none => simp
    | some w => exact (hpos w (List.mem_of_getElem? hg)).2
  | codabar =>
    obtain ⟨x, hx, he⟩ := h
    obtain ⟨cs, c, rfl, hA, e⟩ := codabar_symbol s x hx
    rw [e] at he
    subst he
    have hl := flatMap_length 8 (fun u => wU u ++ [1]) (cs.map unitOf) (fun u _ => by
      rw [List.length_append, (wU_spec u).2.1]; rfl)
    refine ⟨_, codabar_elements _ _, ?_, widest_le _ 2 (fun w hw => (codabar_widths_pos _ _ w hw).2), ?_⟩
    · rw [codabarSymWidths, List.length_append, hl, (wU_spec _).2.1]; omega
    · have key : ∃ d r, (cs ++ [c]).head? = some d ∧ d ∈ codabarAlphabet ∧
          codabarSymWidths (cs.map unitOf) (unitOf c) = wU (unitOf d) ++ r := by
        cases cs with
        | nil => exact ⟨c, [], rfl, hA c (by simp), by simp [codabarSymWidths]⟩
        | cons d cs =>
          refine ⟨d, [1] ++ ((cs.map unitOf).flatMap (fun u => wU u ++ [1]) ++ wU (unitOf c)), rfl, hA d (by simp), ?_⟩
          simp [codabarSymWidths]
      obtain ⟨d, r, h1, h2, h3⟩ := key
      have h7 := (wU_spec (unitOf d)).2.1
      rw [h3, getD_append_lt _ r 0 (by omega), getD_append_lt _ r 1 (by omega), getD_append_lt _ r 2 (by omega),
        getD_append_lt _ r 3 (by omega), getD_append_lt _ r 4 (by omega), getD_append_lt _ r 5 (by omega),
        getD_append_lt _ r 6 (by omega), h1]
      obtain ⟨a1, a2, a3, a4, a5⟩ := codabar_first7 d h2 _ rfl
      exact ⟨a1, a2, a3, a4, fun hd => a5 (fun h => hd (by rw [h]))⟩
  | stf =>
    obtain ⟨x, hx, he⟩ := h
    obtain ⟨hD, e⟩ := stf_symbol s x hx
    rw [e, Outcome.ok.injEq] at he
    subst he
    have hd := digits_lt s hD
    exact ⟨_, elements_paint _ (fun w hw => (stf_pos _ hd w hw).1) (by simp [stfWidths]), rfl, rfl, rfl, stfWidths_even _ hd⟩
  | itf =>
    obtain ⟨x, hx, he⟩ := h
    obtain ⟨ds, hd, hev, hlen, hD, hc, e⟩ := itf_symbol b s x hx
    rw [e, Outcome.ok.injEq] at he
    subst he
    have hpos := itf_pos ds hd
    have hl := flatMap_length 10 wItf (pairs ds) (fun p h =>
      (wItf_spec p.1 (pairs_lt ds hd p h).1 p.2 (pairs_lt ds hd p h).2).1)
    refine ⟨_, elements_paint _ (fun w hw => (hpos w hw).1) (by simp [itfWidths]), rfl, rfl, rfl, rfl, ?_, ?_, ?_⟩
    · rw [List.getD]
      cases hg : (itfWidths ds)[4]? with
      | none => simp
      | some w => exact (hpos w (List.mem_of_getElem? hg)).2
    · have hne : s ≠ [] := by
        rintro rfl
        rw [C26_itf_new b [] (by simp [byteLen])] at hx
        simp [byteLen] at hx
      have hs : 1 ≤ s.length := List.length_pos_iff.mpr hne
      match ds, hd, hlen, hev with
      | [], _, hlen, _ => simp at hlen; omega
      | [_], _, _, hev => simp at hev
      | a :: c :: ds, hd, _, _ =>
        have h3 : ∀ a < 10, ∀ c < 10, 3 ∈ wItf (a, c) := by decide
        refine le_widest _ 3 ?_
        have := h3 a (hd a (by simp)) c (hd c (by simp))
        simp [itfWidths, pairs, this]
    · rw [itfWidths, List.length_append, List.length_append, hl]; simp; omega
  | code128 =>
    obtain ⟨x, hx, he⟩ := h
    obtain ⟨set, data, c, -, -, hv, e⟩ := code128_symbol b s x ms hx he
    subst e
    refine ⟨_, elements_paint _ (fun w hw => (code128_widths_pos _ hv w hw).1) (by simp [code128Widths, code128Stop]), ?_⟩
    cases set
    · exact ⟨rfl, rfl, rfl, rfl⟩
    · exact ⟨rfl, rfl, rfl, rfl⟩
    · exact ⟨rfl, rfl, rfl, rfl⟩

/-- C58. No two symbologies ever draw the same symbol, except that a UPC-A symbol is an EAN-13 symbol, and that some Codabar
strings starting with `$` (no start letter) draw a Code 11 symbol. -/
theorem C58_symbologies_distinct (b b' : Build) (k k' : Kind) (s t : List Char) (ms : List Nat)
    (h : Drawn b k s ms) (h' : Drawn b' k' t ms) :
    k = k' ∨ (k = .ean13 ∧ k' = .upca) ∨ (k = .upca ∧ k' = .ean13) ∨
      (k = .codabar ∧ k' = .code11 ∧ s.head? = some '$') ∨ (k = .code11 ∧ k' = .codabar ∧ t.head? = some '$') := by
  obtain ⟨es, e, m⟩ := drawn_marks b k s ms h
  obtain ⟨es', e', m'⟩ := drawn_marks b' k' t ms h'
  rw [e, Option.some.injEq] at e'
  subst e'
  clear h h' e
  cases k <;> cases k' <;> simp only [Marks] at m m' <;> first
    | exact Or.inl rfl
    | exact Or.inr (Or.inl ⟨rfl, rfl⟩)
    | exact Or.inr (Or.inr (Or.inl ⟨rfl, rfl⟩))
    | (exfalso; omega)
    | (refine Or.inr (Or.inr (Or.inr (Or.inl ⟨rfl, rfl, Classical.byContradiction fun hs => ?_⟩))); have := m.2.2.2.2.2.2 hs; omega)
    | (refine Or.inr (Or.inr (Or.inr (Or.inr ⟨rfl, rfl, Classical.byContradiction fun hs => ?_⟩))); have := m'.2.2.2.2.2.2 hs; omega)

example : ∃ ms, Drawn .debug .upca "01234567890".toList ms ∧ Drawn .release .ean13 "001234567890".toList ms :=
  ⟨_, ⟨_, rfl, rfl⟩, ⟨_, rfl, by decide +kernel⟩⟩

/-- C58. The Codabar exception is real: Codabar `$4:::1` and Code 11 `02415` are the same bars. -/
theorem C58_codabar_code11_clash (b b' : Build) : ∃ ms, Drawn b .codabar "$4:::1".toList ms ∧ Drawn b' .code11 "02415".toList ms :=
  ⟨_, ⟨_, rfl, rfl⟩, ⟨_, rfl, by decide⟩⟩

/-- C58. With a start letter, as the Codabar standard requires, there is no clash. -/
theorem C58_codabar_distinct (b b' : Build) (k : Kind) (s t : List Char) (ms : List Nat) (hs : s.head? ≠ some '$')
    (h : Drawn b .codabar s ms) (h' : Drawn b' k t ms) : k = .codabar := by
  rcases C58_symbologies_distinct b b' _ _ s t ms h h' with h1 | ⟨h1, -⟩ | ⟨h1, -⟩ | ⟨-, -, h1⟩ | ⟨h1, -⟩
  · exact h1.symm
  all_goals first | cases h1 | exact absurd h1 hs

example : ∃ ms, Drawn .debug .codabar "4:::1".toList ms ∧ scanCode11 ms = none ∧ scanCode39 ms = none ∧ scanItf ms = none :=
  ⟨_, ⟨_, rfl, rfl⟩, by decide +kernel⟩

/-- C58. When a UPC-A symbol is an EAN-13 symbol, the EAN-13 digits are a zero and the UPC-A digits. -/
theorem C58_upca_ean13 (b b' : Build) (s t : List Char) (ms : List Nat) (h : Drawn b .upca s ms) (h' : Drawn b' .ean13 t ms) :
    t.take 12 = '0' :: s.take 11 := by
  obtain ⟨x, hx, ex⟩ := h
  obtain ⟨y, hy, ey⟩ := h'
  have hD := upca_digits b s x hx
  rw [upca_new] at hx
  obtain ⟨rfl, -, -, hl, -⟩ := decision_ok Upca.UPCA.mk 11 s x hx
  have hd := digits_take _ 11 (digits_lt s hD)
  rw [upca_symbol_eq b _ hl hd] at ex
  obtain ⟨m, e1, r1⟩ := ean13_encode_scan b (0 :: (digitsOf s).take 11) (by simp [hl]) (digits_append (digits_single (by omega)) hd)
  obtain ⟨m', e2, r2⟩ := C02_ean13_scan b' t y hy
  rw [ex, Outcome.ok.injEq] at e1
  rw [ey, Outcome.ok.injEq] at e2
  subst e1 e2
  rw [r1, Option.some.injEq] at r2
  have := List.append_inj_left' r2 rfl
  rw [digitsOf_take, digitsOf_take] at this
  refine (digitsOf_inj ('0' :: s.take 11) _ ?_ (allDigits_take 12 t (ean13_digits b' t y hy)) this).symm
  intro c hc
  rcases List.mem_cons.mp hc with rfl | hc
  · rfl
  · exact allDigits_take 11 s hD c hc

example : ∃ ms, Drawn .debug .upca "01234567890".toList ms ∧ Drawn .release .ean13 "001234567890".toList ms :=
  ⟨_, ⟨_, rfl, rfl⟩, ⟨_, rfl, by decide⟩⟩

end Barcoders
