import Verif.Props.Distinct
import Verif.Lemmas.Prefix

/-!
# Cut-off symbols (C59)

A scanner that sees only the first or the last part of a symbol should not take it for a whole one.
-/

set_option autoImplicit false

namespace Barcoders
open Spec

theorem code39_codes : ∀ c ∈ code39Alphabet, ((w39 c ++ [1]).length = 10 ∧ (w39 c ++ [1]).take 8 ≠ (w39 '*').dropLast ∧
    (w39 c ++ [1]).drop (10 + 1 - (w39 '*' ++ [1]).length) ≠ (w39 '*' ++ [1]).tail) ∧
    ∀ d ∈ code39Alphabet, w39 c ++ [1] = w39 d ++ [1] → c = d := by decide +kernel

theorem code93_codes : ∀ c ∈ code93Alphabet, ((w93 c).length = 6 ∧ (w93 c).take ((w93 '*' ++ [1]).length - 1) ≠ (w93 '*' ++ [1]).dropLast ∧ (w93 c).drop 1 ≠ (w93 '*').tail) ∧
    ∀ d ∈ code93Alphabet, w93 c = w93 d → c = d := by decide +kernel

theorem code11_codes : ∀ c ∈ code11Alphabet, ((w11 c ++ [1]).length = 6 ∧ (w11 c ++ [1]).take 4 ≠ (w11 '*').dropLast ∧
    (w11 c ++ [1]).drop (6 + 1 - (w11 '*' ++ [1]).length) ≠ (w11 '*' ++ [1]).tail) ∧
    ∀ d ∈ code11Alphabet, w11 c ++ [1] = w11 d ++ [1] → c = d := by decide

theorem code128_codes : ∀ v < 106, ((w128 v).length = 6 ∧ (w128 v).take 6 ≠ code128Stop.dropLast) ∧
    ∀ u < 106, w128 v = w128 u → v = u := by decide +kernel

theorem code128_starts : ∀ v < 103, ∀ u < 106, 103 ≤ u → (w128 v).drop 1 ≠ (w128 u).tail := by decide +kernel

theorem stf_codes : ∀ c < 10, ((wStf c).length = 10 ∧ (wStf c).take 5 ≠ [2, 1, 1, 1, 2] ∧ (wStf c).drop 5 ≠ [1, 2, 1, 1, 1]) ∧
    ∀ d < 10, wStf c = wStf d → c = d := by decide

theorem itf_codes : ∀ a < 10, ∀ c < 10, (wItf (a, c)).length = 10 ∧ (wItf (a, c)).take 2 ≠ [2, 1] := by decide

theorem itf_codes_inj : ∀ n < 100, ∀ m < 100, wItf (n / 10, n % 10) = wItf (m / 10, m % 10) → n = m := by decide +kernel

theorem drawn_code39 (b : Build) (s : List Char) (ms : List Nat) (h : Drawn b .code39 s ms) :
    ∃ t, (∀ c ∈ t, c ∈ code39Alphabet) ∧ ms = paint (code39Widths t) := by
  obtain ⟨x, hx, he⟩ := h
  rcases hx with hx | hx
  · obtain ⟨h1, h2⟩ := code39_symbol s false x hx
    rw [h2, Outcome.ok.injEq] at he
    exact ⟨_, h1, he.symm⟩
  · obtain ⟨h1, h2⟩ := code39_symbol s true x hx
    rw [h2, Outcome.ok.injEq] at he
    exact ⟨_, h1, he.symm⟩

/-- C59. No symbol is the beginning of another symbol of the same symbology, except for Codabar and the EAN supplementals. -/
theorem C59_prefix_free (b b' : Build) (k : Kind) (s t : List Char) (ms ms' : List Nat) (h : Drawn b k s ms)
    (h' : Drawn b' k t ms') (hk : k ≠ .codabar) (hk' : k ≠ .supp) (hp : ms <+: ms') : ms = ms' := by
  cases k with
  | codabar => exact absurd rfl hk
  | supp => exact absurd rfl hk'
  | ean13 =>
    obtain ⟨x, hx, he⟩ := h
    obtain ⟨y, hy, he'⟩ := h'
    exact hp.eq_of_length (((C32_ean_rows b b s ms).1 x hx he).length.trans ((C32_ean_rows b' b' t ms').1 y hy he').length.symm)
  | ean8 =>
    obtain ⟨x, hx, he⟩ := h
    obtain ⟨y, hy, he'⟩ := h'
    exact hp.eq_of_length (((C32_ean_rows b b s ms).2.1 x hx he).length.trans ((C32_ean_rows b' b' t ms').2.1 y hy he').length.symm)
  | upca =>
    obtain ⟨x, hx, he⟩ := h
    obtain ⟨y, hy, he'⟩ := h'
    exact hp.eq_of_length (((C32_ean_rows b b s ms).2.2 x hx he).length.trans ((C32_ean_rows b' b' t ms').2.2 y hy he').length.symm)
  | code39 =>
    obtain ⟨u, hu, rfl⟩ := drawn_code39 b s ms h
    obtain ⟨v, hv, rfl⟩ := drawn_code39 b' t ms' h'
    have e : ∀ t, code39Widths t = (w39 '*' ++ [1]) ++ (t.flatMap (fun c => w39 c ++ [1]) ++ w39 '*') := by
      intro t; rw [code39Widths, List.flatMap_cons, List.append_assoc]
    have pu : ∀ w ∈ code39Widths u, 0 < w := fun w hw => (code39_widths_pos u hu w hw).1
    have pv : ∀ w ∈ code39Widths v, 0 < w := fun w hw => (code39_widths_pos v hv w hw).1
    rw [e] at pu pv
    rw [e, e] at hp
    rw [framed_prefix 1 (by omega) 10 (by omega) (fun c => w39 c ++ [1]) (w39 '*' ++ [1]) (w39 '*') (w39 '*') (by decide) rfl
      (by decide) u v (fun a ha => (code39_codes a (hu a ha)).1.1) (fun a ha => (code39_codes a (hv a ha)).1.1)
      (fun a ha c hc => (code39_codes a (hu a ha)).2 c (hv c hc)) (fun a ha => (code39_codes a (hv a ha)).1.2.1) pu pv hp]
  | code93 =>
    obtain ⟨x, hx, he⟩ := h
    obtain ⟨y, hy, he'⟩ := h'
    obtain ⟨hu, e1⟩ := code93_symbol s x hx
    obtain ⟨hv, e2⟩ := code93_symbol t y hy
    rw [e1, Outcome.ok.injEq] at he
    rw [e2, Outcome.ok.injEq] at he'
    subst he he'
    have e : ∀ t, code93SymWidths t = w93 '*' ++ (t.flatMap w93 ++ (w93 '*' ++ [1])) := by
      intro t; simp [code93SymWidths]
    have pu : ∀ w ∈ code93SymWidths _, 0 < w := fun w hw => (code93_widths_pos _ hu w hw).1
    have pv : ∀ w ∈ code93SymWidths _, 0 < w := fun w hw => (code93_widths_pos _ hv w hw).1
    rw [e] at pu pv
    rw [e, e] at hp
    rw [framed_prefix 1 (by omega) 6 (by omega) w93 (w93 '*') (w93 '*' ++ [1]) (w93 '*' ++ [1]) (by decide) rfl
      (by decide) _ _ (fun a ha => (code93_codes a (hu a ha)).1.1) (fun a ha => (code93_codes a (hv a ha)).1.1)
      (fun a ha c hc => (code93_codes a (hu a ha)).2 c (hv c hc)) (fun a ha => (code93_codes a (hv a ha)).1.2.1) pu pv hp]
  | code11 =>
    obtain ⟨x, hx, he⟩ := h
    obtain ⟨y, hy, he'⟩ := h'
    obtain ⟨hu, e1⟩ := code11_symbol s x hx
    obtain ⟨hv, e2⟩ := code11_symbol t y hy
    rw [e1, Outcome.ok.injEq] at he
    rw [e2, Outcome.ok.injEq] at he'
    subst he he'
    have e : ∀ t, code11SymWidths t = (w11 '*' ++ [1]) ++ (t.flatMap (fun c => w11 c ++ [1]) ++ w11 '*') := by
      intro t; rw [code11SymWidths, List.flatMap_cons, List.append_assoc]
    have pu : ∀ w ∈ code11SymWidths _, 0 < w := fun w hw => (code11_widths_pos _ hu w hw).1
    have pv : ∀ w ∈ code11SymWidths _, 0 < w := fun w hw => (code11_widths_pos _ hv w hw).1
    rw [e] at pu pv
    rw [e, e] at hp
    rw [framed_prefix 1 (by omega) 6 (by omega) (fun c => w11 c ++ [1]) (w11 '*' ++ [1]) (w11 '*') (w11 '*') (by decide) rfl
      (by decide) _ _ (fun a ha => (code11_codes a (hu a ha)).1.1) (fun a ha => (code11_codes a (hv a ha)).1.1)
      (fun a ha c hc => (code11_codes a (hu a ha)).2 c (hv c hc)) (fun a ha => (code11_codes a (hv a ha)).1.2.1) pu pv hp]
  | stf =>
    obtain ⟨x, hx, he⟩ := h
    obtain ⟨y, hy, he'⟩ := h'
    obtain ⟨du, e1⟩ := stf_symbol s x hx
    obtain ⟨dv, e2⟩ := stf_symbol t y hy
    rw [e1, Outcome.ok.injEq] at he
    rw [e2, Outcome.ok.injEq] at he'
    subst he he'
    have hu := digits_lt s du
    have hv := digits_lt t dv
    have pu : ∀ w ∈ stfWidths _, 0 < w := fun w hw => (stf_pos _ hu w hw).1
    have pv : ∀ w ∈ stfWidths _, 0 < w := fun w hw => (stf_pos _ hv w hw).1
    rw [framed_prefix 1 (by omega) 10 (by omega) wStf [2, 1, 2, 1, 1, 1] [2, 1, 1, 1, 2, 1] [2, 1, 1, 1, 2, 1] (by decide) rfl
      (by decide) _ _ (fun a ha => (stf_codes a (hu a ha)).1.1) (fun a ha => (stf_codes a (hv a ha)).1.1)
      (fun a ha c hc => (stf_codes a (hu a ha)).2 c (hv c hc)) (fun a ha => (stf_codes a (hv a ha)).1.2.1) pu pv hp]
  | itf =>
    obtain ⟨x, hx, he⟩ := h
    obtain ⟨y, hy, he'⟩ := h'
    obtain ⟨ds, hu, hev, -, -, -, e1⟩ := itf_symbol b s x hx
    obtain ⟨es, hv, hev', -, -, -, e2⟩ := itf_symbol b' t y hy
    rw [e1, Outcome.ok.injEq] at he
    rw [e2, Outcome.ok.injEq] at he'
    subst he he'
    have pu : ∀ w ∈ itfWidths _, 0 < w := fun w hw => (itf_pos _ hu w hw).1
    have pv : ∀ w ∈ itfWidths _, 0 < w := fun w hw => (itf_pos _ hv w hw).1
    have lu := pairs_lt ds hu
    have lv := pairs_lt es hv
    have inj : ∀ p ∈ pairs ds, ∀ q ∈ pairs es, wItf p = wItf q → p = q := by
      intro p hp q hq h
      have h1 := lu p hp
      have h2 := lv q hq
      have hd : ∀ a c : Nat, c < 10 → (10 * a + c) / 10 = a ∧ (10 * a + c) % 10 = c := by omega
      have := itf_codes_inj (10 * p.1 + p.2) (by omega) (10 * q.1 + q.2) (by omega) (by
        rw [(hd p.1 p.2 h1.2).1, (hd p.1 p.2 h1.2).2, (hd q.1 q.2 h2.2).1, (hd q.1 q.2 h2.2).2]; exact h)
      exact Prod.ext (by omega) (by omega)
    have := framed_prefix 1 (by omega) 10 (by omega) wItf [1, 1, 1, 1] [2, 1, 1] [2, 1, 1] (by decide) rfl
      (by decide) _ _ (fun a ha => (itf_codes a.1 (lu a ha).1 a.2 (lu a ha).2).1)
      (fun a ha => (itf_codes a.1 (lv a ha).1 a.2 (lv a ha).2).1) inj
      (fun a ha => (itf_codes a.1 (lv a ha).1 a.2 (lv a ha).2).2) pu pv hp
    rw [itfWidths, itfWidths, this]
  | code128 =>
    obtain ⟨x, hx, he⟩ := h
    obtain ⟨y, hy, he'⟩ := h'
    obtain ⟨set, data, c, -, -, hu, rfl⟩ := code128_symbol b s x ms hx he
    obtain ⟨set', data', c', -, -, hv, rfl⟩ := code128_symbol b' t y ms' hy he'
    have pu : ∀ w ∈ code128Widths _, 0 < w := fun w hw => (code128_widths_pos _ hu w hw).1
    have pv : ∀ w ∈ code128Widths _, 0 < w := fun w hw => (code128_widths_pos _ hv w hw).1
    rw [framed_prefix 1 (by omega) 6 (by omega) w128 [] code128Stop code128Stop (by decide) rfl (by decide) _ _
      (fun a ha => (code128_codes a (hu a ha)).1.1) (fun a ha => (code128_codes a (hv a ha)).1.1)
      (fun a ha c hc => (code128_codes a (hu a ha)).2 c (hv c hc)) (fun a ha => (code128_codes a (hv a ha)).1.2) pu pv hp]

example : ∃ ms ms', Drawn .debug .stf "12".toList ms ∧ Drawn .debug .stf "123".toList ms' ∧ ms.length < ms'.length ∧
    ms.take 36 = ms'.take 36 ∧ ¬ ms <+: ms' := ⟨_, _, ⟨_, rfl, rfl⟩, ⟨_, rfl, rfl⟩, by decide⟩

theorem code128_symbol_data (b : Build) (s : List Char) (x : Code128.Code128) (ms : List Nat) (h : Code128.new s = .ok x)
    (he : Code128.encode b x = .ok ms) :
    ∃ set data c, (∀ v ∈ data ++ [c], v < 103) ∧ ms = paint (code128Widths (CodeSet.start set :: data ++ [c])) := by
  obtain ⟨set, data, -, -, h3, -, h5⟩ := code128_symbols s x h
  have hu : ∀ v ∈ x.units.map Code128.Unit.index, v < 106 := by
    rw [h5]
    intro v hv
    rcases List.mem_cons.mp hv with rfl | hv
    · exact start_lt set
    · exact Nat.lt_trans (h3 v hv) (by omega)
  cases hc : Code128.checksumValue b x with
  | err e => simp [Code128.encode, Code128.checksumEncoding, hc, payload128 x.units hu] at he
  | panic p => simp [Code128.encode, Code128.checksumEncoding, hc, payload128 x.units hu] at he
  | ok c =>
    by_cases hlt : c < 106
    · rw [encode128_ok b x.units c hu hlt hc] at he
      cases he
      refine ⟨set, data, c, ?_, by rw [h5]⟩
      have hc3 : c < 103 := by
        unfold Code128.checksumValue at hc
        cases hf : foldO (Code128.checksumStep b) 0 (x.units.zip (Code128.rangeI32 x.units.length)) with
        | err e => rw [hf] at hc; cases hc
        | panic p => rw [hf] at hc; cases hc
        | ok sum =>
          rw [hf, Outcome.ok_bind, Outcome.ok.injEq] at hc
          have h1 := Int.lt_tmod_of_pos sum (show (0 : Int) < 103 by omega)
          have h2 := Int.tmod_lt_of_pos sum (show (0 : Int) < 103 by omega)
          unfold asU8 at hc
          omega
      intro v hv
      rcases List.mem_append.mp hv with hv | hv
      · exact h3 v hv
      · rw [List.mem_singleton.mp hv]; exact hc3
    · have := unitEncoding_panic ⟨.A, c⟩ (by simpa using hlt)
      simp [Code128.encode, Code128.checksumEncoding, hc, payload128 x.units hu, this] at he

/-- C59. No symbol is the end of another symbol of the same symbology, except for Codabar and Interleaved 2 of 5. -/
theorem C59_suffix_free (b b' : Build) (k : Kind) (s t : List Char) (ms ms' : List Nat) (h : Drawn b k s ms)
    (h' : Drawn b' k t ms') (hk : k ≠ .codabar) (hk' : k ≠ .itf) (hp : ms <:+ ms') : ms = ms' := by
  cases k with
  | codabar => exact absurd rfl hk
  | itf => exact absurd rfl hk'
  | ean13 =>
    obtain ⟨x, hx, he⟩ := h
    obtain ⟨y, hy, he'⟩ := h'
    exact hp.eq_of_length (((C32_ean_rows b b s ms).1 x hx he).length.trans ((C32_ean_rows b' b' t ms').1 y hy he').length.symm)
  | ean8 =>
    obtain ⟨x, hx, he⟩ := h
    obtain ⟨y, hy, he'⟩ := h'
    exact hp.eq_of_length (((C32_ean_rows b b s ms).2.1 x hx he).length.trans ((C32_ean_rows b' b' t ms').2.1 y hy he').length.symm)
  | upca =>
    obtain ⟨x, hx, he⟩ := h
    obtain ⟨y, hy, he'⟩ := h'
    exact hp.eq_of_length (((C32_ean_rows b b s ms).2.2 x hx he).length.trans ((C32_ean_rows b' b' t ms').2.2 y hy he').length.symm)
  | supp =>
    obtain ⟨x, hx, he⟩ := h
    obtain ⟨y, hy, he'⟩ := h'
    have r := (C32_supp_row b s x ms hx he).length
    have r' := (C32_supp_row b' t y ms' hy he').length
    obtain ⟨ws, e, l1, hd, -, -, h25⟩ := supp_symbol s x hx
    obtain ⟨ws', e', l2, hd', -, -, h25'⟩ := supp_symbol t y hy
    rw [e, Outcome.ok.injEq] at he
    rw [e', Outcome.ok.injEq] at he'
    subst he he'
    have hle := hp.length_le
    rw [r, r'] at hle
    by_cases hst : s.length = t.length
    · exact hp.eq_of_length (by rw [r, r', hst])
    · exfalso
      have hs2 : s.length = 2 ∧ t.length = 5 := by
        rcases h25 with h | h <;> rcases h25' with h' | h' <;> simp [h, h'] at hle hst ⊢
      have l4 : ∀ q : Bool × Nat, q.2 < 10 → (wAB q).length = 4 := fun q hq => (wAB_spec q.2 hq q.1).1
      match ws, ws', l1.trans hs2.1, l2.trans hs2.2 with
      | [p, q], [a1, a2, a3, a4, a5], _, _ =>
        have hpos : ∀ w ∈ (suppWidths [p, q]).reverse, 0 < w := fun w hw =>
          (suppWidths_pos _ hd w (List.mem_reverse.mp hw)).1
        have hpos' : ∀ w ∈ (suppWidths [a1, a2, a3, a4, a5]).reverse, 0 < w := fun w hw =>
          (suppWidths_pos _ hd' w (List.mem_reverse.mp hw)).1
        have n1 : (suppWidths [p, q]).length = 13 := by
          simp [suppWidths, l4 p (hd p (by simp)), l4 q (hd q (by simp))]
        have n2 : (suppWidths [a1, a2, a3, a4, a5]).length = 31 := by
          simp [suppWidths, l4 a1 (hd' _ (by simp)), l4 a2 (hd' _ (by simp)), l4 a3 (hd' _ (by simp)),
            l4 a4 (hd' _ (by simp)), l4 a5 (hd' _ (by simp))]
        rw [← List.reverse_prefix, paint, paint, paintFrom_reverse 1 (by omega), paintFrom_reverse 1 (by omega), n1, n2] at hp
        have h := paintFrom_prefix 1 (by omega) _ _ hpos hpos' hp
        have e1 : (suppWidths [p, q]).reverse.dropLast = (wAB q).reverse ++ ([1, 1] ++ ((wAB p).reverse ++ [2, 1])) := by
          have e0 : (suppWidths [p, q]).reverse = ((wAB q).reverse ++ ([1, 1] ++ ((wAB p).reverse ++ [2, 1]))) ++ [1] := by
            simp [suppWidths]
          rw [e0, List.dropLast_concat]
        have e2 : (suppWidths [a1, a2, a3, a4, a5]).reverse = (wAB a5).reverse ++ ([1, 1] ++ ((wAB a4).reverse ++
            ([1, 1] ++ ((wAB a3).reverse ++ ([1, 1] ++ ((wAB a2).reverse ++ ([1, 1] ++ ((wAB a1).reverse ++ [2, 1, 1])))))))) := by
          simp [suppWidths]
        rw [e1, e2] at h
        obtain ⟨r, hr⟩ := h
        simp only [List.append_assoc] at hr
        have k1 := List.append_inj_right hr (by simp [l4 q (hd q (by simp)), l4 a5 (hd' _ (by simp))])
        have k2 := List.append_inj_right k1 rfl
        have k3 := List.append_inj_right k2 (by simp [l4 p (hd p (by simp)), l4 a4 (hd' _ (by simp))])
        cases k3
  | code39 =>
    obtain ⟨u, hu, rfl⟩ := drawn_code39 b s ms h
    obtain ⟨v, hv, rfl⟩ := drawn_code39 b' t ms' h'
    have e : ∀ t, code39Widths t = (w39 '*' ++ [1]) ++ (t.flatMap (fun c => w39 c ++ [1]) ++ w39 '*') := by
      intro t; rw [code39Widths, List.flatMap_cons, List.append_assoc]
    have pu : ∀ w ∈ code39Widths u, 0 < w := fun w hw => (code39_widths_pos u hu w hw).1
    have pv : ∀ w ∈ code39Widths v, 0 < w := fun w hw => (code39_widths_pos v hv w hw).1
    rw [e] at pu pv
    rw [e, e] at hp
    rw [framed_suffix 10 (by omega) (by omega) (fun c => w39 c ++ [1]) (w39 '*' ++ [1]) (w39 '*' ++ [1]) (w39 '*') (by decide) rfl
      (by decide) u v (fun a ha => (code39_codes a (hu a ha)).1.1) (fun a ha => (code39_codes a (hv a ha)).1.1)
      (fun a ha c hc => (code39_codes a (hu a ha)).2 c (hv c hc)) (fun a ha => (code39_codes a (hv a ha)).1.2.2) pu pv hp]
  | code93 =>
    obtain ⟨x, hx, he⟩ := h
    obtain ⟨y, hy, he'⟩ := h'
    obtain ⟨hu, e1⟩ := code93_symbol s x hx
    obtain ⟨hv, e2⟩ := code93_symbol t y hy
    rw [e1, Outcome.ok.injEq] at he
    rw [e2, Outcome.ok.injEq] at he'
    subst he he'
    have e : ∀ t, code93SymWidths t = w93 '*' ++ (t.flatMap w93 ++ (w93 '*' ++ [1])) := by
      intro t; simp [code93SymWidths]
    have pu : ∀ w ∈ code93SymWidths _, 0 < w := fun w hw => (code93_widths_pos _ hu w hw).1
    have pv : ∀ w ∈ code93SymWidths _, 0 < w := fun w hw => (code93_widths_pos _ hv w hw).1
    rw [e] at pu pv
    rw [e, e] at hp
    rw [framed_suffix 6 (by omega) (by omega) w93 (w93 '*') (w93 '*') (w93 '*' ++ [1]) (by decide) rfl
      (by decide) _ _ (fun a ha => (code93_codes a (hu a ha)).1.1) (fun a ha => (code93_codes a (hv a ha)).1.1)
      (fun a ha c hc => (code93_codes a (hu a ha)).2 c (hv c hc)) (fun a ha => (code93_codes a (hv a ha)).1.2.2) pu pv hp]
  | code11 =>
    obtain ⟨x, hx, he⟩ := h
    obtain ⟨y, hy, he'⟩ := h'
    obtain ⟨hu, e1⟩ := code11_symbol s x hx
    obtain ⟨hv, e2⟩ := code11_symbol t y hy
    rw [e1, Outcome.ok.injEq] at he
    rw [e2, Outcome.ok.injEq] at he'
    subst he he'
    have e : ∀ t, code11SymWidths t = (w11 '*' ++ [1]) ++ (t.flatMap (fun c => w11 c ++ [1]) ++ w11 '*') := by
      intro t; rw [code11SymWidths, List.flatMap_cons, List.append_assoc]
    have pu : ∀ w ∈ code11SymWidths _, 0 < w := fun w hw => (code11_widths_pos _ hu w hw).1
    have pv : ∀ w ∈ code11SymWidths _, 0 < w := fun w hw => (code11_widths_pos _ hv w hw).1
    rw [e] at pu pv
    rw [e, e] at hp
    rw [framed_suffix 6 (by omega) (by omega) (fun c => w11 c ++ [1]) (w11 '*' ++ [1]) (w11 '*' ++ [1]) (w11 '*') (by decide) rfl
      (by decide) _ _ (fun a ha => (code11_codes a (hu a ha)).1.1) (fun a ha => (code11_codes a (hv a ha)).1.1)
      (fun a ha c hc => (code11_codes a (hu a ha)).2 c (hv c hc)) (fun a ha => (code11_codes a (hv a ha)).1.2.2) pu pv hp]
  | stf =>
    obtain ⟨x, hx, he⟩ := h
    obtain ⟨y, hy, he'⟩ := h'
    obtain ⟨du, e1⟩ := stf_symbol s x hx
    obtain ⟨dv, e2⟩ := stf_symbol t y hy
    rw [e1, Outcome.ok.injEq] at he
    rw [e2, Outcome.ok.injEq] at he'
    subst he he'
    have hu := digits_lt s du
    have hv := digits_lt t dv
    have pu : ∀ w ∈ stfWidths _, 0 < w := fun w hw => (stf_pos _ hu w hw).1
    have pv : ∀ w ∈ stfWidths _, 0 < w := fun w hw => (stf_pos _ hv w hw).1
    rw [framed_suffix 10 (by omega) (by omega) wStf [2, 1, 2, 1, 1, 1] [2, 1, 2, 1, 1, 1] [2, 1, 1, 1, 2, 1] (by decide) rfl
      (by decide) _ _ (fun a ha => (stf_codes a (hu a ha)).1.1) (fun a ha => (stf_codes a (hv a ha)).1.1)
      (fun a ha c hc => (stf_codes a (hu a ha)).2 c (hv c hc)) (fun a ha => (stf_codes a (hv a ha)).1.2.2) pu pv hp]
  | code128 =>
    obtain ⟨x, hx, he⟩ := h
    obtain ⟨y, hy, he'⟩ := h'
    obtain ⟨set, data, c, hu, rfl⟩ := code128_symbol_data b s x ms hx he
    obtain ⟨set', data', c', hv, rfl⟩ := code128_symbol_data b' t y ms' hy he'
    have lift : ∀ (set : CodeSet) (l : List Nat), (∀ v ∈ l, v < 103) → ∀ v ∈ set.start :: l, v < 106 := by
      intro set l h v hv
      rcases List.mem_cons.mp hv with rfl | hv
      · exact start_lt set
      · have := h v hv; omega
    have pu : ∀ w ∈ code128Widths _, 0 < w := fun w hw => (code128_widths_pos _ (lift set _ hu) w hw).1
    have pv : ∀ w ∈ code128Widths _, 0 < w := fun w hw => (code128_widths_pos _ (lift set' _ hv) w hw).1
    have e : ∀ (set : CodeSet) l, code128Widths (set.start :: l) = w128 set.start ++ (l.flatMap w128 ++ code128Stop) := by
      intro set l; rw [code128Widths, List.flatMap_cons, List.append_assoc]
    rw [e] at pu pv
    rw [List.cons_append, List.cons_append, e, e] at hp ⊢
    have hs : ∀ set : CodeSet, 103 ≤ set.start := by intro set; cases set <;> decide
    have l6 : ∀ set : CodeSet, (w128 set.start).length = 6 := fun set => (code128_codes _ (start_lt set)).1.1
    have := framed_suffix 6 (by omega) (by omega) w128 (w128 set.start) (w128 set'.start) code128Stop (by rw [l6]; omega)
      (by rw [l6, l6]) (by intro h0; have := l6 set; rw [h0] at this; cases this) (data ++ [c]) (data' ++ [c'])
      (fun a ha => (code128_codes a (by have := hu a ha; omega)).1.1) (fun a ha => (code128_codes a (by have := hv a ha; omega)).1.1)
      (fun a ha c hc => (code128_codes a (by have := hu a ha; omega)).2 c (by have := hv c hc; omega))
      (fun a ha => by rw [l6]; exact code128_starts a (hv a ha) _ (start_lt set) (hs set)) pu pv hp
    refine hp.eq_of_length ?_
    rw [paint, paint, paintFrom_length, paintFrom_length, List.sum_append, w128_sum _ (start_lt set), this]
    have := w128_sum _ (start_lt set')
    simp only [List.sum_append]
    omega

example : ∃ ms ms', Drawn .debug .code11 "20".toList ms ∧ Drawn .debug .code11 "120".toList ms' ∧ ms.length < ms'.length ∧
    ¬ ms <:+ ms' := ⟨_, _, ⟨_, rfl, rfl⟩, ⟨_, rfl, rfl⟩, by decide⟩

/-- C59. The exceptions are real. Codabar data is not delimited, even with start and stop letters: `A1A` is the beginning and
the end of `A1A1A`. -/
theorem C59_codabar_cut (b : Build) : ∃ ms ms', Drawn b .codabar "A1A".toList ms ∧ Drawn b .codabar "A1A1A".toList ms' ∧
    ms <+: ms' ∧ ms <:+ ms' ∧ ms ≠ ms' := ⟨_, _, ⟨_, rfl, rfl⟩, ⟨_, rfl, rfl⟩, by decide⟩

/-- C59. A two-digit supplemental may be the beginning of a five-digit one. -/
theorem C59_supp_cut (b : Build) : ∃ ms ms', Drawn b .supp "20".toList ms ∧ Drawn b .supp "20000".toList ms' ∧
    ms <+: ms' ∧ ms ≠ ms' := ⟨_, _, ⟨_, rfl, rfl⟩, ⟨_, rfl, rfl⟩, by decide⟩

/-- C59. An Interleaved 2 of 5 symbol may be the end of a longer one: the start pattern also occurs in the data. -/
theorem C59_itf_cut (b : Build) : ∃ ms ms', Drawn b .itf "12".toList ms ∧ Drawn b .itf "3312".toList ms' ∧
    ms <:+ ms' ∧ ms ≠ ms' := ⟨_, _, ⟨_, rfl, rfl⟩, ⟨_, rfl, rfl⟩, by decide⟩

example : ∃ ms ms', Drawn .debug .code39 "A1".toList ms ∧ Drawn .debug .code39 "A1A1".toList ms' ∧
    ms.length < ms'.length ∧ ms.take 30 = ms'.take 30 ∧ ¬ ms <+: ms' := ⟨_, _, ⟨_, Or.inl rfl, rfl⟩, ⟨_, Or.inl rfl, rfl⟩, by decide⟩

end Barcoders
