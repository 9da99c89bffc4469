import Verif.Lemmas.CheckedNew
import Verif.Model.EanSupp

set_option autoImplicit false

namespace Barcoders
open Spec

/-- `EANSUPP::new`, completely, for every string. -/
theorem supp_new (s : List Char) :
    EanSupp.new s =
      if byteLen s % 2 ^ 32 < 2 ∨ byteLen s % 2 ^ 32 > 5 then .err .length
      else if ¬ AllDigits s then .err .character
      else if s.length = 2 then .ok (.EAN2 (digitsOf s))
      else if s.length = 5 then .ok (.EAN5 (digitsOf s))
      else .err .length := by
  unfold EanSupp.new EanSupp.parseData
  rw [parse_eq_mod]
  split
  · rfl
  · by_cases hD : AllDigits s
    · rw [if_pos ((forall_mem_digitChars s).mpr hD), if_neg (not_not_intro hD), Outcome.ok_bind, toDigits_eq s hD,
        Outcome.ok_bind]
      simp [digitsOf]
    · rw [if_neg (fun h => hD ((forall_mem_digitChars s).mp h)), if_pos hD]
      rfl

/-- Widths of an add-on symbol. -/
def suppWidths : List (Bool × Nat) → List Nat
  | [] => []
  | p :: ps => [1, 1, 2] ++ (wAB p ++ ps.flatMap (fun q => [1, 1] ++ wAB q))

theorem payloadStep_tail (k : Nat) (hk : 0 < k) (acc : List Nat) (l : List (List Nat)) :
    (enumFrom k l).foldl EanSupp.payloadStep acc = acc ++ l.flatMap ([0, 1] ++ ·) := by
  induction l generalizing k acc with
  | nil => simp [enumFrom]
  | cons a l ih =>
    rw [enumFrom, List.foldl_cons, ih (k + 1) (by omega)]
    simp [EanSupp.payloadStep, hk]

theorem zip_swap_map (ls ps : List Nat) :
    (ls.zip ps).map (fun p => (p.2 == 1, p.1)) = (ps.map (· == 1)).zip ls := by
  induction ls generalizing ps with
  | nil => simp
  | cons l ls ih =>
    cases ps with
    | nil => simp
    | cons p ps => simp [ih]

/-- The modules of an add-on, given its parity row. -/
theorem supp_encode_of (b : Build) (x : EanSupp.EANSUPP) (ps : List Nat) (hp : EanSupp.parity b x = .ok ps)
    (hps : ∀ s ∈ ps, s < 2) (hd : Digits (EanSupp.rawData x)) (h0 : EanSupp.rawData x ≠ []) (hp0 : ps ≠ []) :
    EanSupp.encode b x = .ok (paint (suppWidths ((ps.map (· == 1)).zip (EanSupp.rawData x)))) := by
  unfold EanSupp.encode EanSupp.payload
  rw [hp, Outcome.ok_bind, mapO_ok _ (fun p => paintFrom 0 (wAB (p.2 == 1, p.1)))]
  · simp only [Outcome.ok_bind]
    rw [← zip_swap_map]
    match hx : EanSupp.rawData x, ps, h0, hp0 with
    | d :: ds, p :: ps, _, _ =>
      rw [List.zip_cons_cons, List.map_cons, List.map_cons, enumerate, enumFrom, List.foldl_cons,
        payloadStep_tail 1 (by omega)]
      rw [hx] at hd
      have hl := wAB_spec d (digits_head hd) (p == 1)
      rw [suppWidths, paint, paintFrom_append_odd 1 (by omega) _ _ (by decide),
        paintFrom_append_even _ (by omega) _ _ (by rw [hl.1]), paintFrom_flatMap _ (by omega)]
      · simp [Helpers.joinSlices, EanSupp.payloadStep, EanSupp.LEFT_GUARD, paintFrom, List.flatMap_map]
      · rintro ⟨s, d'⟩ hm
        simp only [List.mem_map, Prod.mk.injEq] at hm
        obtain ⟨⟨a, c⟩, hac, rfl, rfl⟩ := hm
        have := wAB_spec a (hd a (by simp [(List.of_mem_zip hac).1])) (c == 1)
        simp [this.1]
  · rintro ⟨d, s⟩ hds
    have := List.of_mem_zip hds
    exact supp_charEncoding d (hd d this.1) s (hps s this.2)

theorem suppWidths_pos (ps : List (Bool × Nat)) (h : ∀ p ∈ ps, p.2 < 10) : ∀ w ∈ suppWidths ps, 0 < w ∧ w ≤ 4 := by
  match ps with
  | [] => simp [suppWidths]
  | p :: ps =>
    intro w hw
    simp only [suppWidths, List.mem_append, List.mem_cons, List.not_mem_nil, or_false, List.mem_flatMap] at hw
    rcases hw with hw | hw | ⟨q, hq, hw | hw⟩
    · omega
    · exact wAB_pos p.2 (h p (by simp)) p.1 w hw
    · omega
    · exact wAB_pos q.2 (h q (by simp [hq])) q.1 w hw

theorem scanAddOn_paint (ps : List (Bool × Nat)) (h : ∀ p ∈ ps, p.2 < 10) (h0 : ps ≠ [])
    (hok : addOnOk (ps.map Prod.fst) (ps.map Prod.snd) = true) :
    scanAddOn (paint (suppWidths ps)) = some (ps.map Prod.snd) := by
  match ps, h0 with
  | p :: ps, _ =>
    rw [scanAddOn, elements_paint _ (fun w hw => (suppWidths_pos _ h w hw).1) (by simp [suppWidths]), Option.bind_some,
      suppWidths, readAddOn]
    have h1 := readN_append 4 readAB wAB id [p] (ps.flatMap (fun q => [1, 1] ++ wAB q))
      (by intro q hq; rw [List.mem_singleton] at hq; subst hq; exact wAB_spec q.2 (h q (by simp)) q.1)
    have h2 := readAll_flatMap 6 (by omega) readAddOnDigit (fun q => [1, 1] ++ wAB q) id ps
      (by
        intro q hq
        have := wAB_spec q.2 (h q (by simp [hq])) q.1
        refine ⟨by rw [List.length_append, this.1]; rfl, ?_⟩
        rw [readAddOnDigit, expect_append, Option.bind_some, this.2]; rfl)
    simp only [List.length_singleton, List.flatMap_cons, List.flatMap_nil, List.append_nil, List.map_id] at h1 h2
    simp only [expect_append, Option.bind_eq_bind, Option.bind_some, h1, h2, List.singleton_append, hok, if_true]

theorem ean5Parity_spec : ∀ c < 10, ∃ ps, idx EanSupp.EAN5_PARITY c = .ok ps ∧ ps.length = 5 ∧ (∀ s ∈ ps, s < 2) ∧
    ean5Sets[c]? = some (ps.map (· == 1)) := by
  intro c hc
  refine ⟨EanSupp.EAN5_PARITY.getD c [], ?_⟩
  revert c
  decide

theorem ean2Parity_spec : ∀ c < 4, ∃ ps, idx EanSupp.EAN2_PARITY c = .ok ps ∧ ps.length = 5 ∧ (∀ s ∈ ps, s < 2) ∧
    ean2Sets[c]? = some ((ps.map (· == 1)).take 2) := by
  intro c hc
  refine ⟨EanSupp.EAN2_PARITY.getD c [], ?_⟩
  revert c
  decide

theorem ean5_checksum (b : Build) (d0 d1 d2 d3 d4 : Nat) (h : Digits [d0, d1, d2, d3, d4]) :
    EanSupp.checksumDigit b (.EAN5 [d0, d1, d2, d3, d4]) =
      .ok ((3 * d0 + 9 * d1 + 3 * d2 + 9 * d3 + 3 * d4) % 10) := by
  simp only [Digits, List.mem_cons, List.not_mem_nil, or_false, forall_eq_or_imp, forall_eq] at h
  obtain ⟨h0, h1, h2, h3, h4⟩ := h
  unfold EanSupp.checksumDigit
  simp only [EanSupp.rawData, enumerate, enumFrom, foldO, EanSupp.checksumStep, Nat.reduceAdd, Nat.reduceMod, if_true,
    Nat.zero_ne_one, if_false, Nat.zero_add]
  simp only [u8_ok b d0 (by omega), u8_ok b d1 (by omega), u8_ok b (d0 + d2) (by omega), u8_ok b (d1 + d3) (by omega),
    u8_ok b (d0 + d2 + d4) (by omega), u8_ok b ((d0 + d2 + d4) * 3) (by omega), u8_ok b ((d1 + d3) * 9) (by omega),
    u8_ok b ((d0 + d2 + d4) * 3 + (d1 + d3) * 9) (by omega), Outcome.ok_bind, Nat.zero_add]
  rw [if_neg (by omega)]
  congr 1
  omega

theorem ean5_encode_scan (ds : List Nat) (hl : ds.length = 5) (hd : Digits ds) :
    ∃ ws, (∀ b, EanSupp.encode b (.EAN5 ds) = .ok (paint (suppWidths ws))) ∧ ws.length = 5 ∧ (∀ p ∈ ws, p.2 < 10) ∧
      scanAddOn (paint (suppWidths ws)) = some ds := by
  match ds, hl with
  | [d0, d1, d2, d3, d4], _ =>
    obtain ⟨ps, hi, hpl, hp2, hs⟩ := ean5Parity_spec ((3 * d0 + 9 * d1 + 3 * d2 + 9 * d3 + 3 * d4) % 10) (by omega)
    have hp : ∀ b, EanSupp.parity b (.EAN5 [d0, d1, d2, d3, d4]) = .ok ps := by
      intro b
      unfold EanSupp.parity
      simp only []
      rw [ean5_checksum b d0 d1 d2 d3 d4 hd, Outcome.ok_bind, hi]
    have he := fun b => supp_encode_of b _ ps (hp b) hp2 hd (by simp [EanSupp.rawData]) (by intro h; rw [h] at hpl; cases hpl)
    simp only [EanSupp.rawData] at he
    have hz : ((ps.map (· == 1)).zip [d0, d1, d2, d3, d4]).map Prod.snd = [d0, d1, d2, d3, d4] :=
      List.map_snd_zip (by simp [hpl])
    have hz1 : ((ps.map (· == 1)).zip [d0, d1, d2, d3, d4]).map Prod.fst = ps.map (· == 1) :=
      List.map_fst_zip (by simp [hpl])
    refine ⟨_, he, by simp [hpl], zip_snd_lt _ _ hd, ?_⟩
    rw [scanAddOn_paint _ (zip_snd_lt _ _ hd)]
    · rw [hz]
    · intro h
      have := congrArg List.length h
      simp [hpl] at this
    · rw [hz, hz1, addOnOk, hs]
      simp

theorem ean2_encode_scan (ds : List Nat) (hl : ds.length = 2) (hd : Digits ds) :
    ∃ ws, (∀ b, EanSupp.encode b (.EAN2 ds) = .ok (paint (suppWidths ws))) ∧ ws.length = 2 ∧ (∀ p ∈ ws, p.2 < 10) ∧
      scanAddOn (paint (suppWidths ws)) = some ds := by
  match ds, hl with
  | [d0, d1], _ =>
    have h0 : d0 < 10 := digits_head hd
    have h1 : d1 < 10 := digits_head (digits_tail hd)
    obtain ⟨ps, hi, hpl, hp2, hs⟩ := ean2Parity_spec ((10 * d0 + d1) % 4) (by omega)
    have hp : ∀ b, EanSupp.parity b (.EAN2 [d0, d1]) = .ok ps := by
      intro b
      unfold EanSupp.parity
      simp only [idx_ok [d0, d1] 0 (by simp), idx_ok [d0, d1] 1 (by simp), Outcome.ok_bind, List.getElem_cons_zero,
        List.getElem_cons_succ]
      rw [u8_ok b (d0 * 10) (by omega), Outcome.ok_bind, u8_ok b (d0 * 10 + d1) (by omega), Outcome.ok_bind, Nat.mul_comm, hi]
    have he := fun b => supp_encode_of b _ ps (hp b) hp2 hd (by simp [EanSupp.rawData]) (by intro h; rw [h] at hpl; cases hpl)
    simp only [EanSupp.rawData] at he
    have hz : ((ps.map (· == 1)).zip [d0, d1]).map Prod.snd = [d0, d1] :=
      List.map_snd_zip (by simp [hpl])
    have hz1 : ((ps.map (· == 1)).zip [d0, d1]).map Prod.fst = (ps.map (· == 1)).take 2 := by
      match ps, hpl with
      | [_, _, _, _, _], _ => rfl
    refine ⟨_, he, by simp [hpl], zip_snd_lt _ _ hd, ?_⟩
    rw [scanAddOn_paint _ (zip_snd_lt _ _ hd)]
    · rw [hz]
    · intro h
      have := congrArg List.length h
      simp [hpl] at this
    · rw [hz, hz1, addOnOk, hs]
      simp

/-- The symbol of every accepted add-on, the same in both builds. -/
theorem supp_symbol (s : List Char) (x : EanSupp.EANSUPP) (h : EanSupp.new s = .ok x) :
    ∃ ws, (∀ b, EanSupp.encode b x = .ok (paint (suppWidths ws))) ∧ ws.length = s.length ∧ (∀ p ∈ ws, p.2 < 10) ∧
      scanAddOn (paint (suppWidths ws)) = some (digitsOf s) ∧ AllDigits s ∧ (s.length = 2 ∨ s.length = 5) := by
  rw [supp_new] at h
  split at h
  · cases h
  · split at h
    · cases h
    · rename_i hD
      have hD : AllDigits s := by simpa using hD
      split at h
      · rename_i hl
        obtain ⟨ws, h1, h3, h4, h2⟩ := ean2_encode_scan (digitsOf s) (by simpa [digitsOf]) (digits_lt s hD)
        cases h
        exact ⟨_, h1, by omega, h4, h2, hD, Or.inl hl⟩
      · split at h
        · rename_i hl
          obtain ⟨ws, h1, h3, h4, h2⟩ := ean5_encode_scan (digitsOf s) (by simpa [digitsOf]) (digits_lt s hD)
          cases h
          exact ⟨_, h1, by omega, h4, h2, hD, Or.inr hl⟩
        · cases h

end Barcoders
