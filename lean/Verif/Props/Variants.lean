import Verif.Props.Shape
import Verif.Props.EanSupp

/-!
# Values of the public enum variants (C102)

`TF::Standard`, `TF::Interleaved`, `EANSUPP::EAN2` and `EANSUPP::EAN5` are public tuple variants, so a program can wrap digits of
its own without a constructor. C31 says when `encode()` of such a value panics; here is what is drawn otherwise.
-/

set_option autoImplicit false

namespace Barcoders
open Spec

/-- C102. `TF::Standard(ds)` of decimal digits, of any number, is read back as exactly these digits. -/
theorem C102_stf (ds : List Nat) (hd : ∀ d ∈ ds, d < 10) :
    ∃ ms, TF.encode (.Standard ds) = .ok ms ∧ scanStf ms = some ds :=
  ⟨_, stf_encode_eq ds hd, scanStf_paint ds hd⟩

/-- Three hundred digits, more than the constructor takes, and none at all. -/
example : (∃ ms, TF.encode (.Standard (List.replicate 300 7)) = .ok ms ∧ scanStf ms = some (List.replicate 300 7)) ∧
    (∃ ms, TF.encode (.Standard []) = .ok ms ∧ scanStf ms = some []) :=
  ⟨C102_stf _ (fun d h => by rw [(List.mem_replicate.mp h).2]; omega), C102_stf [] (by simp)⟩

/-- C102. `TF::Interleaved(ds)` of an even number of decimal digits is read back as exactly these digits. -/
theorem C102_itf (ds : List Nat) (hd : ∀ d ∈ ds, d < 10) (he : ds.length % 2 = 0) :
    ∃ ms, TF.encode (.Interleaved ds) = .ok ms ∧ scanItf ms = some ds :=
  ⟨_, itf_encode_eq ds hd he, scanItf_paint ds hd he⟩

example : ∃ ms, TF.encode (.Interleaved [1, 2, 3, 4]) = .ok ms ∧ ms.length = 44 ∧ scanItf ms = some [1, 2, 3, 4] :=
  ⟨_, rfl, by decide, by decide⟩

/-- C102. Whatever the values: a 2 of 5 symbol that is drawn at all is read back as exactly these values; nothing is left out or
reduced. -/
theorem C102_tf_never_wrong (ds ms : List Nat) :
    (TF.encode (.Standard ds) = .ok ms → scanStf ms = some ds) ∧ (TF.encode (.Interleaved ds) = .ok ms → scanItf ms = some ds) := by
  constructor
  · intro h
    have hd : ∀ d ∈ ds, d < 10 := fun d hd => Nat.lt_of_not_le fun h10 => by
      have := (C31_stf_variant_panics ds).mpr ⟨d, hd, h10⟩
      rw [h] at this
      cases this
    obtain ⟨ms', h', hs⟩ := C102_stf ds hd
    rw [h, Outcome.ok.injEq] at h'
    rw [h', hs]
  · intro h
    have hn : ¬ (ds.length % 2 = 1 ∨ ∃ d ∈ ds, 10 ≤ d) := fun hp => by
      have := (C31_itf_variant_panics ds).mpr hp
      rw [h] at this
      cases this
    rw [not_or] at hn
    obtain ⟨ms', h', hs⟩ := C102_itf ds (fun d hd => Nat.lt_of_not_le fun h10 => hn.2 ⟨d, hd, h10⟩) (by omega)
    rw [h, Outcome.ok.injEq] at h'
    rw [h', hs]

/-- Three values, and a value above nine: nothing is drawn. -/
example : (TF.encode (.Interleaved [1, 2, 3])).isPanic = true ∧ (TF.encode (.Standard [1, 12])).isPanic = true ∧
    (TF.encode (.Standard [1, 2])).isOk = true := by decide

theorem parity_row (b : Build) (x : EanSupp.EANSUPP) (ps : List Nat) (h : EanSupp.parity b x = .ok ps) :
    ps.length = 5 ∧ ∀ s ∈ ps, s < 2 := by
  have t2 : ∀ ps ∈ EanSupp.EAN2_PARITY, ps.length = 5 ∧ ∀ s ∈ ps, s < 2 := by decide
  have t5 : ∀ ps ∈ EanSupp.EAN5_PARITY, ps.length = 5 ∧ ∀ s ∈ ps, s < 2 := by decide
  have hi : ∀ (l : List (List Nat)) i, idx l i = .ok ps → ps ∈ l := by
    intro l i h
    unfold idx at h
    split at h
    · rename_i a ha
      cases h
      exact List.mem_of_getElem? ha
    · cases h
  have bind_ok : ∀ {α : Type} (o : Outcome α) (f : α → Outcome (List Nat)), (o >>= f) = .ok ps → ∃ a, f a = .ok ps := by
    intro α o f h
    cases o with
    | ok a => exact ⟨a, h⟩
    | err e => cases h
    | panic p => cases h
  cases x with
  | EAN2 d =>
    rw [EanSupp.parity] at h
    obtain ⟨_, h⟩ := bind_ok _ _ h
    obtain ⟨_, h⟩ := bind_ok _ _ h
    obtain ⟨_, h⟩ := bind_ok _ _ h
    obtain ⟨_, h⟩ := bind_ok _ _ h
    exact t2 _ (hi _ _ h)
  | EAN5 d =>
    rw [EanSupp.parity] at h
    obtain ⟨_, h⟩ := bind_ok _ _ h
    exact t5 _ (hi _ _ h)

/-- `supp_encode_of` for values of any length: only as many as there are parities are drawn. -/
theorem supp_encode_zip (b : Build) (x : EanSupp.EANSUPP) (ps : List Nat) (hp : EanSupp.parity b x = .ok ps)
    (hps : ∀ s ∈ ps, s < 2) (hd : ∀ d ∈ (EanSupp.rawData x).take ps.length, d < 10) (h0 : EanSupp.rawData x ≠ []) (hp0 : ps ≠ []) :
    EanSupp.encode b x = .ok (paint (suppWidths ((ps.map (· == 1)).zip (EanSupp.rawData x)))) := by
  have hz : ∀ (ds ps : List Nat), ∀ p ∈ ds.zip ps, p.1 ∈ ds.take ps.length := by
    intro ds
    induction ds with
    | nil => simp
    | cons d ds ih =>
      intro ps p hp
      cases ps with
      | nil => simp at hp
      | cons q ps =>
        rw [List.zip_cons_cons] at hp
        rcases List.mem_cons.mp hp with rfl | hp
        · simp
        · simp [ih ps p hp]
  unfold EanSupp.encode EanSupp.payload
  rw [hp, Outcome.ok_bind, mapO_ok _ (fun p => paintFrom 0 (wAB (p.2 == 1, p.1)))]
  · simp only [Outcome.ok_bind]
    rw [← zip_swap_map]
    match hx : EanSupp.rawData x, ps, h0, hp0 with
    | d :: ds, p :: ps, _, _ =>
      rw [List.zip_cons_cons, List.map_cons, List.map_cons, enumerate, enumFrom, List.foldl_cons,
        payloadStep_tail 1 (by omega)]
      rw [hx] at hd
      have hl := wAB_spec d (hd d (by simp)) (p == 1)
      rw [suppWidths, paint, paintFrom_append_odd 1 (by omega) _ _ (by decide),
        paintFrom_append_even _ (by omega) _ _ (by rw [hl.1]), paintFrom_flatMap _ (by omega)]
      · simp [Helpers.joinSlices, EanSupp.payloadStep, EanSupp.LEFT_GUARD, paintFrom, List.flatMap_map]
      · rintro ⟨s, d'⟩ hm
        simp only [List.mem_map, Prod.mk.injEq] at hm
        obtain ⟨⟨a, c⟩, hac, rfl, rfl⟩ := hm
        have := wAB_spec a (hd a (by simp [hz ds ps _ hac])) (c == 1)
        simp [this.1]
  · rintro ⟨d, s⟩ hds
    have := List.of_mem_zip hds
    exact supp_charEncoding d (hd d (hz _ _ _ hds)) s (hps s this.2)

/-- Whatever the parities, an add-on is read as its own digits or not at all. -/
theorem scanAddOn_only (ps : List (Bool × Nat)) (h : ∀ p ∈ ps, p.2 < 10) (h0 : ps ≠ []) :
    scanAddOn (paint (suppWidths ps)) =
      if addOnOk (ps.map Prod.fst) (ps.map Prod.snd) = true then some (ps.map Prod.snd) else none := by
  match ps, h0 with
  | p :: ps, _ =>
    rw [scanAddOn, elements_paint _ (fun w hw => (suppWidths_pos _ h w hw).1) (by simp [suppWidths]), Option.bind_some,
      suppWidths, readAddOn]
    have h1 := readN_append 4 readAB wAB id [p] (ps.flatMap (fun q => [1, 1] ++ wAB q))
      (by intro q hq; rw [List.mem_singleton] at hq; subst hq; exact wAB_spec q.2 (h q (by simp)) q.1)
    have h2 := readAll_flatMap 6 (by omega) readAddOnDigit (fun q => [1, 1] ++ wAB q) id ps
      (by
        intro q hq
        have := wAB_spec q.2 (h q (by simp [hq])) q.1
        refine ⟨by rw [List.length_append, this.1]; rfl, ?_⟩
        rw [readAddOnDigit, expect_append, Option.bind_some, this.2]; rfl)
    simp only [List.length_singleton, List.flatMap_cons, List.flatMap_nil, List.append_nil, List.map_id] at h1 h2
    simp only [expect_append, Option.bind_eq_bind, Option.bind_some, h1, h2, List.singleton_append]

theorem zip_snd_take (qs : List Bool) (ds : List Nat) : (qs.zip ds).map Prod.snd = ds.take qs.length := by
  induction qs generalizing ds with
  | nil => simp
  | cons q qs ih =>
    cases ds with
    | nil => simp
    | cons d ds => simp [ih]

theorem addOnOk_length (sets : List Bool) (ds : List Nat) (h : addOnOk sets ds = true) : ds.length = 2 ∨ ds.length = 5 := by
  unfold addOnOk at h
  split at h
  · exact Or.inl rfl
  · exact Or.inr rfl
  · cases h

/-- C102. Whatever an add-on variant wraps, if it is drawn and read, what is read are its digits; digits after the fifth are not
drawn. Three or four digits are never read. -/
theorem C102_supp (b : Build) (x : EanSupp.EANSUPP) (ds ms t : List Nat) (hx : x = .EAN2 ds ∨ x = .EAN5 ds)
    (h : EanSupp.encode b x = .ok ms) (ht : scanAddOn ms = some t) :
    t = ds.take 5 ∧ (t.length = 2 ∨ t.length = 5) := by
  have hr : EanSupp.rawData x = ds := by rcases hx with rfl | rfl <;> rfl
  cases hp : EanSupp.parity b x with
  | panic p =>
    have := supp_encode_parity_panic b x p hp
    rw [h] at this
    cases this
  | err e =>
    unfold EanSupp.encode EanSupp.payload at h
    rw [hp] at h
    cases h
  | ok ps =>
    obtain ⟨hl, hs⟩ := parity_row b x ps hp
    have hd : ∀ d ∈ ds.take 5, d < 10 := by
      intro d hm
      refine Classical.byContradiction (fun hn => ?_)
      have := (supp_encode_panics b x ps hp hl hs).mpr ⟨d, by rw [hr]; exact hm, by omega⟩
      rw [h] at this
      cases this
    by_cases h0 : ds = []
    · have : EanSupp.encode b x = .ok [1, 0, 1, 1] := by
        unfold EanSupp.encode EanSupp.payload
        rw [hp, hr, h0]
        rfl
      rw [this] at h
      cases h
      rw [show scanAddOn [1, 0, 1, 1] = none from by decide] at ht
      cases ht
    · have hp0 : ps ≠ [] := by intro e; rw [e] at hl; cases hl
      rw [supp_encode_zip b x ps hp hs (by rw [hr, hl]; exact hd) (by rw [hr]; exact h0) hp0, hr] at h
      cases h
      have hsnd := zip_snd_take (ps.map (· == 1)) ds
      rw [List.length_map, hl] at hsnd
      rw [scanAddOn_only _ (by
        intro p hm
        exact hd _ (by rw [← hsnd]; exact List.mem_map_of_mem hm)) (by
        intro e
        rcases List.zip_eq_nil_iff.mp e with e | e
        · exact hp0 (List.map_eq_nil_iff.mp e)
        · exact h0 e), hsnd] at ht
      split at ht
      · rename_i hok
        cases ht
        exact ⟨rfl, addOnOk_length _ _ hok⟩
      · cases ht

example : ∃ ms, EanSupp.encode .debug (.EAN5 [5, 1, 4, 9, 9, 7]) = .ok ms ∧ scanAddOn ms = none ∧
    ∃ ms', EanSupp.encode .debug (.EAN5 [5, 1, 4, 9, 9]) = .ok ms' ∧ scanAddOn ms' = some [5, 1, 4, 9, 9] :=
  ⟨_, rfl, by decide +kernel, _, rfl, by decide +kernel⟩

/-- C102. Two digits in `EANSUPP::EAN2` and five in `EANSUPP::EAN5` are always drawn and read. -/
theorem C102_supp_read (b : Build) (ds : List Nat) (hd : ∀ d ∈ ds, d < 10) :
    (ds.length = 2 → ∃ ms, EanSupp.encode b (.EAN2 ds) = .ok ms ∧ scanAddOn ms = some ds) ∧
    (ds.length = 5 → ∃ ms, EanSupp.encode b (.EAN5 ds) = .ok ms ∧ scanAddOn ms = some ds) := by
  constructor
  · intro hl
    obtain ⟨ws, h1, -, -, h2⟩ := ean2_encode_scan ds hl hd
    exact ⟨_, h1 b, h2⟩
  · intro hl
    obtain ⟨ws, h1, -, -, h2⟩ := ean5_encode_scan ds hl hd
    exact ⟨_, h1 b, h2⟩

/-- Seven digits in the variant for five: the last two are not drawn. Here the parities fit and a scanner reads the first five. -/
example : ∃ ms, EanSupp.encode .debug (.EAN5 [1, 2, 3, 4, 5, 0, 0]) = .ok ms ∧ scanAddOn ms = some [1, 2, 3, 4, 5] :=
  ⟨_, rfl, by decide⟩

/-- Three digits are drawn, but no scanner reads them. -/
example : ∃ ms, EanSupp.encode .debug (.EAN2 [1, 2, 3]) = .ok ms ∧ ms.length = 29 ∧ scanAddOn ms = none :=
  ⟨_, rfl, by decide, by decide⟩

end Barcoders
