import Verif.Lemmas.Symbols

/-!
# Properties of every encoding: no panics (C31), shape and length (C32), element widths (C48)
-/

set_option autoImplicit false

namespace Barcoders

open Spec

/-! ## C31: encoding never panics -/

/-- C31. `encode()` of every constructed EAN-13, EAN-8, UPC-A, supplemental, Code 39, Code 93, Code 11, Codabar or
2 of 5 barcode returns modules, whichever build made it and whichever build encodes it. (`Codabar.encode` is modelled as a
total function: nothing in `src/sym/codabar.rs` lines 141-158 indexes or unwraps.) -/
theorem C31_encode_ok (b b' : Build) (s : List Char) :
    (∀ x, Ean13.new b s = .ok x → ∃ ms, Ean13.encode b' x = .ok ms) ∧
    (∀ x, Ean8.new b s = .ok x → ∃ ms, Ean8.encode b' x = .ok ms) ∧
    (∀ x, Upca.new b s = .ok x → ∃ ms, Upca.encode b' x = .ok ms) ∧
    (∀ x, EanSupp.new s = .ok x → ∃ ms, EanSupp.encode b' x = .ok ms) ∧
    (∀ x, Code39.new s = .ok x → ∃ ms, Code39.encode x = .ok ms) ∧
    (∀ x, Code39.withChecksum s = .ok x → ∃ ms, Code39.encode x = .ok ms) ∧
    (∀ x, Code93.new s = .ok x → ∃ ms, Code93.encode x = .ok ms) ∧
    (∀ x, Code11.new s = .ok x → ∃ ms, Code11.encode x = .ok ms) ∧
    (∀ x, TF.standard s = .ok x → ∃ ms, TF.encode x = .ok ms) ∧
    (∀ x, TF.interleaved b s = .ok x → ∃ ms, TF.encode x = .ok ms) := by
  refine ⟨fun x h => ?_, fun x h => ?_, fun x h => ?_, fun x h => ?_, fun x h => ?_, fun x h => ?_, fun x h => ?_,
    fun x h => ?_, fun x h => ?_, fun x h => ?_⟩
  · obtain ⟨_, _, _, _, _, _, _, _, _, he⟩ := ean13_symbol b s x h
    exact ⟨_, he b'⟩
  · obtain ⟨_, _, _, _, _, _, _, he⟩ := ean8_symbol b s x h
    exact ⟨_, he b'⟩
  · obtain ⟨_, _, _, _, _, _, _, he⟩ := upca_symbol b s x h
    exact ⟨_, he b'⟩
  · obtain ⟨_, he, _⟩ := supp_symbol s x h
    exact ⟨_, he b'⟩
  · exact ⟨_, (code39_symbol s false x h).2⟩
  · exact ⟨_, (code39_symbol s true x h).2⟩
  · exact ⟨_, (code93_symbol s x h).2⟩
  · exact ⟨_, (code11_symbol s x h).2⟩
  · exact ⟨_, (stf_symbol s x h).2⟩
  · obtain ⟨_, _, _, _, _, _, he⟩ := itf_symbol b s x h
    exact ⟨_, he⟩

example : (Code93.new "AZ".toList >>= Code93.encode).isPanic = false ∧
    (EanSupp.new "51".toList >>= EanSupp.encode .debug).isPanic = false := by decide

/-- C31, partial. For Code 128 only strings of at most 6489 characters are certain not to panic: the full statement (any
accepted string) is false, see `C29_code128_panics`; which longer ones panic is `C29_code128_debug` and
`C29_code128_release`. -/
theorem C31_code128_encode_ok_partial (b : Build) (s : List Char) (x : Code128.Code128) (h : Code128.new s = .ok x)
    (hl : s.length ≤ 6489) : ∃ ms, Code128.encode b x = .ok ms := by
  obtain ⟨ms, he, -⟩ := C28_code128_scan_regrouped_partial b s x h hl
  exact ⟨ms, he⟩

example : ∃ x ms, Code128.new "ƁAb".toList = .ok x ∧ Code128.encode .debug x = .ok ms ∧ ms.length = 57 :=
  ⟨_, _, rfl, rfl, by decide⟩

/-! ### The publicly constructible variants -/

/-- Neither an error nor, therefore, anything but a value or a panic. -/
def Infallible {α : Type} (o : Outcome α) : Prop := ∀ e, o ≠ .err e

theorem isPanic_bind_ok {α β : Type} (o : Outcome α) (f : α → β) (h : Infallible o) :
    Infallible (o >>= fun a => .ok (f a)) ∧ (o >>= fun a => Outcome.ok (f a)).isPanic = o.isPanic := by
  cases o with
  | ok a => exact ⟨by nofun, rfl⟩
  | err e => exact absurd rfl (h e)
  | panic p => exact ⟨by nofun, rfl⟩

theorem idx_infallible {α : Type} (l : List α) (i : Nat) : Infallible (idx l i) := by
  intro e h
  unfold idx at h
  split at h <;> cases h

theorem idx_isPanic {α : Type} (l : List α) (i : Nat) : (idx l i).isPanic = decide (l.length ≤ i) := by
  by_cases h : i < l.length
  · rw [idx_ok l i h]; simp [Outcome.isPanic, h]
  · rw [idx_panic l i (by omega)]; simp [Outcome.isPanic]; omega

theorem mapO_isPanic {α β : Type} (f : α → Outcome β) (l : List α) (h : ∀ a ∈ l, Infallible (f a)) :
    Infallible (mapO f l) ∧ (mapO f l).isPanic = l.any (fun a => (f a).isPanic) := by
  induction l with
  | nil => exact ⟨by nofun, rfl⟩
  | cons a l ih =>
    obtain ⟨h1, h2⟩ := ih (fun x hx => h x (by simp [hx]))
    have ha := h a (by simp)
    rw [mapO, List.any_cons]
    cases hfa : f a with
    | ok b =>
      have := isPanic_bind_ok (mapO f l) (fun bs => b :: bs) h1
      rw [Outcome.ok_bind]
      exact ⟨this.1, by rw [this.2, h2]; rfl⟩
    | err e => exact absurd hfa (ha e)
    | panic p => exact ⟨by nofun, rfl⟩

theorem foldO_isPanic {α : Type} (f : α → Outcome (List Nat)) (l : List α) (i : List Nat) (h : ∀ a ∈ l, Infallible (f a)) :
    Infallible (foldO (fun enc a => f a >>= fun e => .ok (enc ++ e)) i l) ∧
    (foldO (fun enc a => f a >>= fun e => Outcome.ok (enc ++ e)) i l).isPanic = l.any (fun a => (f a).isPanic) := by
  induction l generalizing i with
  | nil => exact ⟨by nofun, rfl⟩
  | cons a l ih =>
    have ha := h a (by simp)
    rw [foldO, List.any_cons]
    cases hfa : f a with
    | ok b =>
      have := ih (i ++ b) (fun x hx => h x (by simp [hx]))
      rw [Outcome.ok_bind, Outcome.ok_bind]
      exact ⟨this.1, by rw [this.2]; rfl⟩
    | err e => exact absurd hfa (ha e)
    | panic p => exact ⟨by nofun, rfl⟩

theorem tf_charEncoding_panic (d : Nat) :
    Infallible (TF.charEncoding d) ∧ (TF.charEncoding d).isPanic = decide (10 ≤ d) := by
  have := isPanic_bind_ok (TF.charWidths d)
    (fun ws => Helpers.joinIters (ws.map (fun c => match c with
    | 'W' => [1, 1, 1, 0]
    | _ => [1, 0]))) (idx_infallible _ _)
  refine ⟨this.1, this.2.trans ?_⟩
  rw [TF.charWidths, idx_isPanic]
  rfl

/-- C31. `TF::Standard(data).encode()` panics exactly when some value is not a decimal digit. -/
theorem C31_stf_variant_panics (ds : List Nat) :
    (TF.encode (.Standard ds)).isPanic = true ↔ ∃ d ∈ ds, 10 ≤ d := by
  have h := foldO_isPanic TF.charEncoding ds [] (fun d _ => (tf_charEncoding_panic d).1)
  have h2 := isPanic_bind_ok _ (fun p => Helpers.joinSlices [TF.STF_START, p, TF.STF_STOP]) h.1
  have : (TF.encode (.Standard ds)).isPanic = ds.any (fun d => decide (10 ≤ d)) := by
    refine h2.2.trans (h.2.trans ?_)
    congr 1
    funext d
    exact (tf_charEncoding_panic d).2
  rw [this]
  simp

example : (TF.encode (.Standard [1, 10])).isPanic = true ∧ (TF.encode (.Standard [1, 9])).isPanic = false := by decide

theorem interleave_panic (a b : Nat) :
    Infallible (TF.interleave a b) ∧ (TF.interleave a b).isPanic = (decide (10 ≤ a) || decide (10 ≤ b)) := by
  unfold TF.interleave
  have hl : TF.WIDTHS.length = 10 := rfl
  by_cases ha : a < 10
  · rw [idx_ok _ a (by omega), Outcome.ok_bind]
    have := isPanic_bind_ok (idx TF.WIDTHS b)
      (fun sw => (TF.WIDTHS[a].zip sw).foldl (fun encoding (b, s) => encoding ++ TF.element b 1 ++ TF.element s 0) [])
      (idx_infallible _ _)
    refine ⟨this.1, this.2.trans ?_⟩
    rw [idx_isPanic, hl]
    have : ¬ 10 ≤ a := by omega
    simp [this]
  · rw [idx_panic _ a (by omega)]
    refine ⟨by nofun, ?_⟩
    have : 10 ≤ a := by omega
    simp [Outcome.isPanic, this]

theorem itf_any (ds : List Nat) :
    ((TF.chunks2 ds).any (fun c => (do
      let c0 ← idx c 0
      let c1 ← idx c 1
      TF.interleave c0 c1 : Outcome (List Nat)).isPanic) = true ↔ ds.length % 2 = 1 ∨ ∃ d ∈ ds, 10 ≤ d) ∧
    (∀ c ∈ TF.chunks2 ds, Infallible (do
      let c0 ← idx c 0
      let c1 ← idx c 1
      TF.interleave c0 c1 : Outcome (List Nat))) := by
  induction ds using TF.chunks2.induct with
  | case1 => simp [TF.chunks2]
  | case2 a =>
    simp only [TF.chunks2, List.any_cons, List.any_nil, Bool.or_false]
    refine ⟨⟨fun _ => Or.inl rfl, fun _ => rfl⟩, ?_⟩
    intro c hc
    rw [List.mem_singleton] at hc
    subst hc
    intro e h
    cases h
  | case3 a b r ih =>
    have hi := interleave_panic a b
    simp only [TF.chunks2, List.any_cons]
    constructor
    · have e : (do
          let c0 ← idx [a, b] 0
          let c1 ← idx [a, b] 1
          TF.interleave c0 c1 : Outcome (List Nat)) = TF.interleave a b := rfl
      rw [e, hi.2, Bool.or_eq_true, ih.1]
      simp only [Bool.or_eq_true, decide_eq_true_eq, List.length_cons, List.mem_cons, exists_eq_or_imp]
      have hm : (r.length + 1 + 1) % 2 = 1 ↔ r.length % 2 = 1 := by omega
      rw [hm]
      constructor
      · rintro ((h | h) | h | h)
        · exact Or.inr (Or.inl h)
        · exact Or.inr (Or.inr (Or.inl h))
        · exact Or.inl h
        · exact Or.inr (Or.inr (Or.inr h))
      · rintro (h | h | h | h)
        · exact Or.inr (Or.inl h)
        · exact Or.inl (Or.inl h)
        · exact Or.inl (Or.inr h)
        · exact Or.inr (Or.inr h)
    · intro c hc
      rcases List.mem_cons.mp hc with rfl | hc
      · exact hi.1
      · exact ih.2 c hc

/-- C31. `TF::Interleaved(data).encode()` panics exactly when the number of values is odd or some value is not a decimal
digit. -/
theorem C31_itf_variant_panics (ds : List Nat) :
    (TF.encode (.Interleaved ds)).isPanic = true ↔ ds.length % 2 = 1 ∨ ∃ d ∈ ds, 10 ≤ d := by
  have hA := itf_any ds
  have h := mapO_isPanic _ (TF.chunks2 ds) hA.2
  have h2 := isPanic_bind_ok _ Helpers.joinIters h.1
  have h3 := isPanic_bind_ok _ (fun p => Helpers.joinSlices [TF.ITF_START, p, TF.ITF_STOP]) h2.1
  rw [← hA.1]
  exact Eq.to_iff (congrArg (· = true) (h3.2.trans (h2.2.trans h.2)))

example : (TF.encode (.Interleaved [1, 2, 3])).isPanic = true ∧ (TF.encode (.Interleaved [1, 2, 3, 11])).isPanic = true ∧
    (TF.encode (.Interleaved [1, 2, 3, 4])).isPanic = false := by decide

theorem supp_charEncoding_panic (s d : Nat) (hs : s < 2) :
    Infallible (EanSupp.charEncoding s d) ∧ (EanSupp.charEncoding s d).isPanic = decide (10 ≤ d) := by
  have hl : Ean13.ENCODINGS.length = 3 := rfl
  have h10 : ∀ t ∈ Ean13.ENCODINGS, t.length = 10 := by decide
  unfold EanSupp.charEncoding
  rw [idx_ok _ s (by omega), Outcome.ok_bind]
  refine ⟨idx_infallible _ _, ?_⟩
  rw [idx_isPanic, h10 _ (List.getElem_mem _)]

theorem supp_zip_any (ds ps : List Nat) (hp : ∀ s ∈ ps, s < 2) :
    (ds.zip ps).any (fun p => (EanSupp.charEncoding p.2 p.1).isPanic) = true ↔ ∃ d ∈ ds.take ps.length, 10 ≤ d := by
  induction ps generalizing ds with
  | nil => simp
  | cons s ps ih =>
    cases ds with
    | nil => simp
    | cons d ds =>
      have h1 := (supp_charEncoding_panic s d (hp s (by simp))).2
      rw [List.zip_cons_cons, List.any_cons, Bool.or_eq_true, ih ds (fun t ht => hp t (by simp [ht])), h1]
      simp

/-- Given the parity row, an add-on's `encode()` panics exactly when one of the encoded values is not a digit. -/
theorem supp_encode_panics (b : Build) (x : EanSupp.EANSUPP) (ps : List Nat) (hp : EanSupp.parity b x = .ok ps)
    (hl : ps.length = 5) (hps : ∀ s ∈ ps, s < 2) :
    (EanSupp.encode b x).isPanic = true ↔ ∃ d ∈ (EanSupp.rawData x).take 5, 10 ≤ d := by
  have hA := supp_zip_any (EanSupp.rawData x) ps hps
  have h := mapO_isPanic (fun (p : Nat × Nat) => EanSupp.charEncoding p.2 p.1) ((EanSupp.rawData x).zip ps)
    (fun p hm => (supp_charEncoding_panic p.2 p.1 (hps _ (List.of_mem_zip hm).2)).1)
  have h2 := isPanic_bind_ok _ (fun sl => (enumerate sl).foldl EanSupp.payloadStep []) h.1
  have h3 := isPanic_bind_ok _ (fun p => Helpers.joinSlices [EanSupp.LEFT_GUARD, p]) h2.1
  rw [hl] at hA
  rw [← hA]
  unfold EanSupp.encode EanSupp.payload
  rw [hp, Outcome.ok_bind]
  exact Eq.to_iff (congrArg (· = true) (h3.2.trans (h2.2.trans h.2)))

theorem supp_encode_parity_panic (b : Build) (x : EanSupp.EANSUPP) (p : Panic) (hp : EanSupp.parity b x = .panic p) :
    (EanSupp.encode b x).isPanic = true := by
  unfold EanSupp.encode EanSupp.payload
  rw [hp]
  rfl

/-- C31. `EANSUPP::EAN2(data).encode()` panics exactly when there are fewer than two values, or one of the first five is
not a decimal digit. -/
theorem C31_ean2_variant_panics (b : Build) (ds : List Nat) :
    (EanSupp.encode b (.EAN2 ds)).isPanic = true ↔ ds.length < 2 ∨ ∃ d ∈ ds.take 5, 10 ≤ d := by
  match ds with
  | [] => exact ⟨fun _ => Or.inl (by simp), fun _ => rfl⟩
  | [d] =>
    refine ⟨fun _ => Or.inl (by simp), fun _ => ?_⟩
    cases h : u8 b (d * 10) with
    | ok t => exact supp_encode_parity_panic b _ .bounds (by simp [EanSupp.parity, idx, h])
    | panic p => exact supp_encode_parity_panic b _ p (by simp [EanSupp.parity, idx, h])
    | err e => unfold u8 at h; split at h; cases h; cases b <;> cases h
  | d0 :: d1 :: r =>
    have hlen : ¬ (d0 :: d1 :: r).length < 2 := by simp
    by_cases hd : d0 * 10 < 256 ∧ d0 * 10 + d1 < 256 ∨ b = .release
    · have hv : ∃ v, EanSupp.parity b (.EAN2 (d0 :: d1 :: r)) = idx EanSupp.EAN2_PARITY (v % 4) := by
        rcases hd with ⟨h1, h2⟩ | rfl
        · exact ⟨d0 * 10 + d1, by simp [EanSupp.parity, idx, u8_ok b _ h1, u8_ok b _ h2]⟩
        · have hrel : ∀ n, ∃ m, u8 .release n = .ok m := by
            intro n; unfold u8; split
            · exact ⟨_, rfl⟩
            · exact ⟨_, rfl⟩
          obtain ⟨t, ht⟩ := hrel (d0 * 10)
          obtain ⟨v, hv⟩ := hrel (t + d1)
          exact ⟨v, by simp [EanSupp.parity, idx, ht, hv]⟩
      obtain ⟨v, hv⟩ := hv
      obtain ⟨ps, hi, hl, hps, -⟩ := ean2Parity_spec (v % 4) (by omega)
      rw [supp_encode_panics b _ ps (hv.trans hi) hl hps]
      simp only [EanSupp.rawData, hlen, false_or]
    · have hb : b = .debug := by
        cases b with
        | debug => rfl
        | release => exact absurd (Or.inr rfl) hd
      subst hb
      have hd : ¬ (d0 * 10 < 256 ∧ d0 * 10 + d1 < 256) := fun h => hd (Or.inl h)
      have hbig : 10 ≤ d0 ∨ 10 ≤ d1 := by omega
      have : (EanSupp.encode .debug (.EAN2 (d0 :: d1 :: r))).isPanic = true := by
        by_cases h1 : d0 * 10 < 256
        · have h2 : ¬ d0 * 10 + d1 < 256 := by omega
          exact supp_encode_parity_panic _ _ .overflow (by simp [EanSupp.parity, idx, u8, h1, h2])
        · exact supp_encode_parity_panic _ _ .overflow (by simp [EanSupp.parity, idx, u8, h1])
      simp only [this, true_iff]
      right
      rcases hbig with h | h
      · exact ⟨d0, by simp, h⟩
      · exact ⟨d1, by simp, h⟩

example : (EanSupp.encode .debug (.EAN2 [1])).isPanic = true ∧ (EanSupp.encode .debug (.EAN2 [1, 12])).isPanic = true ∧
    (EanSupp.encode .debug (.EAN2 [1, 2, 3])).isPanic = false := by decide

/-- Sum of the values at even positions (counted from zero) and at odd positions. -/
def altSums : List Nat → Nat × Nat
  | [] => (0, 0)
  | d :: ds => (d + (altSums ds).2, (altSums ds).1)

theorem supp_fold_debug (ds : List Nat) (k o e : Nat) (ho : o < 256) (he : e < 256) :
    foldO (EanSupp.checksumStep .debug) (o, e) (enumFrom k ds) =
      if o + (if k % 2 = 0 then (altSums ds).1 else (altSums ds).2) < 256 ∧
        e + (if k % 2 = 0 then (altSums ds).2 else (altSums ds).1) < 256 then
        .ok (o + (if k % 2 = 0 then (altSums ds).1 else (altSums ds).2),
          e + (if k % 2 = 0 then (altSums ds).2 else (altSums ds).1))
      else .panic .overflow := by
  induction ds generalizing k o e with
  | nil => simp [enumFrom, foldO, altSums, ho, he]
  | cons d ds ih =>
    rw [enumFrom, foldO, EanSupp.checksumStep]
    rcases Nat.mod_two_eq_zero_or_one k with hk | hk
    · have hk1 : (k + 1) % 2 = 1 := by omega
      simp only [hk, altSums, Nat.zero_ne_one, if_false, if_true]
      by_cases hd : o + d < 256
      · rw [u8_ok _ _ hd, Outcome.ok_bind, Outcome.ok_bind, ih (k + 1) _ _ hd he]
        simp only [hk1, Nat.one_ne_zero, if_false, Nat.add_assoc]
      · have : u8 .debug (o + d) = .panic .overflow := by simp [u8, hd]
        rw [this]
        rw [if_neg (by omega)]
        rfl
    · have hk1 : (k + 1) % 2 = 0 := by omega
      simp only [hk, altSums, if_true, Nat.one_ne_zero, if_false]
      by_cases hd : e + d < 256
      · rw [u8_ok _ _ hd, Outcome.ok_bind, Outcome.ok_bind, ih (k + 1) _ _ ho hd]
        simp only [hk1, if_true, Nat.add_assoc]
      · have : u8 .debug (e + d) = .panic .overflow := by simp [u8, hd]
        rw [this]
        rw [if_neg (by omega)]
        rfl

theorem foldO_ex {α β : Type} (f : β → α → Outcome β) (l : List α) (i : β) (h : ∀ b a, ∃ c, f b a = .ok c) :
    ∃ c, foldO f i l = .ok c := by
  induction l generalizing i with
  | nil => exact ⟨i, rfl⟩
  | cons a l ih =>
    obtain ⟨c, hc⟩ := h i a
    rw [foldO, hc, Outcome.ok_bind]
    exact ih c

theorem u8_release (n : Nat) : ∃ m, u8 .release n = .ok m := by
  unfold u8; split
  · exact ⟨_, rfl⟩
  · exact ⟨_, rfl⟩

/-- C31. `EANSUPP::EAN5(data).encode()` in a release build panics exactly when one of the first five values is not a
decimal digit. -/
theorem C31_ean5_variant_panics_release (ds : List Nat) :
    (EanSupp.encode .release (.EAN5 ds)).isPanic = true ↔ ∃ d ∈ ds.take 5, 10 ≤ d := by
  have hc : ∃ c < 10, EanSupp.checksumDigit .release (.EAN5 ds) = .ok c := by
    obtain ⟨⟨o, e⟩, hf⟩ := foldO_ex (EanSupp.checksumStep .release) (enumerate ds) (0, 0) (by
      rintro ⟨o, e⟩ ⟨i, d⟩
      unfold EanSupp.checksumStep
      obtain ⟨m, hm⟩ := u8_release (e + d)
      obtain ⟨m', hm'⟩ := u8_release (o + d)
      split
      · exact ⟨_, by simp only [hm]; rfl⟩
      · exact ⟨_, by simp only [hm']; rfl⟩)
    obtain ⟨o3, h3⟩ := u8_release (o * 3)
    obtain ⟨e9, h9⟩ := u8_release (e * 9)
    obtain ⟨s, hs⟩ := u8_release (o3 + e9)
    refine ⟨if s % 10 = 10 then 0 else s % 10, by split <;> omega, ?_⟩
    simp [EanSupp.checksumDigit, EanSupp.rawData, hf, h3, h9, hs]
  obtain ⟨c, hc, hd⟩ := hc
  obtain ⟨ps, hi, hl, hps, -⟩ := ean5Parity_spec c hc
  exact supp_encode_panics .release (.EAN5 ds) ps (by simp [EanSupp.parity, hd, hi]) hl hps

example : (EanSupp.encode .release (.EAN5 [1, 2, 3, 4, 10])).isPanic = true ∧
    (EanSupp.encode .release (.EAN5 [1, 2, 3, 4, 5, 10])).isPanic = false := by decide

/-- C31. `EANSUPP::EAN5(data).encode()` in a debug build panics exactly when one of the first five values is not a
decimal digit or the weighted sum of all values does not fit in a `u8`. -/
theorem C31_ean5_variant_panics_debug (ds : List Nat) :
    (EanSupp.encode .debug (.EAN5 ds)).isPanic = true ↔
      (∃ d ∈ ds.take 5, 10 ≤ d) ∨ 256 ≤ 3 * (altSums ds).1 + 9 * (altSums ds).2 := by
  have hf := supp_fold_debug ds 0 0 0 (by omega) (by omega)
  simp only [Nat.zero_add, Nat.zero_mod, if_true] at hf
  have hpanic : EanSupp.checksumDigit .debug (.EAN5 ds) = .panic .overflow →
      (EanSupp.encode .debug (.EAN5 ds)).isPanic = true := fun h =>
    supp_encode_parity_panic _ _ .overflow (by simp [EanSupp.parity, h])
  generalize (altSums ds).1 = o at *
  generalize (altSums ds).2 = e at *
  by_cases hs : 3 * o + 9 * e < 256
  · rw [if_pos (by omega)] at hf
    have hc : EanSupp.checksumDigit .debug (.EAN5 ds) = .ok (if (o * 3 + e * 9) % 10 = 10 then 0 else (o * 3 + e * 9) % 10) := by
      simp [EanSupp.checksumDigit, EanSupp.rawData, enumerate, hf, u8_ok .debug (o * 3) (by omega),
        u8_ok .debug (e * 9) (by omega), u8_ok .debug (o * 3 + e * 9) (by omega)]
    obtain ⟨ps, hi, hl, hps, -⟩ := ean5Parity_spec (if (o * 3 + e * 9) % 10 = 10 then 0 else (o * 3 + e * 9) % 10)
      (by split <;> omega)
    rw [supp_encode_panics .debug (.EAN5 ds) ps (by simp only [EanSupp.parity, hc, Outcome.ok_bind, hi]) hl hps]
    have : ¬ 256 ≤ 3 * o + 9 * e := by omega
    simp [this, EanSupp.rawData]
  · have : 256 ≤ 3 * o + 9 * e := by omega
    simp only [this, or_true, iff_true]
    apply hpanic
    unfold EanSupp.checksumDigit
    simp only [EanSupp.rawData, enumerate, hf]
    split
    · simp only [Outcome.ok_bind]
      by_cases h3 : o * 3 < 256
      · rw [u8_ok _ _ h3, Outcome.ok_bind]
        by_cases h9 : e * 9 < 256
        · rw [u8_ok _ _ h9, Outcome.ok_bind]
          have h : ¬ o * 3 + e * 9 < 256 := by omega
          simp [u8, h]
        · simp [u8, h9]
      · simp [u8, h3]
    · rfl

-- Constructed by hand, some values panic and some do not.
example : (TF.encode (.Standard [1, 2, 10])).isPanic = true ∧ (TF.encode (.Standard [1, 2, 9])).isPanic = false ∧
    (TF.encode (.Interleaved [1, 2, 3])).isPanic = true ∧ (TF.encode (.Interleaved [1, 2, 3, 4])).isPanic = false ∧
    (EanSupp.encode .debug (.EAN2 [1])).isPanic = true ∧ (EanSupp.encode .debug (.EAN2 [1, 2, 3])).isPanic = false ∧
    (EanSupp.encode .debug (.EAN5 [])).isPanic = false ∧
    (EanSupp.encode .debug (.EAN5 (List.replicate 50 9))).isPanic = true ∧
    (EanSupp.encode .release (.EAN5 (List.replicate 50 9))).isPanic = false := by decide

/-! ## C32: shape and length -/

/-- C32. EAN-13, EAN-8 and UPC-A symbols: 95, 67 and 95 modules of bars and spaces, between two bars. -/
theorem C32_ean_rows (b b' : Build) (s : List Char) (ms : List Nat) :
    (∀ x, Ean13.new b s = .ok x → Ean13.encode b' x = .ok ms → Row 95 1 4 ms) ∧
    (∀ x, Ean8.new b s = .ok x → Ean8.encode b' x = .ok ms → Row 67 1 4 ms) ∧
    (∀ x, Upca.new b s = .ok x → Upca.encode b' x = .ok ms → Row 95 1 4 ms) := by
  refine ⟨fun x h he => ?_, fun x h he => ?_, fun x h he => ?_⟩
  · obtain ⟨d0, ls, rs, h0, hls, hrs, ll, lr, -, he'⟩ := ean13_symbol b s x h
    rw [he'] at he
    cases he
    exact ean13_row d0 ls rs h0 hls hrs ll lr
  · obtain ⟨ls, rs, hls, hrs, ll, lr, -, he'⟩ := ean8_symbol b s x h
    rw [he'] at he
    cases he
    exact halvesA_row 67 ls rs hls hrs (by omega)
  · obtain ⟨ls, rs, hls, hrs, ll, lr, -, he'⟩ := upca_symbol b s x h
    rw [he'] at he
    cases he
    exact halvesA_row 95 ls rs hls hrs (by omega)

example : ∃ ms, (Ean8.new .debug "5512345".toList >>= Ean8.encode .debug) = .ok ms ∧ Row 67 1 4 ms :=
  ⟨_, rfl, ⟨by decide, by decide, by decide, by decide, by decide⟩⟩

/-- C32. Supplemental symbols: 20 modules for two digits, 47 for five. -/
theorem C32_supp_row (b : Build) (s : List Char) (x : EanSupp.EANSUPP) (ms : List Nat) (h : EanSupp.new s = .ok x)
    (he : EanSupp.encode b x = .ok ms) : Row (if s.length = 2 then 20 else 47) 1 4 ms := by
  obtain ⟨ws, he', hl, hd, -, -, h25⟩ := supp_symbol s x h
  rw [he'] at he
  cases he
  have := suppWidths_row ws hd (by intro h0; rw [h0] at hl; simp at hl; omega)
  have hn : 9 * ws.length + 2 = if s.length = 2 then 20 else 47 := by split <;> omega
  rwa [hn] at this

example : ∃ x ms, EanSupp.new "51499".toList = .ok x ∧ EanSupp.encode .debug x = .ok ms ∧ ms.length = 47 ∧ ms.head? = some 1 ∧
    ms.getLast? = some 1 := ⟨_, _, rfl, rfl, by decide⟩

/-- C32. Code 39 symbols: 13 modules per character, including the check character, and 25 for the guards. -/
theorem C32_code39_row (s : List Char) (x : Code39.Code39) (ms : List Nat) (he : Code39.encode x = .ok ms) :
    (Code39.new s = .ok x → Row (13 * s.length + 25) 1 2 ms) ∧
    (Code39.withChecksum s = .ok x → Row (13 * (s.length + 1) + 25) 1 2 ms) := by
  constructor <;> intro h
  · obtain ⟨hA, he'⟩ := code39_symbol s false x h
    rw [he'] at he
    cases he
    exact code39_row _ hA
  · obtain ⟨hA, he'⟩ := code39_symbol s true x h
    rw [he'] at he
    cases he
    have := code39_row _ hA
    simp only [if_true, List.length_append, List.length_singleton] at this
    exact this

example : ∃ ms, (Code39.withChecksum "A1".toList >>= Code39.encode) = .ok ms ∧ Row 64 1 2 ms := ⟨_, rfl, ⟨by decide, by decide, by decide, by decide, by decide⟩⟩

/-- C32. Code 93 symbols: 9 modules per data character and 37 for guards, check characters and termination. -/
theorem C32_code93_row (s : List Char) (x : Code93.Code93) (ms : List Nat) (h : Code93.new s = .ok x)
    (he : Code93.encode x = .ok ms) : Row (9 * s.length + 37) 1 4 ms := by
  obtain ⟨hA, he'⟩ := code93_symbol s x h
  rw [he'] at he
  cases he
  have := code93_row _ hA
  rw [code93Text_length] at this
  have hn : 9 * (s.length + 2) + 19 = 9 * s.length + 37 := by omega
  rwa [hn] at this

example : ∃ x ms, Code93.new "A1".toList = .ok x ∧ Code93.encode x = .ok ms ∧ ms.length = 55 ∧ ms.getLast? = some 1 :=
  ⟨_, _, rfl, rfl, by decide⟩

/-- C32. Code 11 symbols: the symbol spells `t`, the data with its check characters; it has 8 modules per character and 15
for the guards, less one for each `0`, `9` or `-`. -/
theorem C32_code11_row (s : List Char) (x : Code11.Code11) (ms : List Nat) (h : Code11.new s = .ok x)
    (he : Code11.encode x = .ok ms) :
    ∃ t, readCode11 ms = some t ∧ t.length = s.length + (if s.length > 10 then 2 else 1) ∧
      Row (8 * t.length + 15 - t.countP (fun c => c = '0' ∨ c = '9' ∨ c = '-')) 1 2 ms := by
  obtain ⟨hA, he'⟩ := code11_symbol s x h
  rw [he'] at he
  cases he
  refine ⟨code11Text s, readCode11_paint _ hA, ?_, code11_row _ hA⟩
  unfold code11Text
  split <;> simp

example : ∃ x ms, Code11.new "10".toList = .ok x ∧ Code11.encode x = .ok ms ∧ readCode11 ms = some "102".toList ∧
    ms.length = 8 * 3 + 15 - 1 := ⟨_, _, rfl, rfl, by decide, by decide⟩

/-- C32. Codabar symbols: 10 modules per character less the last gap, one more for each of `:/.ABCD` and three more for
each `+`. -/
theorem C32_codabar_row (s : List Char) (x : Codabar.Codabar) (h : Codabar.new s = .ok x) :
    Row (10 * s.length - 1 + s.countP (fun c => c ∈ ":/.ABCD".toList) + 3 * s.count '+') 1 2 (Codabar.encode x) := by
  obtain ⟨cs, c, rfl, hA, he⟩ := codabar_symbol s x h
  rw [he]
  have hsum : ∀ t : List Char, (t.map codabarExtra).sum = t.countP (fun c => c ∈ ":/.ABCD".toList) + 3 * t.count '+' := by
    intro t
    induction t with
    | nil => rfl
    | cons c t ih =>
      rw [List.map_cons, List.sum_cons, ih, List.countP_cons, List.count_cons]
      unfold codabarExtra
      by_cases h1 : c ∈ ":/.ABCD".toList
      · have h2 : c ≠ '+' := by rintro rfl; revert h1; decide
        simp [h2]; omega
      · by_cases h2 : c = '+'
        · subst h2; simp; omega
        · simp only [h1, h2, if_false, decide_false, beq_iff_eq]
          simp
  have := codabar_row cs c hA
  rw [hsum] at this
  rw [Nat.add_assoc]
  exact this

example : ∃ x, Codabar.new "A+1".toList = .ok x ∧ Row 33 1 2 (Codabar.encode x) := ⟨_, rfl, ⟨by decide, by decide, by decide, by decide, by decide⟩⟩

/-- C32. Standard 2 of 5 symbols: 14 modules per digit and 16 for the guards; the last module is a space. -/
theorem C32_stf_row (s : List Char) (x : TF.TF) (ms : List Nat) (h : TF.standard s = .ok x) (he : TF.encode x = .ok ms) :
    Row (14 * s.length + 16) 0 3 ms := by
  obtain ⟨hD, he'⟩ := stf_symbol s x h
  rw [he'] at he
  cases he
  have := stf_row _ (digits_lt s hD)
  rwa [show (digitsOf s).length = s.length by simp [digitsOf]] at this

example : ∃ x ms, TF.standard "12".toList = .ok x ∧ TF.encode x = .ok ms ∧ ms.length = 44 ∧ ms.getLast? = some 0 :=
  ⟨_, _, rfl, rfl, by decide⟩

/-- C32. Interleaved 2 of 5 symbols: 9 modules per digit, including the check digit of odd-length data, and 8 for the
guards. -/
theorem C32_itf_row (b : Build) (s : List Char) (x : TF.TF) (ms : List Nat) (h : TF.interleaved b s = .ok x)
    (he : TF.encode x = .ok ms) : Row (9 * (s.length + s.length % 2) + 8) 1 3 ms := by
  obtain ⟨ds, hd, hev, hl, -, -, he'⟩ := itf_symbol b s x h
  rw [he'] at he
  cases he
  have := itf_row ds hd hev
  rwa [hl] at this

example : ∃ ms, (TF.interleaved .debug "123".toList >>= TF.encode) = .ok ms ∧ Row 44 1 3 ms := ⟨_, rfl, ⟨by decide, by decide, by decide, by decide, by decide⟩⟩

theorem setCDigits_cons (set : CodeSet) (c : Char) (s : List Char) :
    setCDigits set (c :: s) = match setOf c with
      | some set' => setCDigits set' s
      | none => if c.isDigit ∧ set = .C then 1 + setCDigits set s else setCDigits set s := by
  rw [setCDigits, setOf]
  by_cases h1 : c = 'À'
  · simp [h1]
  by_cases h2 : c = 'Ɓ'
  · simp [h2]
  by_cases h3 : c = 'Ć'
  · simp [h3]
  simp only [h1, h2, h3, if_false]
  simp only [and_comm]

theorem run128_count (s : List Char) (set : CodeSet) (p : Option Char) (vs : List Nat) (h : run128 set p s = some vs) :
    2 * vs.length + setCDigits set s = 2 * s.length + p.toList.length := by
  induction s generalizing set p vs with
  | nil => cases p <;> simp [run128] at h; simp [h, setCDigits]
  | cons c s ih =>
    rw [setCDigits_cons]
    rw [run128_cons] at h
    cases hs : setOf c with
    | some set' =>
      rw [hs] at h
      cases p with
      | some d => cases h
      | none =>
        simp only [Option.bind_eq_some_iff, Option.map_eq_some_iff] at h
        obtain ⟨v, _, ws, hw, rfl⟩ := h
        have := ih _ _ _ hw
        simp only [List.length_cons, Option.toList_none, List.length_nil] at this ⊢
        omega
    | none =>
      rw [hs] at h
      simp only [] at h ⊢
      split at h
      · rename_i hd
        rw [if_pos hd]
        cases p with
        | none =>
          have := ih _ _ _ h
          rw [hd.2]
          simp at this ⊢
          omega
        | some d =>
          simp only [Option.bind_eq_some_iff, Option.map_eq_some_iff] at h
          obtain ⟨v, _, ws, hw, rfl⟩ := h
          have := ih _ _ _ hw
          rw [hd.2]
          simp at this ⊢
          omega
      · rename_i hd
        rw [if_neg hd]
        simp only [Option.bind_eq_some_iff, Option.map_eq_some_iff] at h
        obtain ⟨v, _, ws, hw, rfl⟩ := h
        have := ih _ _ _ hw
        simp at this ⊢
        omega

/-- C32. Code 128 symbols, whenever encoding succeeds: 11 modules for each symbol character (start, data and check) and 13
for the stop pattern. The `n` symbols without the check symbol are one for each character, but one for two digits in set C. -/
theorem C32_code128_row (b : Build) (s : List Char) (x : Code128.Code128) (ms : List Nat) (h : Code128.new s = .ok x)
    (he : Code128.encode b x = .ok ms) :
    ∃ n vs, 2 * n + setCDigits .A s = 2 * s.length ∧ readCode128 ms = some vs ∧ vs.length = n + 1 ∧
      Row (11 * n + 24) 1 4 ms := by
  have hw := (C27_code128_new s).2.1.mp ⟨x, h⟩
  obtain ⟨set, r, vs, us, hsr, hr, hp, hi⟩ := code128_parse_ok s hw
  have hx : x.units = us := by
    have hb := wf_byteLen _ hw
    unfold Code128.new at h
    rw [strLen_eq_byteLen, if_neg (by omega), hp] at h
    simp only [Outcome.ok_bind, Outcome.ok.injEq] at h
    rw [← h]
  have hlen : ∀ set data c, x.units.map Code128.Unit.index = CodeSet.start set :: data →
      (∀ v ∈ set.start :: data ++ [c], v < 106) →
      ms = paint (code128Widths (set.start :: data ++ [c])) →
      ∃ n vs, 2 * n + setCDigits .A s = 2 * s.length ∧ readCode128 ms = some vs ∧ vs.length = n + 1 ∧
        Row (11 * n + 24) 1 4 ms := by
    intro set' data c hu hv hms
    have hd : data.length = vs.length := by
      have := congrArg List.length (hu.symm.trans (by rw [hx, hi]))
      simpa using this
    have hc := run128_count r set none vs hr
    refine ⟨vs.length + 1, set'.start :: data ++ [c], ?_, ?_, ?_, ?_⟩
    · rw [hsr, setCDigits_cons, (setOf_iff _ _).mpr rfl]
      simp at hc ⊢
      omega
    · rw [hms, readCode128_paint _ hv]
    · simp [hd]
    · have := code128_row _ hv
      rw [← hms] at this
      simp only [List.length_append, List.length_cons, List.length_nil, hd] at this
      rw [show 11 * (vs.length + 1) + 24 = 11 * (vs.length + 1 + (0 + 1)) + 13 by omega]
      exact this
  obtain ⟨set', data, c, -, -, h2, h3, h1⟩ := code128_symbol_full b s x ms h he
  exact hlen set' data c h1 h2 h3

-- eight characters, four of them digits in set C: six symbols
example : setCDigits .A "ÀHIĆ3456".toList = 4 := by decide
example : (Code128.new "ÀHIĆ3456".toList >>= Code128.encode .debug).isOk = true := by decide +kernel

-- Non-trivial instances: the lengths are reached.
example : (Ean13.new .debug "750103131130".toList >>= Ean13.encode .debug).isOk = true ∧
    (Code39.withChecksum "AB".toList >>= Code39.encode) matches .ok _ := by decide

/-- Length of the encoding, zero if there is none. -/
def encodingLength (o : Outcome (List Nat)) : Nat :=
  match o with
  | .ok ms => ms.length
  | _ => 0

example : encodingLength (Ean13.new .debug "750103131130".toList >>= Ean13.encode .debug) = 95 := by decide
example : encodingLength (EanSupp.new "51234".toList >>= EanSupp.encode .debug) = 47 := by decide
example : encodingLength (Code39.withChecksum "AB".toList >>= Code39.encode) = 13 * 3 + 25 := by decide
example : encodingLength (Code11.new "10-9".toList >>= Code11.encode) = 8 * 5 + 15 - 4 := by decide
example : encodingLength (Codabar.new "A1:+B".toList >>= fun x => .ok (Codabar.encode x)) = 10 * 5 - 1 + 3 + 3 := by decide
example : encodingLength (TF.standard "123".toList >>= TF.encode) = 14 * 3 + 16 := by decide
example : encodingLength (TF.interleaved .debug "123".toList >>= TF.encode) = 9 * 4 + 8 := by decide
example : encodingLength (Code128.new "Ɓab".toList >>= Code128.encode .debug) = 11 * 4 + 13 := by decide

/-! ## C48: element widths -/

/-- C48. No bar or space is wider than the symbology allows. -/
theorem C48_widest (b b' : Build) (s : List Char) :
    (∀ x ms, Ean13.new b s = .ok x → Ean13.encode b' x = .ok ms → ∀ r ∈ runs ms, r.2 ≤ 4) ∧
    (∀ x ms, Ean8.new b s = .ok x → Ean8.encode b' x = .ok ms → ∀ r ∈ runs ms, r.2 ≤ 4) ∧
    (∀ x ms, Upca.new b s = .ok x → Upca.encode b' x = .ok ms → ∀ r ∈ runs ms, r.2 ≤ 4) ∧
    (∀ x ms, EanSupp.new s = .ok x → EanSupp.encode b' x = .ok ms → ∀ r ∈ runs ms, r.2 ≤ 4) ∧
    (∀ x ms, Code39.new s = .ok x → Code39.encode x = .ok ms → ∀ r ∈ runs ms, r.2 ≤ 2) ∧
    (∀ x ms, Code39.withChecksum s = .ok x → Code39.encode x = .ok ms → ∀ r ∈ runs ms, r.2 ≤ 2) ∧
    (∀ x ms, Code93.new s = .ok x → Code93.encode x = .ok ms → ∀ r ∈ runs ms, r.2 ≤ 4) ∧
    (∀ x ms, Code11.new s = .ok x → Code11.encode x = .ok ms → ∀ r ∈ runs ms, r.2 ≤ 2) ∧
    (∀ x, Codabar.new s = .ok x → ∀ r ∈ runs (Codabar.encode x), r.2 ≤ 2) ∧
    (∀ x ms, TF.standard s = .ok x → TF.encode x = .ok ms → ∀ r ∈ runs ms, r.2 ≤ 3) ∧
    (∀ x ms, TF.interleaved b s = .ok x → TF.encode x = .ok ms → ∀ r ∈ runs ms, r.2 ≤ 3) ∧
    (∀ x ms, Code128.new s = .ok x → Code128.encode b' x = .ok ms → ∀ r ∈ runs ms, r.2 ≤ 4) := by
  refine ⟨fun x ms h he => ((C32_ean_rows b b' s ms).1 x h he).widest,
    fun x ms h he => ((C32_ean_rows b b' s ms).2.1 x h he).widest,
    fun x ms h he => ((C32_ean_rows b b' s ms).2.2 x h he).widest,
    fun x ms h he => (C32_supp_row b' s x ms h he).widest,
    fun x ms h he => ((C32_code39_row s x ms he).1 h).widest,
    fun x ms h he => ((C32_code39_row s x ms he).2 h).widest,
    fun x ms h he => (C32_code93_row s x ms h he).widest,
    fun x ms h he => ?_,
    fun x h => (C32_codabar_row s x h).widest,
    fun x ms h he => (C32_stf_row s x ms h he).widest,
    fun x ms h he => (C32_itf_row b s x ms h he).widest,
    fun x ms h he => ?_⟩
  · obtain ⟨t, -, -, hr⟩ := C32_code11_row s x ms h he
    exact hr.widest
  · obtain ⟨n, t, -, -, -, hr⟩ := C32_code128_row b' s x ms h he
    exact hr.widest

-- The bounds are reached.
example : ∃ ms, (Ean13.new .debug "300000000000".toList >>= Ean13.encode .debug) = .ok ms ∧ (0, 3) ∈ runs ms :=
  ⟨_, rfl, by decide⟩
example : ∃ ms, (Code93.new "H".toList >>= Code93.encode) = .ok ms ∧ (1, 4) ∈ runs ms := ⟨_, rfl, by decide⟩
example : ∃ ms, (TF.standard "1".toList >>= TF.encode) = .ok ms ∧ (1, 3) ∈ runs ms := ⟨_, rfl, by decide⟩

end Barcoders
