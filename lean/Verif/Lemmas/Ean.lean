import Verif.Lemmas.Elements
import Verif.Lemmas.Mod10
import Verif.Spec.Ean
import Verif.Model.Ean13
import Verif.Model.Ean8
import Verif.Model.Upca
import Verif.Model.EanSupp

set_option autoImplicit false

namespace Barcoders
open Spec

/-- Widths of a digit in set A. -/
def wA (d : Nat) : List Nat := eanWidths.getD d []

/-- Widths of a digit in set A or B. -/
def wAB (p : Bool × Nat) : List Nat := if p.1 then (wA p.2).reverse else wA p.2

theorem wA_spec : ∀ d < 10, (wA d).length = 4 ∧ readA (wA d) = some d := by decide

theorem wAB_spec : ∀ d < 10, ∀ s, (wAB (s, d)).length = 4 ∧ readAB (wAB (s, d)) = some (s, d) := by decide

theorem wA_pos : ∀ d < 10, ∀ w ∈ wA d, 0 < w ∧ w ≤ 4 := by decide

theorem wAB_pos : ∀ d < 10, ∀ s, ∀ w ∈ wAB (s, d), 0 < w ∧ w ≤ 4 := by decide

theorem ean13_charEncoding_left : ∀ d < 10, ∀ s < 2,
    Ean13.charEncoding s d = .ok (paintFrom 0 (wAB (s == 1, d))) := by decide

theorem ean13_charEncoding_right : ∀ d < 10, Ean13.charEncoding 2 d = .ok (paintFrom 1 (wA d)) := by decide

theorem ean8_charEncoding_left : ∀ d < 10, Ean8.charEncoding 0 d = .ok (paintFrom 0 (wA d)) := by decide

theorem ean8_charEncoding_right : ∀ d < 10, Ean8.charEncoding 2 d = .ok (paintFrom 1 (wA d)) := by decide

theorem upca_charEncoding_left : ∀ d < 10, Upca.charEncoding 0 d = .ok (paintFrom 0 (wA d)) := by decide

theorem upca_charEncoding_right : ∀ d < 10, Upca.charEncoding 1 d = .ok (paintFrom 1 (wA d)) := by decide

theorem supp_charEncoding : ∀ d < 10, ∀ s < 2,
    EanSupp.charEncoding s d = .ok (paintFrom 0 (wAB (s == 1, d))) := by decide

/-- Sets of the left digits for a leading digit. -/
def setsOf (d : Nat) : List Bool := ean13Sets.getD d []

theorem parity_spec : ∀ d < 10,
    idx Ean13.PARITY d = .ok (Ean13.PARITY.getD d []) ∧ (Ean13.PARITY.getD d []).length = 5 ∧
      (∀ s ∈ Ean13.PARITY.getD d [], s < 2) ∧
      setsOf d = false :: (Ean13.PARITY.getD d []).map (· == 1) ∧
      ean13Sets.findIdx? (fun t => t == setsOf d) = some d ∧ (setsOf d).length = 6 := by decide

/-- Widths of a symbol with two halves. -/
def halvesWidths (left right : List Nat) : List Nat :=
  [1, 1, 1] ++ (left ++ ([1, 1, 1, 1, 1] ++ (right ++ [1, 1, 1])))

theorem paint_halves (left right : List Nat) (hl : left.length % 2 = 0) (hr : right.length % 2 = 0) :
    paint (halvesWidths left right) =
      [1, 0, 1] ++ paintFrom 0 left ++ [0, 1, 0, 1, 0] ++ paintFrom 1 right ++ [1, 0, 1] := by
  unfold paint halvesWidths
  rw [paintFrom_append_odd 1 (by omega) _ _ (by decide), paintFrom_append_even _ (by omega) _ _ hl,
    paintFrom_append_odd _ (by omega) _ _ (by decide), paintFrom_append_even _ (by omega) _ _ hr]
  simp [paintFrom, List.replicate]

theorem halves_ne_nil (left right : List Nat) : halvesWidths left right ≠ [] := by simp [halvesWidths]

theorem halves_pos (left right : List Nat) (hl : ∀ w ∈ left, 0 < w ∧ w ≤ 4) (hr : ∀ w ∈ right, 0 < w ∧ w ≤ 4) :
    ∀ w ∈ halvesWidths left right, 0 < w ∧ w ≤ 4 := by
  intro w hw
  simp only [halvesWidths, List.mem_append, List.mem_cons, List.not_mem_nil, or_false] at hw
  rcases hw with hw | hw | hw | hw | hw
  · omega
  · exact hl w hw
  · omega
  · exact hr w hw
  · omega

theorem flatMap_wA_pos (ds : List Nat) (h : Digits ds) : ∀ w ∈ ds.flatMap wA, 0 < w ∧ w ≤ 4 := by
  intro w hw
  simp only [List.mem_flatMap] at hw
  obtain ⟨d, hd, hw⟩ := hw
  exact wA_pos d (h d hd) w hw

theorem flatMap_wAB_pos (ps : List (Bool × Nat)) (h : ∀ p ∈ ps, p.2 < 10) : ∀ w ∈ ps.flatMap wAB, 0 < w ∧ w ≤ 4 := by
  intro w hw
  simp only [List.mem_flatMap] at hw
  obtain ⟨⟨s, d⟩, hd, hw⟩ := hw
  exact wAB_pos d (h _ hd) s w hw

theorem flatMap_length {α : Type} (k : Nat) (f : α → List Nat) (l : List α) (h : ∀ a ∈ l, (f a).length = k) :
    (l.flatMap f).length = k * l.length := by
  induction l with
  | nil => rfl
  | cons a l ih =>
    rw [List.flatMap_cons, List.length_append, h a (by simp), ih (fun x hx => h x (by simp [hx])), List.length_cons,
      Nat.mul_succ, Nat.add_comm]

/-- The element widths of an EAN-13 symbol for leading digit `d0`, six left digits and six right digits. -/
def ean13Widths (d0 : Nat) (ls rs : List Nat) : List Nat :=
  halvesWidths (((setsOf d0).zip ls).flatMap wAB) (rs.flatMap wA)

theorem zip_snd_lt (ss : List Bool) (ls : List Nat) (h : Digits ls) : ∀ p ∈ ss.zip ls, p.2 < 10 := by
  intro p hp
  exact h _ (List.of_mem_zip hp).2

theorem wAB_length_of (ps : List (Bool × Nat)) (h : ∀ p ∈ ps, p.2 < 10) : (ps.flatMap wAB).length = 4 * ps.length :=
  flatMap_length 4 wAB ps (fun p hp => (wAB_spec p.2 (h p hp) p.1).1)

theorem wA_length_of (ds : List Nat) (h : Digits ds) : (ds.flatMap wA).length = 4 * ds.length :=
  flatMap_length 4 wA ds (fun d hd => (wA_spec d (h d hd)).1)

theorem ean13Widths_pos (d0 : Nat) (ls rs : List Nat) (hls : Digits ls) (hrs : Digits rs) :
    ∀ w ∈ ean13Widths d0 ls rs, 0 < w ∧ w ≤ 4 :=
  halves_pos _ _ (flatMap_wAB_pos _ (zip_snd_lt _ _ hls)) (flatMap_wA_pos _ hrs)

theorem readEan13_widths (d0 : Nat) (ls rs : List Nat) (h0 : d0 < 10) (hls : Digits ls) (hrs : Digits rs)
    (ll : ls.length = 6) (lr : rs.length = 6) :
    readEan13 (ean13Widths d0 ls rs) =
      if Gs1Valid (d0 :: (ls ++ rs)) then some (d0 :: (ls ++ rs)) else none := by
  obtain ⟨-, -, -, -, hidx, hlen⟩ := parity_spec d0 h0
  have hz : ((setsOf d0).zip ls).length = 6 := by simp [hlen, ll]
  have h1 := readN_append 4 readAB wAB id ((setsOf d0).zip ls) ([1, 1, 1, 1, 1] ++ (rs.flatMap wA ++ [1, 1, 1]))
    (fun p hp => wAB_spec p.2 (zip_snd_lt _ _ hls p hp) p.1)
  have h2 := readN_append 4 readA wA id rs [1, 1, 1] (fun d hd => wA_spec d (hrs d hd))
  rw [hz, List.map_id] at h1
  rw [lr, List.map_id] at h2
  have e1 : expect [1, 1, 1] [1, 1, 1] = some [] := rfl
  have hfst : ((setsOf d0).zip ls).map Prod.fst = setsOf d0 := by
    rw [List.map_fst_zip]; omega
  have hsnd : ((setsOf d0).zip ls).map Prod.snd = ls := by
    rw [List.map_snd_zip]; omega
  unfold readEan13 ean13Widths halvesWidths
  simp only [expect_append, h1, h2, e1, hfst, hsnd, hidx, Option.bind_eq_bind, Option.bind_some, true_and]

theorem scanEan13_paint (d0 : Nat) (ls rs : List Nat) (h0 : d0 < 10) (hls : Digits ls) (hrs : Digits rs)
    (ll : ls.length = 6) (lr : rs.length = 6) (hv : Gs1Valid (d0 :: (ls ++ rs))) :
    scanEan13 (paint (ean13Widths d0 ls rs)) = some (d0 :: (ls ++ rs)) := by
  rw [scanEan13, elements_paint _ (fun w hw => (ean13Widths_pos d0 ls rs hls hrs w hw).1) (halves_ne_nil _ _),
    Option.bind_some, readEan13_widths d0 ls rs h0 hls hrs ll lr, if_pos hv]

theorem readHalves_widths (n : Nat) (ls rs : List Nat) (hls : Digits ls) (hrs : Digits rs)
    (ll : ls.length = n) (lr : rs.length = n) :
    readHalves n (halvesWidths (ls.flatMap wA) (rs.flatMap wA)) =
      if Gs1Valid (ls ++ rs) then some (ls ++ rs) else none := by
  have h1 := readN_append 4 readA wA id ls ([1, 1, 1, 1, 1] ++ (rs.flatMap wA ++ [1, 1, 1]))
    (fun d hd => wA_spec d (hls d hd))
  have h2 := readN_append 4 readA wA id rs [1, 1, 1] (fun d hd => wA_spec d (hrs d hd))
  rw [ll, List.map_id] at h1
  rw [lr, List.map_id] at h2
  have e1 : expect [1, 1, 1] [1, 1, 1] = some [] := rfl
  unfold readHalves halvesWidths
  simp only [expect_append, h1, h2, e1, Option.bind_eq_bind, Option.bind_some, true_and]

theorem elements_halves (ls rs : List Nat) (hls : Digits ls) (hrs : Digits rs) :
    elements (paint (halvesWidths (ls.flatMap wA) (rs.flatMap wA))) =
      some (halvesWidths (ls.flatMap wA) (rs.flatMap wA)) :=
  elements_paint _ (fun w hw => (halves_pos _ _ (flatMap_wA_pos _ hls) (flatMap_wA_pos _ hrs) w hw).1)
    (halves_ne_nil _ _)

theorem ean13_checksum (b : Build) (ds : List Nat) (hl : ds.length = 12) (hd : Digits ds) :
    Ean13.checksumDigit b ⟨ds⟩ = .ok (gs1Digit ds) := by
  have h := evenSum_le ds hd
  rw [hl] at h
  exact modulo10_true_gs1 b ds (by omega) (by omega)

theorem ean8_checksum (b : Build) (ds : List Nat) (hl : ds.length = 7) (hd : Digits ds) :
    Ean8.checksumDigit b ⟨ds⟩ = .ok (gs1Digit ds) := by
  have h := evenSum_le ds hd
  rw [hl] at h
  exact modulo10_false_gs1 b ds (by omega) (by omega)

theorem upca_checksum (b : Build) (ds : List Nat) (hl : ds.length = 11) (hd : Digits ds) :
    Upca.checksumDigit b ⟨ds⟩ = .ok (gs1Digit ds) := by
  have h := evenSum_le ds hd
  rw [hl] at h
  exact modulo10_false_gs1 b ds (by omega) (by omega)

theorem digits_take (ds : List Nat) (n : Nat) (h : Digits ds) : Digits (ds.take n) :=
  fun d hd => h d (List.mem_of_mem_take hd)

theorem digits_drop (ds : List Nat) (n : Nat) (h : Digits ds) : Digits (ds.drop n) :=
  fun d hd => h d (List.mem_of_mem_drop hd)

theorem digits_append {ds es : List Nat} (h : Digits ds) (h' : Digits es) : Digits (ds ++ es) := by
  intro d hd
  rcases List.mem_append.mp hd with hd | hd
  · exact h d hd
  · exact h' d hd

theorem digits_single {d : Nat} (h : d < 10) : Digits [d] := by
  intro x hx; rw [List.mem_singleton] at hx; omega

theorem slice_prefix {α : Type} (l m : List α) (n : Nat) (h : l.length = n) : slice (l ++ m) 0 n = .ok l := by
  subst h
  simp [slice]

theorem sliceFrom_suffix {α : Type} (l m : List α) (n : Nat) (h : l.length = n) : sliceFrom (l ++ m) n = .ok m := by
  subst h
  simp [sliceFrom]

theorem mapO_encode {α : Type} (f : α → Outcome (List Nat)) (c : Nat) (hc : c < 2) (w : α → List Nat) (l : List α)
    (h : ∀ a ∈ l, f a = .ok (paintFrom c (w a))) (he : ∀ a ∈ l, (w a).length % 2 = 0) :
    (mapO f l >>= fun slices => Outcome.ok (Helpers.joinIters slices)) = .ok (paintFrom c (l.flatMap w)) := by
  rw [mapO_ok f (fun a => paintFrom c (w a)) l h, Outcome.ok_bind, paintFrom_flatMap c hc w l he]
  simp [Helpers.joinIters, List.flatMap_map]

theorem wA_even (ds : List Nat) (h : Digits ds) : ∀ d ∈ ds, (wA d).length % 2 = 0 := by
  intro d hd; rw [(wA_spec d (h d hd)).1]

theorem wA_flat_even (ds : List Nat) (h : Digits ds) : (ds.flatMap wA).length % 2 = 0 := by
  rw [wA_length_of ds h]; omega

theorem digits_left {ds es : List Nat} (h : Digits (ds ++ es)) : Digits ds := fun d hd => h d (by simp [hd])
theorem digits_right {ds es : List Nat} (h : Digits (ds ++ es)) : Digits es := fun d hd => h d (by simp [hd])
theorem digits_tail {d : Nat} {ds : List Nat} (h : Digits (d :: ds)) : Digits ds := fun x hx => h x (by simp [hx])
theorem digits_head {d : Nat} {ds : List Nat} (h : Digits (d :: ds)) : d < 10 := h d (by simp)

theorem zip_swap_flatMap (ls ps : List Nat) :
    (ls.zip ps).flatMap (fun p => wAB (p.2 == 1, p.1)) = ((ps.map (· == 1)).zip ls).flatMap wAB := by
  induction ls generalizing ps with
  | nil => simp
  | cons l ls ih =>
    cases ps with
    | nil => simp
    | cons p ps => simp [ih]

/-- The modules of an EAN-13 symbol. -/
theorem ean13_encode_eq (b : Build) (d0 d1 : Nat) (ls rs : List Nat) (hll : ls.length = 5) (hlr : rs.length = 5)
    (hd : Digits (d0 :: d1 :: (ls ++ rs))) :
    Ean13.encode b ⟨d0 :: d1 :: (ls ++ rs)⟩ =
      .ok (paint (ean13Widths d0 (d1 :: ls) (rs ++ [gs1Digit (d0 :: d1 :: (ls ++ rs))]))) := by
  have hck := ean13_checksum b _ (by simp [hll, hlr]) hd
  generalize hgc : gs1Digit (d0 :: d1 :: (ls ++ rs)) = c at hck
  have hc : c < 10 := by rw [← hgc]; exact gs1Digit_lt _
  have h0 : d0 < 10 := digits_head hd
  have h1 : d1 < 10 := digits_head (digits_tail hd)
  have hl := digits_left (digits_tail (digits_tail hd))
  have hr := digits_right (digits_tail (digits_tail hd))
  obtain ⟨hp, hp5, hp2, hsets, -, -⟩ := parity_spec d0 h0
  have hrc : Digits (rs ++ [c]) := digits_append hr (digits_single hc)
  have hns : Ean13.numberSystemEncoding ⟨d0 :: d1 :: (ls ++ rs)⟩ = .ok (paintFrom 0 (wAB (false, d1))) :=
    ean13_charEncoding_left d1 h1 0 (by omega)
  have hlp : Ean13.leftPayload ⟨d0 :: d1 :: (ls ++ rs)⟩ =
      .ok (paintFrom 0 ((((Ean13.PARITY.getD d0 []).map (· == 1)).zip ls).flatMap wAB)) := by
    have e : Ean13.leftDigits ⟨d0 :: d1 :: (ls ++ rs)⟩ = .ok ls := by
      simp [Ean13.leftDigits, slice, hll, hlr]
    have e2 : Ean13.parityMapping ⟨d0 :: d1 :: (ls ++ rs)⟩ = .ok (Ean13.PARITY.getD d0 []) := hp
    unfold Ean13.leftPayload
    rw [e, e2, Outcome.ok_bind, Outcome.ok_bind,
      mapO_encode _ 0 (by omega) (fun p => wAB (p.2 == 1, p.1)), zip_swap_flatMap]
    · rintro ⟨d, s⟩ hds
      have := List.of_mem_zip hds
      exact ean13_charEncoding_left d (hl d this.1) s (hp2 s this.2)
    · rintro ⟨d, s⟩ hds
      rw [(wAB_spec d (hl d (List.of_mem_zip hds).1) _).1]
  have hrp : Ean13.rightPayload ⟨d0 :: d1 :: (ls ++ rs)⟩ = .ok (paintFrom 1 (rs.flatMap wA)) := by
    have e : Ean13.rightDigits ⟨d0 :: d1 :: (ls ++ rs)⟩ = .ok rs :=
      sliceFrom_suffix (d0 :: d1 :: ls) rs 7 (by simp [hll])
    unfold Ean13.rightPayload
    rw [e, Outcome.ok_bind, mapO_encode _ 1 (by omega) wA]
    · intro d h; exact ean13_charEncoding_right d (hr d h)
    · exact wA_even rs hr
  have hce : Ean13.checksumEncoding b ⟨d0 :: d1 :: (ls ++ rs)⟩ = .ok (paintFrom 1 (wA c)) := by
    unfold Ean13.checksumEncoding
    rw [hck, Outcome.ok_bind]
    exact ean13_charEncoding_right _ hc
  unfold Ean13.encode
  rw [hns, hlp, hrp, hce]
  simp only [Outcome.ok_bind]
  rw [ean13Widths, paint_halves]
  · rw [hsets, List.zip_cons_cons, List.flatMap_cons, paintFrom_append_even 0 (by omega) _ _
      (by rw [(wAB_spec d1 h1 false).1]),
      List.flatMap_append, paintFrom_append_even 1 (by omega) _ _ (wA_flat_even rs hr)]
    simp only [Helpers.joinSlices, Ean13.LEFT_GUARD, Ean13.MIDDLE_GUARD, Ean13.RIGHT_GUARD, List.flatMap_cons,
      List.flatMap_nil, id, List.append_assoc, List.append_nil]
  · have hl6 : Digits (d1 :: ls) := digits_append (digits_single h1) hl
    rw [wAB_length_of _ (zip_snd_lt _ _ hl6)]; omega
  · exact wA_flat_even _ hrc

/-- The modules of an EAN-8 symbol. -/
theorem ean8_encode_eq (b : Build) (ns ls rs : List Nat) (hln : ns.length = 2) (hll : ls.length = 2)
    (hlr : rs.length = 3) (hd : Digits (ns ++ (ls ++ rs))) :
    Ean8.encode b ⟨ns ++ (ls ++ rs)⟩ =
      .ok (paint (halvesWidths ((ns ++ ls).flatMap wA) ((rs ++ [gs1Digit (ns ++ (ls ++ rs))]).flatMap wA))) := by
  have hck := ean8_checksum b _ (by simp [hln, hll, hlr]) hd
  generalize hgc : gs1Digit (ns ++ (ls ++ rs)) = c at hck
  have hc : c < 10 := by rw [← hgc]; exact gs1Digit_lt _
  have hn := digits_left hd
  have hl := digits_left (digits_right hd)
  have hr := digits_right (digits_right hd)
  have e1 : Ean8.numberSystemDigits ⟨ns ++ (ls ++ rs)⟩ = .ok ns := slice_prefix ns _ 2 hln
  have e2 : Ean8.leftDigits ⟨ns ++ (ls ++ rs)⟩ = .ok ls := by
    simp [Ean8.leftDigits, slice, hln, hll, hlr]
  have e3 : Ean8.rightDigits ⟨ns ++ (ls ++ rs)⟩ = .ok rs := by
    unfold Ean8.rightDigits
    rw [← List.append_assoc]
    exact sliceFrom_suffix (ns ++ ls) rs 4 (by simp [hln, hll])
  have f1 : Ean8.numberSystemEncoding ⟨ns ++ (ls ++ rs)⟩ = .ok (paintFrom 0 (ns.flatMap wA)) := by
    unfold Ean8.numberSystemEncoding
    rw [e1, Outcome.ok_bind, foldO_ok _ (fun ns d => ns ++ paintFrom 0 (wA d)), foldl_append,
      paintFrom_flatMap 0 (by omega) wA _ (wA_even ns hn)]
    · rfl
    · intro d h b
      rw [ean8_charEncoding_left d (hn d h)]; rfl
  have f2 : Ean8.leftPayload ⟨ns ++ (ls ++ rs)⟩ = .ok (paintFrom 0 (ls.flatMap wA)) := by
    unfold Ean8.leftPayload
    rw [e2, Outcome.ok_bind, mapO_encode _ 0 (by omega) wA]
    · intro d h; exact ean8_charEncoding_left d (hl d h)
    · exact wA_even ls hl
  have f3 : Ean8.rightPayload ⟨ns ++ (ls ++ rs)⟩ = .ok (paintFrom 1 (rs.flatMap wA)) := by
    unfold Ean8.rightPayload
    rw [e3, Outcome.ok_bind, mapO_encode _ 1 (by omega) wA]
    · intro d h; exact ean8_charEncoding_right d (hr d h)
    · exact wA_even rs hr
  have f4 : Ean8.checksumEncoding b ⟨ns ++ (ls ++ rs)⟩ = .ok (paintFrom 1 (wA c)) := by
    unfold Ean8.checksumEncoding
    rw [hck, Outcome.ok_bind]
    exact ean8_charEncoding_right _ hc
  unfold Ean8.encode
  rw [f1, f2, f3, f4]
  simp only [Outcome.ok_bind]
  rw [paint_halves _ _ (wA_flat_even _ (digits_append hn hl))
    (wA_flat_even _ (digits_append hr (digits_single hc))), List.flatMap_append, List.flatMap_append,
    paintFrom_append_even 0 (by omega) _ _ (wA_flat_even ns hn),
    paintFrom_append_even 1 (by omega) _ _ (wA_flat_even rs hr)]
  simp only [Helpers.joinSlices, Ean13.LEFT_GUARD, Ean13.MIDDLE_GUARD, Ean13.RIGHT_GUARD, List.flatMap_cons,
    List.flatMap_nil, id, List.append_assoc, List.append_nil]

/-- The modules of a UPC-A symbol. -/
theorem upca_encode_eq (b : Build) (ls rs : List Nat) (hll : ls.length = 6) (hlr : rs.length = 5)
    (hd : Digits (ls ++ rs)) :
    Upca.encode b ⟨ls ++ rs⟩ =
      .ok (paint (halvesWidths (ls.flatMap wA) ((rs ++ [gs1Digit (ls ++ rs)]).flatMap wA))) := by
  have hck := upca_checksum b _ (by simp [hll, hlr]) hd
  generalize hgc : gs1Digit (ls ++ rs) = c at hck
  have hc : c < 10 := by rw [← hgc]; exact gs1Digit_lt _
  have hl := digits_left hd
  have hr := digits_right hd
  have e2 : Upca.leftDigits ⟨ls ++ rs⟩ = .ok ls := slice_prefix ls _ 6 hll
  have e3 : Upca.rightDigits ⟨ls ++ rs⟩ = .ok rs := sliceFrom_suffix ls rs 6 hll
  have f2 : Upca.leftPayload ⟨ls ++ rs⟩ = .ok (paintFrom 0 (ls.flatMap wA)) := by
    unfold Upca.leftPayload
    rw [e2, Outcome.ok_bind, mapO_encode _ 0 (by omega) wA]
    · intro d h; exact upca_charEncoding_left d (hl d h)
    · exact wA_even ls hl
  have f3 : Upca.rightPayload ⟨ls ++ rs⟩ = .ok (paintFrom 1 (rs.flatMap wA)) := by
    unfold Upca.rightPayload
    rw [e3, Outcome.ok_bind, mapO_encode _ 1 (by omega) wA]
    · intro d h; exact upca_charEncoding_right d (hr d h)
    · exact wA_even rs hr
  have f4 : Upca.checksumEncoding b ⟨ls ++ rs⟩ = .ok (paintFrom 1 (wA c)) := by
    unfold Upca.checksumEncoding
    rw [hck, Outcome.ok_bind]
    exact upca_charEncoding_right _ hc
  unfold Upca.encode
  rw [f2, f3, f4]
  simp only [Outcome.ok_bind]
  rw [paint_halves _ _ (wA_flat_even _ hl)
    (wA_flat_even _ (digits_append hr (digits_single hc))), List.flatMap_append,
    paintFrom_append_even 1 (by omega) _ _ (wA_flat_even rs hr)]
  simp only [Helpers.joinSlices, Upca.LEFT_GUARD, Upca.MIDDLE_GUARD, Upca.RIGHT_GUARD, List.flatMap_cons,
    List.flatMap_nil, id, List.append_assoc, List.append_nil]

end Barcoders
