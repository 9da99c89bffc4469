import Verif.Spec.Misjudged
import Verif.Props.OneModuleTF

/-!
# C84: one element of the wrong width

A scanner measures bars and spaces. If it misjudges one of them, or one has been printed too wide or too narrow by any amount, it
does not read something else. In most symbologies this is because the number of bars determines the total width.
-/

set_option autoImplicit false

namespace Barcoders
open Spec

theorem sum_set_ne (es : List Nat) (i w : Nat) (hi : i < es.length) (hw : es[i]? ≠ some w) : (es.set i w).sum ≠ es.sum := by
  have h1 : es = es.take i ++ es[i] :: es.drop (i + 1) := by simp
  have h2 : es.set i w = es.take i ++ w :: es.drop (i + 1) := List.set_eq_take_append_cons_drop.trans (if_pos hi)
  rw [h2, h1]
  rw [List.getElem?_eq_getElem hi] at hw
  simp only [List.sum_append, List.sum_cons]
  intro h
  apply hw
  have : w = es[i] := by
    have h3 : (es.take i ++ es[i] :: es.drop (i + 1)).take i = es.take i := by rw [← h1]
    have h4 : (es.take i ++ es[i] :: es.drop (i + 1)).drop (i + 1) = es.drop (i + 1) := by rw [← h1]
    rw [h3, h4] at h
    omega
  rw [this]

/-- A scanner whose symbols have a width that depends only on the number of their elements. -/
def Rigid {α : Type} (scan : List Nat → Option α) : Prop :=
  ∀ ms ms' es es' t t', scan ms = some t → scan ms' = some t' → elements ms = some es → elements ms' = some es' →
    es.length = es'.length → es.sum = es'.sum

theorem Rigid.misjudged {α : Type} {scan : List Nat → Option α} (h : Rigid scan) (ms ms' : List Nat) (t : α)
    (hs : scan ms = some t) (i w : Nat) (hm : Misjudged i w ms ms') : scan ms' = none := by
  obtain ⟨es, h1, h2, h3, h4⟩ := hm
  cases h' : scan ms' with
  | none => rfl
  | some t' => exact absurd (h ms ms' es _ t t' hs h' h1 h4 (by simp)).symm (sum_set_ne es i w h2 h3)

theorem groups_sum (k : Nat) (ws : List (List Nat)) (h : ∀ w ∈ ws, w.sum = k) : ws.flatten.sum = k * ws.length := by
  induction ws with
  | nil => rfl
  | cons w ws ih =>
    rw [List.flatten_cons, List.sum_append, ih (fun v hv => h v (by simp [hv])), h w (by simp), List.length_cons, Nat.mul_succ]
    omega

/-- Groups of equal size and equal width. -/
theorem rigid_groups {α : Type} (k m : Nat) (hk : 0 < k) (f : List Nat → Option α) (hf : ∀ w x, f w = some x → w.sum = m)
    (body body' : List Nat) (l l' : List α) (h : readAll k f body = some l) (h' : readAll k f body' = some l')
    (hl : body.length = body'.length) : body.sum = body'.sum := by
  obtain ⟨ws, rfl, a2, a3⟩ := readAll_groups k hk f body l h
  obtain ⟨ws', rfl, b2, b3⟩ := readAll_groups k hk f body' l' h'
  rw [groups_length k ws a2, groups_length k ws' b2] at hl
  have sum : ∀ (ws : List (List Nat)) (l : List α), ws.map f = l.map some → ∀ w ∈ ws, w.sum = m := by
    intro ws l hm w hw
    obtain ⟨x, hx⟩ := (reads_of f ws l hm).1 w hw
    exact hf w x hx
  rw [groups_sum m ws (sum ws l a3), groups_sum m ws' (sum ws' l' b3), Nat.eq_of_mul_eq_mul_left hk hl]

/-! ## The rigid symbologies -/

theorem code39_chart_sum : ∀ p ∈ code39Chart, p.2.sum = 12 := by decide +kernel

theorem code39_rigid : Rigid scanCode39 := by
  intro ms ms' es es' t t' h h' he he' hl
  obtain ⟨es, a1, a2, -⟩ := scanCode39_inv ms t h
  obtain ⟨es', b1, b2, -⟩ := scanCode39_inv _ t' h'
  rw [he, Option.some.injEq] at a1
  rw [he', Option.some.injEq] at b1
  subst a1 b1
  have := rigid_groups 10 13 (by omega) readCode39Char (fun w x hw => by
    obtain ⟨p, hp, -, rfl⟩ := gap_read _ 9 readCode39Char (fun _ => rfl) w x hw
    rw [List.sum_append, code39_chart_sum p hp]; rfl) _ _ _ _ a2 b2 (by simpa using hl)
  simpa using this

theorem code93_rigid : Rigid scanCode93 := by
  intro ms ms' es es' t t' h h' he he' hl
  obtain ⟨es, a1, a2, -⟩ := scanCode93_inv ms t h
  obtain ⟨es', b1, b2, -⟩ := scanCode93_inv _ t' h'
  rw [he, Option.some.injEq] at a1
  rw [he', Option.some.injEq] at b1
  subst a1 b1
  have := rigid_groups 6 9 (by omega) readCode93Char code93_read_sum _ _ _ _ a2 b2 (by simpa using hl)
  simpa using this

theorem code128_rigid : Rigid scanCode128 := by
  intro ms ms' es es' t t' h h' he he' hl
  obtain ⟨es, _, _, _, a1, a2, -⟩ := scanCode128_inv ms t h
  obtain ⟨es', _, _, _, b1, b2, -⟩ := scanCode128_inv _ t' h'
  rw [he, Option.some.injEq] at a1
  rw [he', Option.some.injEq] at b1
  subst a1 b1
  have := rigid_groups 6 11 (by omega) code128Chart.idxOf? (fun w x hw => (code128_chart_firm w (idxOf_mem _ w x hw)).1)
    _ _ _ _ a2 b2 (by simpa using hl)
  simpa using this

theorem sevens (ws : List (List Nat)) (h : ∀ w ∈ ws, ∃ p, readAB w = some p) : ws.flatten.sum = 7 * ws.length :=
  groups_sum 7 ws (fun w hw => by
    obtain ⟨p, hp⟩ := h w hw
    exact (piece_length w p hp).2)

theorem halves_sum (n : Nat) (L R : List (List Nat)) (hL : ∀ w ∈ L, ∃ p, readAB w = some p) (hR : ∀ w ∈ R, ∃ p, readAB w = some p)
    (lL : L.length = n) (lR : R.length = n) :
    ([1, 1, 1] ++ (L.flatten ++ ([1, 1, 1, 1, 1] ++ (R.flatten ++ [1, 1, 1])))).sum = 11 + 14 * n := by
  simp only [List.sum_append, sevens L hL, sevens R hR, lL, lR]
  simp
  omega

theorem halves_rigid (n : Nat) : Rigid (fun ms => (elements ms).bind (readHalves n)) := by
  have key : ∀ ms es t, (elements ms).bind (readHalves n) = some t → elements ms = some es → es.sum = 11 + 14 * n := by
    intro ms es t h he
    rw [he, Option.bind_some] at h
    obtain ⟨l, r, e1, e2, e3, -, -⟩ := readHalves_inv n es t h
    obtain ⟨L, rfl, k2, k3, k4⟩ := readN_inv _ _ _ _ _ _ e2
    obtain ⟨R, rfl, q2, q3, q4⟩ := readN_inv _ _ _ _ _ _ e3
    rw [e1, halves_sum n L R (countP_A L _ k3).2 (countP_A R _ q3).2 ((reads_of _ L _ k3).2.trans k4)
      ((reads_of _ R _ q3).2.trans q4)]
  intro ms ms' es es' t t' h h' he he' _
  rw [key ms es t h he, key ms' es' t' h' he']

theorem ean13_rigid : Rigid scanEan13 := by
  have key : ∀ ms es t, scanEan13 ms = some t → elements ms = some es → es.sum = 95 := by
    intro ms es t h he
    unfold scanEan13 at h
    rw [he, Option.bind_some] at h
    obtain ⟨l, r, ps, e1, e2, e3, e4, -⟩ := readEan13_inv es t h
    obtain ⟨L, rfl, k2, k3, k4⟩ := readN_inv _ _ _ _ _ _ e2
    obtain ⟨R, rfl, q2, q3, q4⟩ := readN_inv _ _ _ _ _ _ e3
    rw [e1, halves_sum 6 L R (reads_of _ L _ k3).1 (countP_A R _ q3).2 ((reads_of _ L _ k3).2.trans k4)
      ((reads_of _ R _ q3).2.trans q4)]
  intro ms ms' es es' t t' h h' he he' _
  rw [key ms es t h he, key ms' es' t' h' he']

theorem addOn_sum (w : List Nat) (ws : List (List Nat)) (h : ∀ v ∈ w :: ws, ∃ p, readAB v = some p) :
    (addOnPieces w ws).flatten.sum = 11 + 9 * ws.length := by
  have h1 : ∀ ws : List (List Nat), (∀ v ∈ ws, v.sum = 7) →
      (ws.flatMap (fun v => [[1, 1], v])).flatten.sum = 9 * ws.length := by
    intro ws
    induction ws with
    | nil => intro _; rfl
    | cons v ws ih =>
      intro hf
      rw [List.flatMap_cons, List.flatten_append, List.sum_append, ih (fun x hx => hf x (by simp [hx])), List.length_cons]
      simp [hf v (by simp)]; omega
  have seven : ∀ v ∈ w :: ws, v.sum = 7 := by
    intro v hv
    obtain ⟨p, hp⟩ := h v hv
    exact (piece_length v p hp).2
  rw [addOnPieces, List.flatten_cons, List.flatten_cons, List.sum_append, List.sum_append,
    h1 ws (fun v hv => seven v (by simp [hv])), seven w (by simp)]
  simp
  omega

theorem addOn_rigid : Rigid scanAddOn := by
  intro ms ms' es es' t t' h h' he he' hl
  unfold scanAddOn at h h'
  rw [he, Option.bind_some] at h
  rw [he', Option.bind_some] at h'
  obtain ⟨w, ws, ps, rfl, e2, -, -⟩ := addOn_inv es _ h
  obtain ⟨w', ws', ps', rfl, e2', -, -⟩ := addOn_inv es' _ h'
  have p1 := (reads_of _ _ _ e2).1
  have p1' := (reads_of _ _ _ e2').1
  rw [(addOn_shape w ws p1).2, (addOn_shape w' ws' p1').2] at hl
  rw [addOn_sum w ws p1, addOn_sum w' ws' p1']
  omega

/-- C84. An EAN-13 symbol with one element of the wrong width is not read. -/
theorem C84_ean13 (b : Build) (s : List Char) (x : Ean13.EAN13) (hx : Ean13.new b s = .ok x) (ms : List Nat)
    (he : Ean13.encode b x = .ok ms) (i w : Nat) (ms' : List Nat) (hm : Misjudged i w ms ms') : scanEan13 ms' = none := by
  obtain ⟨ms'', h1, h2⟩ := C02_ean13_scan b s x hx
  rw [he, Outcome.ok.injEq] at h1
  subst h1
  exact ean13_rigid.misjudged ms ms' _ h2 i w hm

example : ∃ x ms es, Ean13.new .debug "750103131130".toList = .ok x ∧ Ean13.encode .debug x = .ok ms ∧
    elements ms = some es ∧ es[8]? = some 1 ∧ scanEan13 (paint es) ≠ none ∧ scanEan13 (paint (es.set 8 3)) = none :=
  ⟨_, _, _, rfl, rfl, rfl, by decide +kernel, by decide +kernel, by decide +kernel⟩

/-- C84. An EAN-8 symbol with one element of the wrong width is not read. -/
theorem C84_ean8 (b : Build) (s : List Char) (x : Ean8.EAN8) (hx : Ean8.new b s = .ok x) (ms : List Nat)
    (he : Ean8.encode b x = .ok ms) (i w : Nat) (ms' : List Nat) (hm : Misjudged i w ms ms') : scanEan8 ms' = none := by
  obtain ⟨ms'', h1, h2⟩ := C07_ean8_scan b s x hx
  rw [he, Outcome.ok.injEq] at h1
  subst h1
  exact (halves_rigid 4).misjudged ms ms' _ h2 i w hm

example : ∃ x ms es, Ean8.new .debug "5512345".toList = .ok x ∧ Ean8.encode .debug x = .ok ms ∧
    elements ms = some es ∧ es[3]? = some 1 ∧ scanEan8 (paint es) ≠ none ∧ scanEan8 (paint (es.set 3 2)) = none :=
  ⟨_, _, _, rfl, rfl, rfl, by decide +kernel, by decide +kernel, by decide +kernel⟩

/-- C84. A UPC-A symbol with one element of the wrong width is not read. -/
theorem C84_upca (b : Build) (s : List Char) (x : Upca.UPCA) (hx : Upca.new b s = .ok x) (ms : List Nat)
    (he : Upca.encode b x = .ok ms) (i w : Nat) (ms' : List Nat) (hm : Misjudged i w ms ms') : scanUpca ms' = none := by
  obtain ⟨ms'', h1, h2⟩ := C09_upca_scan b s x hx
  rw [he, Outcome.ok.injEq] at h1
  subst h1
  exact (halves_rigid 6).misjudged ms ms' _ h2 i w hm

example : ∃ x ms es, Upca.new .debug "01234567890".toList = .ok x ∧ Upca.encode .debug x = .ok ms ∧
    elements ms = some es ∧ scanUpca (paint es) ≠ none ∧ es[1]? = some 1 ∧ scanUpca (paint (es.set 1 2)) = none :=
  ⟨_, _, _, rfl, rfl, rfl, by decide +kernel, by decide +kernel, by decide +kernel⟩

/-- C84. An add-on of two or five digits with one element of the wrong width is not read. -/
theorem C84_eansupp (b : Build) (s : List Char) (x : EanSupp.EANSUPP) (hx : EanSupp.new s = .ok x)
    (ms : List Nat) (he : EanSupp.encode b x = .ok ms) (i w : Nat) (ms' : List Nat) (hm : Misjudged i w ms ms') :
    scanAddOn ms' = none := by
  obtain ⟨ms'', h1, h2⟩ := C12_eansupp_scan b s x hx
  rw [he, Outcome.ok.injEq] at h1
  subst h1
  exact addOn_rigid.misjudged ms ms' _ h2 i w hm

example : ∃ x ms es, EanSupp.new "51".toList = .ok x ∧ EanSupp.encode .debug x = .ok ms ∧ elements ms = some es ∧
    scanAddOn (paint es) = some [5, 1] ∧ es[3]? = some 1 ∧ scanAddOn (paint (es.set 3 2)) = none :=
  ⟨_, _, _, rfl, rfl, rfl, by decide +kernel, by decide +kernel, by decide +kernel⟩

/-- C84. A Code 39 symbol with one element of the wrong width is not read, with or without check character. -/
theorem C84_code39 (s : List Char) (x : Code39.Code39) (hx : Code39.new s = .ok x ∨ Code39.withChecksum s = .ok x)
    (ms : List Nat) (he : Code39.encode x = .ok ms) (i w : Nat) (ms' : List Nat) (hm : Misjudged i w ms ms') :
    scanCode39 ms' = none ∧ scanCode39Checked ms' = none := by
  have key : scanCode39 ms' = none := by
    rcases hx with hx | hx
    · obtain ⟨ms'', h1, h2⟩ := C14_code39_scan s x hx
      rw [he, Outcome.ok.injEq] at h1
      subst h1
      exact code39_rigid.misjudged ms ms' s h2 i w hm
    · obtain ⟨ms'', h1, h2, -⟩ := C14_code39_checksum_scan s x hx
      rw [he, Outcome.ok.injEq] at h1
      subst h1
      exact code39_rigid.misjudged ms ms' _ h2 i w hm
  exact ⟨key, by rw [scanCode39Checked, key]; rfl⟩

example : ∃ x ms es, Code39.new "A1".toList = .ok x ∧ Code39.encode x = .ok ms ∧ elements ms = some es ∧
    scanCode39 (paint es) = some "A1".toList ∧ es[10]? = some 2 ∧ scanCode39 (paint (es.set 10 1)) = none ∧
    scanCode39 (paint (es.set 10 3)) = none :=
  ⟨_, _, _, rfl, rfl, rfl, by decide +kernel, by decide +kernel, by decide +kernel⟩

/-- C84. A Code 93 symbol with one element of the wrong width is not read. -/
theorem C84_code93 (s : List Char) (x : Code93.Code93) (hx : Code93.new s = .ok x) (ms : List Nat)
    (he : Code93.encode x = .ok ms) (i w : Nat) (ms' : List Nat) (hm : Misjudged i w ms ms') : scanCode93 ms' = none := by
  obtain ⟨ms'', h1, h2⟩ := C17_code93_scan s x hx
  rw [he, Outcome.ok.injEq] at h1
  subst h1
  exact code93_rigid.misjudged ms ms' s h2 i w hm

example : ∃ x ms es, Code93.new "A1".toList = .ok x ∧ Code93.encode x = .ok ms ∧ elements ms = some es ∧
    scanCode93 (paint es) = some "A1".toList ∧ es[6]? = some 2 ∧ scanCode93 (paint (es.set 6 3)) = none :=
  ⟨_, _, _, rfl, rfl, rfl, by decide +kernel, by decide +kernel, by decide +kernel⟩

/-- C84. A Code 128 symbol with one element of the wrong width is not read. -/
theorem C84_code128 (b : Build) (s : List Char) (x : Code128.Code128) (hx : Code128.new s = .ok x) (hl : s.length ≤ 6489)
    (ms : List Nat) (he : Code128.encode b x = .ok ms) (i w : Nat) (ms' : List Nat) (hm : Misjudged i w ms ms') :
    scanCode128 ms' = none := by
  obtain ⟨ms'', h1, h2⟩ := C28_code128_scan_regrouped_partial b s x hx hl
  rw [he, Outcome.ok.injEq] at h1
  subst h1
  exact code128_rigid.misjudged ms ms' _ h2 i w hm

example : ∃ x ms es, Code128.new "ÀA1".toList = .ok x ∧ Code128.encode .debug x = .ok ms ∧ elements ms = some es ∧
    scanCode128 (paint es) = some "ÀA1".toList ∧ es[6]? = some 1 ∧ scanCode128 (paint (es.set 6 2)) = none :=
  ⟨_, _, _, rfl, rfl, rfl, by decide +kernel, by decide +kernel, by decide +kernel⟩

/-! ## Code 11 -/

/-- Changing one number changes one of the groups. -/
theorem groups_set (k : Nat) (ws ws' : List (List Nat)) (h : ∀ w ∈ ws, w.length = k) (h' : ∀ w ∈ ws', w.length = k)
    (i w : Nat) (hi : i < ws.flatten.length) (he : ws'.flatten = ws.flatten.set i w) :
    ∃ P b c Q, ws = P ++ b :: Q ∧ ws' = P ++ c :: Q ∧ ∃ j < k, c = b.set j w := by
  induction ws generalizing ws' i with
  | nil => simp at hi
  | cons b ws ih =>
    cases ws' with
    | nil =>
      have := congrArg List.length he
      simp only [List.flatten_nil, List.length_nil, List.length_set] at this
      omega
    | cons c ws' =>
      have hb := h b (by simp)
      have hc := h' c (by simp)
      rw [List.flatten_cons, List.flatten_cons, List.set_append] at he
      split at he
      · obtain ⟨e1, e2⟩ := List.append_inj he (by simp [hb, hc])
        next hlt =>
        refine ⟨[], b, c, ws, rfl, ?_, i, by omega, e1⟩
        have key : ∀ us vs : List (List Nat), (∀ w ∈ us, w.length = k) → (∀ w ∈ vs, w.length = k) → 0 < k →
            us.flatten = vs.flatten → us = vs := by
          intro us
          induction us with
          | nil =>
            intro vs _ hv hk e
            cases vs with
            | nil => rfl
            | cons v vs =>
              have := congrArg List.length e
              simp [hv v (by simp)] at this
              omega
          | cons u us ih =>
            intro vs hu hv hk e
            cases vs with
            | nil =>
              have := congrArg List.length e
              simp [hu u (by simp)] at this
              omega
            | cons v vs =>
              rw [List.flatten_cons, List.flatten_cons] at e
              obtain ⟨e1, e2⟩ := List.append_inj e (by rw [hu u (by simp), hv v (by simp)])
              rw [e1, ih vs (fun w hw => hu w (by simp [hw])) (fun w hw => hv w (by simp [hw])) hk e2]
        rw [key ws' ws (fun w hw => h' w (by simp [hw])) (fun w hw => h w (by simp [hw])) (by omega) e2]
        rfl
      · next hlt =>
        obtain ⟨e1, e2⟩ := List.append_inj he (by simp [hb, hc])
        subst e1
        obtain ⟨P, b', c', Q, e3, e4, e5⟩ := ih ws' (fun w hw => h w (by simp [hw])) (fun w hw => h' w (by simp [hw]))
          (i - c.length) (by rw [List.flatten_cons, List.length_append] at hi; omega) e2
        exact ⟨c :: P, b', c', Q, by rw [e3]; rfl, by rw [e4]; rfl, e5⟩

theorem code11_misjudged (ms ms' : List Nat) (t : List Char) (h : scanCode11 ms = some t) (i w : Nat)
    (hm : Misjudged i w ms ms') : scanCode11 ms' = none := by
  cases h' : scanCode11 ms' with
  | none => rfl
  | some t' =>
    obtain ⟨es₀, m1, m2, m3, m4⟩ := hm
    obtain ⟨es, a1, a2, -⟩ := scanCode11_inv ms t h
    obtain ⟨es', b1, b2, -⟩ := scanCode11_inv _ t' h'
    rw [code11Text_eq] at a2 b2
    rw [m1, Option.some.injEq] at a1
    rw [m4, Option.some.injEq] at b1
    subst a1 b1
    obtain ⟨ws, e1, w1, r1⟩ := readAll_groups 6 (by omega) _ _ _ a2
    obtain ⟨ws', e2, w2, r2⟩ := readAll_groups 6 (by omega) _ _ _ b2
    have hset : ws'.flatten = ws.flatten.set i w := by
      rw [← e1, ← e2, List.set_append, if_pos m2]
    obtain ⟨P, b, c, Q, rfl, rfl, -⟩ := groups_set 6 ws ws' w1 w2 i w (by rw [← e1, List.length_append]; omega) hset
    obtain ⟨u, x, y, v, h1, h2, h3, h4⟩ := one_reading readCode11Char P Q b c _ _ r1 r2
    have hxy : x ≠ y := by
      rintro rfl
      have := gap_eq _ code11_keys 5 readCode11Char (fun _ => rfl) b c x h3 h4
      subst this
      have h5 : es₀.set i w = es₀ := by
        have : es₀.set i w ++ [1] = es₀ ++ [1] := by rw [e2, e1]
        exact (List.append_inj' this rfl).1
      apply m3
      rw [← h5, List.getElem?_set_self m2]
    obtain ⟨u', v', h5, h6⟩ := framed_one_off _ _ u v x y h1 h2 hxy
    have hA' := code11_text_mem t' (scanCode11_chars _ t' h')
    exact absurd (code11_replace t t' u' v' x y (scanCode11_chars ms t h) h5 h6 (hA' y (by rw [h6]; simp))).symm hxy

/-- C84. A Code 11 symbol with one element of the wrong width is not read. Here it is the check characters that notice. -/
theorem C84_code11 (s : List Char) (x : Code11.Code11) (hx : Code11.new s = .ok x) (ms : List Nat)
    (he : Code11.encode x = .ok ms) (i w : Nat) (ms' : List Nat) (hm : Misjudged i w ms ms') : scanCode11 ms' = none := by
  obtain ⟨ms'', h1, h2⟩ := C20_code11_scan s x hx
  rw [he, Outcome.ok.injEq] at h1
  subst h1
  exact code11_misjudged ms ms' s h2 i w hm

example : ∃ x ms es, Code11.new "1-2".toList = .ok x ∧ Code11.encode x = .ok ms ∧ elements ms = some es ∧
    scanCode11 (paint es) = some "1-2".toList ∧ es[6]? = some 2 ∧ scanCode11 (paint (es.set 6 1)) = none :=
  ⟨_, _, _, rfl, rfl, rfl, by decide +kernel, by decide +kernel, by decide +kernel⟩

/-! ## Codabar -/

/-- One of the start and stop characters. -/
def isFrame (c : Char) : Bool := c ∈ ['A', 'B', 'C', 'D']

theorem framed_count (t : List Char) (h : CodabarFramed t) : t.countP isFrame = 2 := by
  obtain ⟨a, m, b, rfl, ha, hb, hm⟩ := h
  have h1 : m.countP isFrame = 0 := by
    rw [List.countP_eq_zero]
    intro c hc
    simpa [isFrame] using hm c hc
  have h2 : isFrame a = true := by simpa [isFrame] using ha
  have h3 : isFrame b = true := by simpa [isFrame] using hb
  simp [List.countP_append, h1, h2, h3]

theorem swapBC_frame (c : Char) : swapBC c ∈ ['A', 'B', 'C', 'D'] ↔ c ∈ ['A', 'B', 'C', 'D'] := by
  unfold swapBC
  split
  · next h => subst h; decide
  · split
    · next h => subst h; decide
    · rfl

theorem framed_swap (s : List Char) (h : CodabarFramed s) : CodabarFramed (s.map swapBC) := by
  obtain ⟨a, m, b, rfl, ha, hb, hm⟩ := h
  refine ⟨swapBC a, m.map swapBC, swapBC b, by simp, (swapBC_frame a).mpr ha, (swapBC_frame b).mpr hb, fun c hc => ?_⟩
  obtain ⟨d, hd, rfl⟩ := List.mem_map.mp hc
  exact fun h => hm d hd ((swapBC_frame d).mp h)

/-- Changing one element of a pattern of the chart gives none, or makes a start or stop character of a datum or the reverse. -/
def Framing (chart : List (Char × List Nat)) : Prop :=
  ∀ p ∈ chart, ∀ q ∈ chart, ∀ j < 8, (p.2 ++ [1]).eraseIdx j = (q.2 ++ [1]).eraseIdx j → p.2 = q.2 ∨ isFrame p.1 ≠ isFrame q.1

instance (chart : List (Char × List Nat)) : Decidable (Framing chart) := by unfold Framing; infer_instance

theorem codabar_framing : Framing codabarChart := by decide +kernel
theorem codabarOwn_framing : Framing (codabarAlphabet.zip (codabarOwnPatterns.map codabarWidths)) := by decide +kernel

theorem framing_misjudged (chart : List (Char × List Nat)) (hF : Framing chart) (f : List Nat → Option Char)
    (hf : ∀ w, f w = if w.drop 7 = [1] then (chart.find? (fun p => p.2 == w.take 7)).map Prod.fst else none)
    (es : List Nat) (i w : Nat) (hi : i < es.length) (hw : es[i]? ≠ some w) (t t' : List Char)
    (h : readAll 8 f (es ++ [1]) = some t) (h' : readAll 8 f (es.set i w ++ [1]) = some t') (hA : CodabarFramed t) :
    ¬ CodabarFramed t' := by
  intro hA'
  obtain ⟨ws, e1, w1, r1⟩ := readAll_groups 8 (by omega) _ _ _ h
  obtain ⟨ws', e2, w2, r2⟩ := readAll_groups 8 (by omega) _ _ _ h'
  have hset : ws'.flatten = ws.flatten.set i w := by
    rw [← e1, ← e2, List.set_append, if_pos hi]
  obtain ⟨P, b, c, Q, rfl, rfl, j, hj, hc⟩ := groups_set 8 ws ws' w1 w2 i w (by rw [← e1, List.length_append]; omega) hset
  obtain ⟨u, x, y, v, h1, h2, h3, h4⟩ := one_reading f P Q b c _ _ r1 r2
  have hbc : b ≠ c := by
    rintro rfl
    have h5 : es.set i w = es := by
      have : es.set i w ++ [1] = es ++ [1] := by rw [e2, e1]
      exact (List.append_inj' this rfl).1
    apply hw
    rw [← h5, List.getElem?_set_self hi]
  obtain ⟨p, hp, rfl, rfl⟩ := gap_read chart 7 f hf b x h3
  obtain ⟨q, hq, rfl, rfl⟩ := gap_read chart 7 f hf c y h4
  have h5 := framed_count t hA
  have h6 := framed_count t' hA'
  rcases hF p hp q hq j hj (by rw [hc, List.eraseIdx_set_eq]) with h7 | h7
  · exact hbc (by rw [h7])
  · rw [h1, List.countP_append, List.countP_cons] at h5
    rw [h2, List.countP_append, List.countP_cons] at h6
    revert h7 h5 h6
    cases isFrame p.1 <;> cases isFrame q.1 <;> simp <;> omega

/-- The library's pattern of `+`, as the standard sees it: unreadable, also with another width for one element. -/
theorem plus_misjudged : readCodabarChar (codabarWidths 0x1F ++ [1]) = none ∧
    ∀ p ∈ codabarChart, ∀ j < 8, (codabarWidths 0x1F ++ [1]).eraseIdx j ≠ (p.2 ++ [1]).eraseIdx j := by decide +kernel

theorem own_plus : ∀ p ∈ codabarAlphabet.zip (codabarOwnPatterns.map codabarWidths), p.1 = '+' → p.2 = codabarWidths 0x1F := by
  decide +kernel

/-- C84. Codabar has no check character, and one element of the wrong width can turn `A` into `4`. But it cannot turn a text with
proper start and stop characters into another one, whether read by the standard's table (with `B` and `C` exchanged, and only
without `+`, see C23) or by the library's own (see C54). -/
theorem C84_codabar (s : List Char) (x : Codabar.Codabar) (hx : Codabar.new s = .ok x) (hA : CodabarFramed s) (i w : Nat)
    (ms' : List Nat) (hm : Misjudged i w (Codabar.encode x) ms') (t : List Char) (ht : CodabarFramed t) :
    scanOwnCodabar ms' ≠ some t ∧ scanCodabar ms' ≠ some t := by
  obtain ⟨es₀, m1, m2, m3, m4⟩ := hm
  constructor
  · intro h'
    have h := C54_codabar_own_scan s x hx
    unfold scanOwnCodabar at h h'
    rw [m1] at h
    rw [m4] at h'
    exact framing_misjudged _ codabarOwn_framing readOwnCodabarChar (fun _ => rfl) es₀ i w m2 m3 _ _ h h' hA ht
  · intro h'
    by_cases hp : '+' ∈ s
    · have h := C54_codabar_own_scan s x hx
      unfold scanOwnCodabar at h
      unfold scanCodabar at h'
      rw [m1] at h
      rw [m4] at h'
      obtain ⟨ws, e1, w1, r1⟩ := readAll_groups 8 (by omega) _ _ _ h
      obtain ⟨ws', e2, w2, r2⟩ := readAll_groups 8 (by omega) _ _ _ h'
      have hset : ws'.flatten = ws.flatten.set i w := by
        rw [← e1, ← e2, List.set_append, if_pos m2]
      obtain ⟨P, b, c, Q, rfl, rfl, j, hj, hc⟩ := groups_set 8 ws ws' w1 w2 i w (by rw [← e1, List.length_append]; omega) hset
      have hg : ∃ g ∈ P ++ b :: Q, readOwnCodabarChar g = some '+' := by
        have : some '+' ∈ (P ++ b :: Q).map readOwnCodabarChar := by
          rw [r1]; exact List.mem_map_of_mem hp
        exact List.mem_map.mp this
      obtain ⟨g, hg, hr⟩ := hg
      obtain ⟨p, hp1, hp2, rfl⟩ := gap_read _ 7 readOwnCodabarChar (fun _ => rfl) g '+' hr
      have hq := own_plus p hp1 hp2
      have read : ∀ w ∈ P ++ c :: Q, ∃ y, readCodabarChar w = some y := by
        intro w hw
        have : readCodabarChar w ∈ t.map some := by rw [← r2]; exact List.mem_map_of_mem hw
        obtain ⟨y, -, hy⟩ := List.mem_map.mp this
        exact ⟨y, hy.symm⟩
      rw [hq] at hg
      have hcase : codabarWidths 0x1F ++ [1] ∈ P ++ c :: Q ∨ codabarWidths 0x1F ++ [1] = b := by
        rcases List.mem_append.mp hg with h1 | h1
        · exact Or.inl (List.mem_append_left _ h1)
        · rcases List.mem_cons.mp h1 with h1 | h1
          · exact Or.inr h1
          · exact Or.inl (List.mem_append_right _ (List.mem_cons_of_mem _ h1))
      rcases hcase with h1 | h1
      · obtain ⟨y, hy⟩ := read _ h1
        rw [plus_misjudged.1] at hy
        cases hy
      · obtain ⟨y, hy⟩ := read c (List.mem_append_right _ List.mem_cons_self)
        obtain ⟨q, hq1, -, rfl⟩ := gap_read codabarChart 7 readCodabarChar (fun _ => rfl) c y hy
        exact plus_misjudged.2 q hq1 j hj (by rw [hc, h1, List.eraseIdx_set_eq])
    · have h := C23_codabar_scan_partial s x hx hp
      unfold scanCodabar at h h'
      rw [m1] at h
      rw [m4] at h'
      exact framing_misjudged _ codabar_framing readCodabarChar (fun _ => rfl) es₀ i w m2 m3 _ _ h h' (framed_swap s hA) ht

example : ∃ x es, Codabar.new "A12B".toList = .ok x ∧ elements (Codabar.encode x) = some es ∧
    scanOwnCodabar (Codabar.encode x) = some "A12B".toList ∧ scanOwnCodabar (paint (es.set 9 2)) = none :=
  ⟨_, _, rfl, rfl, by decide +kernel, by decide +kernel⟩

/-! ## Two of five -/

/-- With the number of wide elements unchanged, no element has changed from narrow to wide or back. -/
theorem classes_set (es : List Nat) (i w : Nat) (hi : i < es.length)
    (hc : (es.map classify).count 2 = ((es.set i w).map classify).count 2) : (es.set i w).map classify = es.map classify := by
  have h1 : es = es.take i ++ es[i] :: es.drop (i + 1) := by simp
  have h2 : es.set i w = es.take i ++ w :: es.drop (i + 1) := List.set_eq_take_append_cons_drop.trans (if_pos hi)
  generalize es[i] = v at h1
  generalize es.take i = p at h1 h2
  generalize es.drop (i + 1) = q at h1 h2
  rw [h2, h1] at hc
  rw [h2, h1]
  simp only [List.map_append, List.map_cons, List.count_append, List.count_cons, beq_iff_eq] at hc ⊢
  unfold classify at hc ⊢
  by_cases h5 : v ≤ 1 <;> by_cases h6 : w ≤ 1 <;> simp [h5, h6] at hc ⊢

/-- C84. An Interleaved 2 of 5 symbol with one element of the wrong width is not read, unless the element is as wide or as
narrow as before to a scanner that tells two widths apart; then the same number is read. -/
theorem C84_itf (b : Build) (s : List Char) (x : TF.TF) (hx : TF.interleaved b s = .ok x) (ms : List Nat)
    (he : TF.encode x = .ok ms) (i w : Nat) (ms' : List Nat) (hm : Misjudged i w ms ms') :
    scanItf ms' = none ∨ scanItf ms' = scanItf ms := by
  obtain ⟨ms'', ds, h1, h2, -⟩ := C25_itf_scan b s x hx
  rw [he, Outcome.ok.injEq] at h1
  subst h1
  obtain ⟨es₀, m1, m2, -, m4⟩ := hm
  cases h' : scanItf ms' with
  | none => exact Or.inl rfl
  | some ds' =>
    right
    obtain ⟨es, body, ps, a1, a2, a3, a4, -⟩ := scanItf_inv _ ds h2
    obtain ⟨es', body', ps', b1, b2, b3, b4, -⟩ := scanItf_inv _ ds' h'
    rw [m1, Option.some.injEq] at a1
    rw [m4, Option.some.injEq] at b1
    subst a1 b1
    obtain ⟨c1, c2⟩ := groups_count 10 4 _ itfPair_count (by omega) body ps a3
    obtain ⟨c1', c2'⟩ := groups_count 10 4 _ itfPair_count (by omega) body' ps' b3
    have l1 := congrArg List.length a2
    have l2 := congrArg List.length b2
    simp only [List.length_map, List.length_append, List.length_cons, List.length_nil, List.length_set] at l1 l2
    have hcls := classes_set es₀ i w m2 (by
      rw [a2, b2]
      simp only [List.count_append, c1, c1', show ps.length = ps'.length by omega])
    rw [a2, b2] at hcls
    have := List.append_cancel_left (List.append_cancel_right hcls)
    subst this
    rw [a3, Option.some.injEq] at b3
    rw [h2, a4, b4, b3]

example : ∃ x ms es, TF.interleaved .debug "1234".toList = .ok x ∧ TF.encode x = .ok ms ∧ elements ms = some es ∧
    es[5]? = some 1 ∧ scanItf ms = some [1, 2, 3, 4] ∧ scanItf (paint (es.set 5 3)) = none :=
  ⟨_, _, _, rfl, rfl, rfl, by decide +kernel, by decide +kernel, by decide +kernel⟩

/-- C84. The same for Standard 2 of 5. -/
theorem C84_stf (s : List Char) (x : TF.TF) (hx : TF.standard s = .ok x) (ms : List Nat)
    (he : TF.encode x = .ok ms) (i w : Nat) (ms' : List Nat) (hm : Misjudged i w ms ms') :
    scanStf ms' = none ∨ scanStf ms' = some (digitsOf s) := by
  obtain ⟨ms'', h1, h2⟩ := C24_stf_scan s x hx
  rw [he, Outcome.ok.injEq] at h1
  subst h1
  obtain ⟨es₀, m1, m2, -, m4⟩ := hm
  cases h' : scanStf ms' with
  | none => exact Or.inl rfl
  | some ds' =>
    right
    obtain ⟨es, body, a1, a2, a3⟩ := scanStf_inv _ _ h2
    obtain ⟨es', body', b1, b2, b3⟩ := scanStf_inv _ ds' h'
    rw [m1, Option.some.injEq] at a1
    rw [m4, Option.some.injEq] at b1
    subst a1 b1
    obtain ⟨c1, c2⟩ := groups_count 10 2 _ stfDigit_count (by omega) body _ a3
    obtain ⟨c1', c2'⟩ := groups_count 10 2 _ stfDigit_count (by omega) body' ds' b3
    rw [List.length_set] at b2
    have hcls : (if es₀.length % 2 = 0 then (es₀.set i w).dropLast else es₀.set i w).map classify =
        (if es₀.length % 2 = 0 then es₀.dropLast else es₀).map classify := by
      have l1 := congrArg List.length a2
      have l2 := congrArg List.length b2
      have hlen : (if es₀.length % 2 = 0 then (es₀.set i w).dropLast else es₀.set i w).length =
          (if es₀.length % 2 = 0 then es₀.dropLast else es₀).length := by split <;> simp
      simp only [List.length_map, hlen, List.length_append, List.length_cons, List.length_nil] at l1 l2
      have hd : (digitsOf s).length = ds'.length := by omega
      have hcount := congrArg (List.count 2) a2
      have hcount' := congrArg (List.count 2) b2
      simp only [List.count_append, c1, c1', hd] at hcount hcount'
      rw [← hcount'] at hcount
      clear l1 l2 hlen hcount' a2 b2
      split at hcount
      · next hev =>
        rw [if_pos hev, if_pos hev]
        rcases Nat.lt_or_ge i (es₀.length - 1) with hlt | hge
        · have hds : (es₀.set i w).dropLast = es₀.dropLast.set i w := by
            apply List.ext_getElem?
            intro j
            rw [List.getElem?_dropLast, List.getElem?_set, List.getElem?_set, List.getElem?_dropLast, List.length_set,
              List.length_dropLast]
            by_cases hj : i = j
            · subst hj; simp [hlt, m2]
            · simp [hj]
          rw [hds] at hcount ⊢
          exact classes_set _ i w (by simpa using hlt) hcount
        · have hds : (es₀.set i w).dropLast = es₀.dropLast := by
            apply List.ext_getElem?
            intro j
            rw [List.getElem?_dropLast, List.getElem?_set, List.getElem?_dropLast, List.length_set]
            by_cases hj : i = j
            · subst hj; rw [if_neg (by omega), if_neg (by omega)]
            · simp [hj]
          rw [hds]
      · next hev =>
        rw [if_neg hev, if_neg hev]
        exact classes_set _ i w m2 hcount
    rw [a2, b2] at hcls
    have := List.append_cancel_left (List.append_cancel_right hcls)
    subst this
    rw [a3, Option.some.injEq] at b3
    rw [b3]

/-! ## Examples -/

/-- The third element of the symbol, a bar of the guard, four modules wide: a case of the theorems. -/
example : ∃ x ms, Ean8.new .release "5512345".toList = .ok x ∧ Ean8.encode .release x = .ok ms ∧
    Misjudged 2 4 ms (ms.take 2 ++ [1, 1, 1, 1] ++ ms.drop 3) ∧
    scanEan8 ms = some [5, 5, 1, 2, 3, 4, 5, 7] ∧ scanEan8 (ms.take 2 ++ [1, 1, 1, 1] ++ ms.drop 3) = none :=
  ⟨_, _, rfl, rfl, ⟨_, rfl, by decide +kernel, by decide +kernel, by decide +kernel⟩, by decide +kernel, by decide +kernel⟩

/-- A wide bar made wider still does no harm in Interleaved 2 of 5; a narrow one made wide does. -/
example : ∃ x ms es, TF.interleaved .release "1234".toList = .ok x ∧ TF.encode x = .ok ms ∧ elements ms = some es ∧
    es[4]? = some 3 ∧ scanItf (paint (es.set 4 5)) = some [1, 2, 3, 4] ∧ scanItf (paint (es.set 6 3)) = none :=
  ⟨_, _, _, rfl, rfl, rfl, by decide +kernel, by decide +kernel, by decide +kernel⟩

/-- `A` becomes `4` with one space made narrow. -/
example : ∃ x es, Codabar.new "A12B".toList = .ok x ∧ elements (Codabar.encode x) = some es ∧
    scanOwnCodabar (Codabar.encode x) = some "A12B".toList ∧ scanOwnCodabar (paint (es.set 3 1)) = some "412B".toList :=
  ⟨_, _, rfl, rfl, by decide +kernel, by decide +kernel⟩

example : CodabarFramed "A12B".toList := ⟨'A', ['1', '2'], 'B', rfl, by decide, by decide, by decide⟩

end Barcoders
