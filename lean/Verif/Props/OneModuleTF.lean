import Verif.Props.OneModule

/-!
# C83 for the two-of-five codes

Their scanners accept other ratios of wide to narrow, so that a wide bar which has lost a module is still read; what is read is
then still the same number.
-/

set_option autoImplicit false

namespace Barcoders
open Spec

/-- Moving an edge without changing the number of wide elements changes nothing a scanner sees, or it makes an element of width
two narrow. -/
theorem nudged_classes (es es' : List Nat) (hp' : ∀ w ∈ es', 0 < w) (h : Nudged es es')
    (hc : (es.map classify).count 2 = (es'.map classify).count 2) :
    es.map classify = es'.map classify ∨ ∃ j : Nat, es[j]? = some 2 ∧ es'[j]? = some 1 := by
  obtain ⟨p, a, b, a', b', q, rfl, rfl, h3, h4⟩ := h
  have ha' := hp' a' (by simp)
  have hb' := hp' b' (by simp)
  simp only [List.map_append, List.map_cons, List.count_append, List.count_cons, beq_iff_eq] at hc
  by_cases h1 : a ≤ 1 ↔ a' ≤ 1
  · have e1 : classify a = classify a' := by unfold classify; simp only [h1]
    rw [e1] at hc
    have e2 : classify b = classify b' := by
      unfold classify at hc ⊢
      by_cases h5 : b ≤ 1 <;> by_cases h6 : b' ≤ 1 <;> simp [h5, h6] at hc ⊢
    exact Or.inl (by simp [e1, e2])
  · right
    by_cases h2 : a ≤ 1
    · have h5 : ¬ a' ≤ 1 := fun h => h1 ⟨fun _ => h, fun _ => h2⟩
      refine ⟨p.length + 1, ?_, ?_⟩
      · have hb : b = 2 := by
          unfold classify at hc
          rw [if_pos h2, if_neg h5] at hc
          by_cases h6 : b ≤ 1 <;> by_cases h7 : b' ≤ 1 <;> simp [h6, h7] at hc <;> omega
        rw [List.getElem?_append_right (by omega)]
        simp [hb]
      · have hb : b' = 1 := by
          unfold classify at hc
          rw [if_pos h2, if_neg h5] at hc
          by_cases h6 : b ≤ 1 <;> by_cases h7 : b' ≤ 1 <;> simp [h6, h7] at hc <;> omega
        rw [List.getElem?_append_right (by omega)]
        simp [hb]
    · have h5 : a' ≤ 1 := Nat.le_of_not_lt (fun h => h1 ⟨fun h' => absurd h' h2, fun h' => absurd h' (by omega)⟩)
      refine ⟨p.length, ?_, ?_⟩
      · rw [List.getElem?_append_right (by omega)]
        simp; omega
      · rw [List.getElem?_append_right (by omega)]
        simp; omega

/-- Elements of width two outside the data stay in place. -/
theorem frame_two (s e body body' : List Nat) (hl : body.length = body'.length) (h2 : 2 ∉ body) (j : Nat)
    (h : (s ++ body ++ e)[j]? = some 2) : (s ++ body' ++ e)[j]? = some 2 := by
  rcases Nat.lt_or_ge j s.length with h1 | h1
  · rw [List.append_assoc, List.getElem?_append_left h1] at h ⊢
    exact h
  · rcases Nat.lt_or_ge j (s ++ body).length with h3 | h3
    · rw [List.getElem?_append_left h3, List.getElem?_append_right h1] at h
      exact absurd (List.mem_of_getElem? h) h2
    · rw [List.getElem?_append_right h3] at h
      rw [List.getElem?_append_right (by simpa [← hl] using h3)]
      simpa [← hl] using h

theorem nudged_frame (s e body body' : List Nat) (es es' : List Nat) (hp' : ∀ w ∈ es', 0 < w) (h : Nudged es es')
    (he : es = s ++ body ++ e) (h2 : 2 ∉ body) (he' : es'.map classify = s ++ body' ++ e) (hl : body.length = body'.length)
    (hc : (es.map classify).count 2 = (es'.map classify).count 2) : es.map classify = es'.map classify := by
  rcases nudged_classes es es' hp' h hc with h | ⟨j, h3, h4⟩
  · exact h
  · rw [he] at h3
    have h5 := frame_two s e body body' hl h2 j h3
    rw [← he', List.getElem?_map, h4] at h5
    simp [classify] at h5

/-! ## Interleaved 2 of 5 -/

theorem count_everyOther (w : List Nat) (x : Nat) : w.count x = (everyOther w).count x + (everyOther w.tail).count x := by
  fun_induction everyOther w with
  | case1 => rfl
  | case2 a => simp [everyOther]
  | case3 a b r ih =>
    have : everyOther (b :: r) = b :: everyOther r.tail := by cases r <;> rfl
    rw [List.tail_cons, this, List.count_cons, List.count_cons, List.count_cons, List.count_cons, ih]
    omega

theorem twoOfFive_count (w : List Nat) (d : Nat) (h : twoOfFive w = some d) : w.count 2 = 2 := by
  unfold twoOfFive at h
  split at h
  · next hc => exact hc.2
  · cases h

theorem groups_count {α : Type} (k n : Nat) (f : List Nat → Option α) (hf : ∀ w x, f w = some x → w.count 2 = n)
    (hk : 0 < k) (body : List Nat) (l : List α) (h : readAll k f body = some l) :
    body.count 2 = n * l.length ∧ body.length = k * l.length := by
  obtain ⟨ws, rfl, h2, h3⟩ := readAll_groups k hk f body l h
  obtain ⟨h4, h5⟩ := reads_of f ws l h3
  rw [groups_length k ws h2, ← h5]
  refine ⟨?_, rfl⟩
  clear h h2 h3 h5
  induction ws with
  | nil => rfl
  | cons w ws ih =>
    obtain ⟨x, hx⟩ := h4 w (by simp)
    rw [List.flatten_cons, List.count_append, ih (fun v hv => h4 v (by simp [hv])), hf w x hx, List.length_cons, Nat.mul_succ]
    omega

theorem itfPair_count (w x : List Nat) (h : readItfPair w = some x) : w.count 2 = 4 := by
  unfold readItfPair at h
  simp only [Option.bind_eq_bind, Option.bind_eq_some_iff] at h
  obtain ⟨a, h1, b, h2, -⟩ := h
  rw [count_everyOther, twoOfFive_count _ _ h1, twoOfFive_count _ _ h2]

theorem wItf_no_two : ∀ a < 10, ∀ b < 10, 2 ∉ wItf (a, b) := by decide +kernel

theorem itf_speck (ds : List Nat) (hd : Digits ds) (he : ds.length % 2 = 0) (i : Nat)
    (hi : i < (paint (itfWidths ds)).length) (ds' : List Nat) (h' : scanItf (speck i (paint (itfWidths ds))) = some ds') :
    ds' = ds := by
  have h := scanItf_paint ds hd he
  obtain ⟨es, body, ps, a1, a2, a3, a4, -⟩ := scanItf_inv _ ds h
  obtain ⟨es', body', ps', b1, b2, b3, b4, -⟩ := scanItf_inv _ ds' h'
  have hn := one_off _ i hi es es' a1 b1
  have hpos := (elements_pos _ _ b1).1
  rw [elements_paint _ (fun w hw => (itf_pos ds hd w hw).1) (by simp [itfWidths]), Option.some.injEq] at a1
  obtain ⟨c1, c2⟩ := groups_count 10 4 _ itfPair_count (by omega) body ps a3
  obtain ⟨c1', c2'⟩ := groups_count 10 4 _ itfPair_count (by omega) body' ps' b3
  have l1 := congrArg List.length a2
  have l2 := congrArg List.length b2
  simp only [List.length_map, List.length_append, List.length_cons, List.length_nil] at l1 l2
  rcases hn with hn | hn
  · have hlen : es.length = es'.length := by
      obtain ⟨p, x, y, x', y', q, rfl, rfl, -⟩ := hn
      simp
    have hps : ps.length = ps'.length := by omega
    have hw : es = [1, 1, 1, 1] ++ (pairs ds).flatMap wItf ++ [2, 1, 1] := by rw [← a1, itfWidths]; simp
    have hbl : ((pairs ds).flatMap wItf).length = body'.length := by
      rw [hw] at hlen
      simp only [List.length_append, List.length_cons, List.length_nil] at hlen
      omega
    have hcls := nudged_frame [1, 1, 1, 1] [2, 1, 1] ((pairs ds).flatMap wItf) body' es es' hpos hn hw (by
      intro hm
      obtain ⟨p, hp, hm⟩ := List.mem_flatMap.mp hm
      have := pairs_lt ds hd p hp
      exact wItf_no_two p.1 this.1 p.2 this.2 hm) b2 hbl (by
      rw [a2, b2]
      simp only [List.count_append, c1, c1', hps])
    rw [a2, b2] at hcls
    have := List.append_cancel_left (List.append_cancel_right hcls)
    subst this
    rw [a3, Option.some.injEq] at b3
    rw [a4, b4, b3]
  · have := hn.near
    unfold NearLength at this
    omega

/-- C83. Changing one module of an Interleaved 2 of 5 symbol leaves nothing else to read than what was there. -/
theorem C83_itf (b : Build) (s : List Char) (x : TF.TF) (hx : TF.interleaved b s = .ok x) (ms : List Nat)
    (he : TF.encode x = .ok ms) (i : Nat) (hi : i < ms.length) :
    scanItf (speck i ms) = none ∨ scanItf (speck i ms) = scanItf ms := by
  obtain ⟨ds, h1, h2, -, -, -, h3⟩ := itf_symbol b s x hx
  rw [he, Outcome.ok.injEq] at h3
  subst h3
  cases h' : scanItf (speck i (paint (itfWidths ds))) with
  | none => exact Or.inl rfl
  | some ds' =>
    right
    rw [itf_speck ds h1 h2 i hi ds' h', scanItf_paint ds h1 h2]

example : ∃ x ms, TF.interleaved .debug "12".toList = .ok x ∧ TF.encode x = .ok ms ∧ scanItf ms = some [1, 2] ∧
    scanItf (speck 3 ms) = none := ⟨_, _, rfl, rfl, by decide, by decide⟩

/-! ## Standard 2 of 5 -/

theorem scanStf_inv (ms ds : List Nat) (h : scanStf ms = some ds) :
    ∃ es body, elements ms = some es ∧
      (if es.length % 2 = 0 then es.dropLast else es).map classify = [2, 1, 2, 1, 1, 1] ++ body ++ [2, 1, 1, 1, 2] ∧
      readAll 10 readStfDigit body = some ds := by
  unfold scanStf at h
  simp only [Option.bind_eq_bind, Option.bind_eq_some_iff] at h
  obtain ⟨es, h1, l, h2, body, h3, h4⟩ := h
  have a := expect_inv _ _ _ h2
  rw [expectEnd_inv _ _ _ h3, ← List.append_assoc] at a
  exact ⟨es, body, h1, a, h4⟩

theorem stfDigit_count (w : List Nat) (x : Nat) (h : readStfDigit w = some x) : w.count 2 = 2 := by
  unfold readStfDigit at h
  split at h
  · next e => rw [count_everyOther, twoOfFive_count _ _ h, e]; rfl
  · cases h

theorem wStf_no_two : ∀ d < 10, 2 ∉ wStf d := by decide +kernel

theorem stf_speck (ds : List Nat) (hd : Digits ds) (i : Nat) (hi : i < (paint (stfWidths ds)).length) (ds' : List Nat)
    (h' : scanStf (speck i (paint (stfWidths ds))) = some ds') : ds' = ds := by
  have h := scanStf_paint ds hd
  obtain ⟨es, body, a1, a2, a3⟩ := scanStf_inv _ ds h
  obtain ⟨es', body', b1, b2, b3⟩ := scanStf_inv _ ds' h'
  have hn := one_off _ i hi es es' a1 b1
  have hpos := (elements_pos _ _ b1).1
  rw [elements_paint _ (fun w hw => (stf_pos ds hd w hw).1) (by simp [stfWidths]), Option.some.injEq] at a1
  obtain ⟨c1, c2⟩ := groups_count 10 2 _ stfDigit_count (by omega) body ds a3
  obtain ⟨c1', c2'⟩ := groups_count 10 2 _ stfDigit_count (by omega) body' ds' b3
  have hw : es = ([2, 1, 2, 1, 1, 1] ++ ds.flatMap wStf ++ [2, 1, 1, 1, 2]) ++ [1] := by rw [← a1, stfWidths]; simp
  have hev : es.length % 2 = 0 := by rw [← a1]; exact stfWidths_even ds hd
  have hdrop : es.dropLast = [2, 1, 2, 1, 1, 1] ++ ds.flatMap wStf ++ [2, 1, 1, 1, 2] := by rw [hw, List.dropLast_concat]
  rw [if_pos hev] at a2
  have l1 := congrArg List.length a2
  have l2 := congrArg List.length b2
  simp only [List.length_map, List.length_append, List.length_cons, List.length_nil, List.length_dropLast] at l1 l2
  have done : es.dropLast.map classify = (if es'.length % 2 = 0 then es'.dropLast else es').map classify → ds' = ds := by
    intro hcls
    rw [a2, b2] at hcls
    have := List.append_cancel_left (List.append_cancel_right hcls)
    subst this
    rw [a3, Option.some.injEq] at b3
    exact b3.symm
  rcases hn with hn | hn
  · have hlen : es.length = es'.length := by
      obtain ⟨p, x, y, x', y', q, rfl, rfl, -⟩ := hn
      simp
    rw [if_pos (by omega)] at b2 l2 done
    simp only [List.length_dropLast] at l2
    obtain ⟨p, x, y, x', y', q, e1, e2, h3, h4⟩ := hn
    rcases List.eq_nil_or_concat q with rfl | ⟨q, z, rfl⟩
    · -- the last bar and the space behind it
      exfalso
      have f1 : es = (p ++ [x]) ++ [y] := by rw [e1]; simp
      have f2 : es' = (p ++ [x']) ++ [y'] := by rw [e2]; simp
      have f3 := hw
      rw [f1] at f3
      obtain ⟨f4, f5⟩ := List.append_inj' f3 rfl
      have f6 : p ++ [x] = ([2, 1, 2, 1, 1, 1] ++ ds.flatMap wStf ++ [2, 1, 1, 1]) ++ [2] := by rw [f4]; simp
      have f7 := (List.append_inj' f6 rfl).2
      have g1 : es'.dropLast = p ++ [x'] := by rw [f2, List.dropLast_concat]
      rw [g1, List.map_append] at b2
      have g2 : p.map classify ++ [classify x'] = ([2, 1, 2, 1, 1, 1] ++ body' ++ [2, 1, 1, 1]) ++ [2] := by
        rw [show [classify x'] = [x'].map classify from rfl, b2]; simp
      have g3 := (List.append_inj' g2 rfl).2
      simp only [List.cons.injEq, and_true] at f5 f7 g3
      have hy := hpos y' (by rw [f2]; simp)
      unfold classify at g3
      split at g3 <;> omega
    · have f1 : es.dropLast = p ++ x :: y :: q := by
        have : es = (p ++ x :: y :: q) ++ [z] := by rw [e1]; simp
        rw [this, List.dropLast_concat]
      have f2 : es'.dropLast = p ++ x' :: y' :: q := by
        have : es' = (p ++ x' :: y' :: q) ++ [z] := by rw [e2]; simp
        rw [this, List.dropLast_concat]
      have hl : ds.length = ds'.length := by omega
      have hbl : (ds.flatMap wStf).length = body'.length := by
        have := congrArg List.length hdrop
        simp only [List.length_append, List.length_cons, List.length_nil, List.length_dropLast] at this
        omega
      refine done (nudged_frame [2, 1, 2, 1, 1, 1] [2, 1, 1, 1, 2] (ds.flatMap wStf) body' es.dropLast es'.dropLast
        (fun w hw => hpos w (List.dropLast_subset _ hw)) ⟨p, x, y, x', y', q, f1, f2, h3, h4⟩ hdrop (by
          intro hm
          obtain ⟨d, hp, hm⟩ := List.mem_flatMap.mp hm
          exact wStf_no_two d (hd d hp) hm) b2 hbl (by
          rw [a2, b2]
          simp only [List.count_append, c1, c1', hl]))
  · rcases hn with hn | hn | ⟨p, x, e1, e2⟩ | ⟨p, x, e1, e2⟩
    · exfalso
      rw [if_pos (by omega)] at l2
      simp only [List.length_dropLast] at l2
      omega
    · exfalso
      rw [if_pos (by omega)] at l2
      simp only [List.length_dropLast] at l2
      omega
    · -- the space at the end has been filled
      have hodd : ¬ es'.length % 2 = 0 := by
        rw [e1] at hev
        rw [e2]
        simp only [List.length_append, List.length_cons, List.length_nil] at hev ⊢
        omega
      rw [if_neg hodd] at done
      apply done
      have f1 : es = (p ++ [x]) ++ [1] := by rw [e1]; simp
      have f3 := hw
      rw [f1] at f3
      obtain ⟨f4, -⟩ := List.append_inj' f3 rfl
      have f6 : p ++ [x] = ([2, 1, 2, 1, 1, 1] ++ ds.flatMap wStf ++ [2, 1, 1, 1]) ++ [2] := by rw [f4]; simp
      have f7 := (List.append_inj' f6 rfl).2
      simp only [List.cons.injEq, and_true] at f7
      rw [f1, List.dropLast_concat, e2, f7]
      simp [classify]
    · exfalso
      have hx := hpos x (by rw [e1]; simp)
      rw [e2] at hw
      have := (List.append_inj' hw rfl).2
      simp only [List.cons.injEq, and_true] at this
      omega

/-- C83. Changing one module of a Standard 2 of 5 symbol leaves nothing else to read than what was there. -/
theorem C83_stf (s : List Char) (x : TF.TF) (hx : TF.standard s = .ok x) (ms : List Nat)
    (he : TF.encode x = .ok ms) (i : Nat) (hi : i < ms.length) :
    scanStf (speck i ms) = none ∨ scanStf (speck i ms) = some (digitsOf s) := by
  obtain ⟨h1, h3⟩ := stf_symbol s x hx
  rw [he, Outcome.ok.injEq] at h3
  subst h3
  cases h' : scanStf (speck i (paint (stfWidths (digitsOf s)))) with
  | none => exact Or.inl rfl
  | some ds' =>
    right
    rw [stf_speck _ (digits_lt s h1) i hi ds' h']

/-! ## Examples -/

/-- A speck behind the last bar widens it; any other one spoils the symbol. -/
example : ∃ x ms, TF.standard "7".toList = .ok x ∧ TF.encode x = .ok ms ∧ ms.length = 30 ∧
    scanStf (speck 29 ms) = some [7] ∧ ∀ i < 29, scanStf (speck i ms) = none :=
  ⟨_, _, rfl, rfl, by decide +kernel, by decide +kernel, by decide +kernel⟩

/-- The first wide bar stands before a wide space: the edge between the two can move without harm. -/
example : ∃ x ms, TF.interleaved .release "1111".toList = .ok x ∧ TF.encode x = .ok ms ∧
    scanItf (speck 6 ms) = scanItf ms ∧ scanItf ms = some [1, 1, 1, 1] ∧ scanItf (speck 5 ms) = none :=
  ⟨_, _, rfl, rfl, by decide +kernel, by decide +kernel, by decide +kernel⟩

/-- C83. Among the two-digit add-ons a single module can make the difference: 01 becomes 04. -/
theorem C83_ean2_excepted : ∃ x ms, EanSupp.new "01".toList = .ok x ∧ EanSupp.encode .release x = .ok ms ∧ scanAddOn ms = some [0, 1] ∧
    ∃ i < ms.length, scanAddOn (speck i ms) = some [0, 4] := ⟨_, _, rfl, rfl, by decide +kernel, by decide +kernel⟩

end Barcoders
