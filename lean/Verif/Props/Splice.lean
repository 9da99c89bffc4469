import Verif.Spec.Splice
import Verif.Props.Skipped

/-!
# The parts of two labels (C120)
-/

set_option autoImplicit false

namespace Barcoders
open Spec

/-- Symbols are joined where elements end, if both have come to a bar or both to a space. -/
theorem splice_paint (A B A' B' : List Nat) (h : A.length % 2 = A'.length % 2) :
    spliced A.sum A'.sum (paint (A ++ B)) (paint (A' ++ B')) = paint (A ++ B') := by
  unfold spliced paint
  rcases Nat.mod_two_eq_zero_or_one A.length with h0 | h0
  · rw [paintFrom_append_even 1 (by omega) A B h0, paintFrom_append_even 1 (by omega) A B' h0,
      paintFrom_append_even 1 (by omega) A' B' (by omega), ← paintFrom_length 1 A, ← paintFrom_length 1 A', List.take_left, List.drop_left]
  · rw [paintFrom_append_odd 1 (by omega) A B h0, paintFrom_append_odd 1 (by omega) A B' h0,
      paintFrom_append_odd 1 (by omega) A' B' (by omega), ← paintFrom_length 1 A, ← paintFrom_length 1 A', List.take_left, List.drop_left]

/-- Symbols made of cells of equal width, joined where cells end. -/
theorem splice_cells {α : Type} (w : α → List Nat) (n W : Nat) (hn : n % 2 = 0) (pre post : List Nat) (p q p' q' : List α)
    (h : ∀ a ∈ p ++ p', (w a).length = n ∧ (w a).sum = W) :
    spliced (pre.sum + W * p.length) (pre.sum + W * p'.length) (paint (pre ++ ((p ++ q).flatMap w ++ post)))
      (paint (pre ++ ((p' ++ q').flatMap w ++ post))) = paint (pre ++ ((p ++ q').flatMap w ++ post)) := by
  have l1 : (p.flatMap w).length = n * p.length := flatMap_length n w p (fun a ha => (h a (by simp [ha])).1)
  have l2 : (p'.flatMap w).length = n * p'.length := flatMap_length n w p' (fun a ha => (h a (by simp [ha])).1)
  have s1 : (p.flatMap w).sum = W * p.length := flatMap_sum W w p (fun a ha => (h a (by simp [ha])).2)
  have s2 : (p'.flatMap w).sum = W * p'.length := flatMap_sum W w p' (fun a ha => (h a (by simp [ha])).2)
  have key := splice_paint (pre ++ p.flatMap w) (q.flatMap w ++ post) (pre ++ p'.flatMap w) (q'.flatMap w ++ post) (by
    rw [List.length_append, List.length_append, l1, l2, Nat.add_mod, Nat.mul_mod, hn, Nat.add_mod pre.length, Nat.mul_mod n, hn]
    simp)
  rw [List.sum_append, List.sum_append, s1, s2] at key
  simpa only [List.flatMap_append, List.append_assoc] using key

/-! ## Code 39 -/

theorem code39_splice (p q p' q' : List Char) (h : ∀ a ∈ p ++ p', a ∈ code39Alphabet) :
    spliced (13 * (p.length + 1)) (13 * (p'.length + 1)) (paint (code39Widths (p ++ q))) (paint (code39Widths (p' ++ q'))) =
      paint (code39Widths (p ++ q')) := by
  have hs : (w39 '*' ++ [1]).sum = 13 := by decide
  have key := splice_cells (fun c => w39 c ++ [1]) 10 13 (by omega) (w39 '*' ++ [1]) (w39 '*') p q p' q' (fun a ha => by
    have hm : a ∈ '*' :: code39Alphabet := List.mem_cons_of_mem _ (h a ha)
    exact ⟨by rw [List.length_append, (w39_spec a hm).1]; rfl, by rw [List.sum_append, w39_sum a hm]; rfl⟩)
  rw [hs, ← code39_cells, ← code39_cells, ← code39_cells] at key
  have e : ∀ l : List Char, 13 * (l.length + 1) = 13 + 13 * l.length := fun l => by omega
  rw [e, e]
  exact key

/-- C120. Code 39 with check character: the first characters of one label and the last ones (with the check character) of
another are read as one text exactly if the values of the characters that were replaced add up to the same modulo 43. -/
theorem C120_code39 (p q p' q' : List Char) (x x' : Code39.Code39) (ms ms' : List Nat) (hx : Code39.withChecksum (p ++ q) = .ok x)
    (he : Code39.encode x = .ok ms) (hx' : Code39.withChecksum (p' ++ q') = .ok x') (he' : Code39.encode x' = .ok ms') :
    scanCode39Checked (spliced (13 * (p.length + 1)) (13 * (p'.length + 1)) ms ms') =
      if (p.map code39Value).sum % 43 = (p'.map code39Value).sum % 43 then some (p ++ q') else none := by
  obtain ⟨hA, e⟩ := code39_symbol _ true x hx
  obtain ⟨hA', e'⟩ := code39_symbol _ true x' hx'
  rw [he] at e
  rw [he'] at e'
  cases e
  cases e'
  simp only [if_true] at hA hA' ⊢
  rw [List.append_assoc, List.append_assoc, code39_splice]
  · have s1 : scanCode39 (paint (code39Widths (p ++ (q' ++ [code39Check (p' ++ q')])))) =
        some ((p ++ q') ++ [code39Check (p' ++ q')]) := by
      rw [scanCode39_paint, List.append_assoc]
      intro a ha
      rcases List.mem_append.mp ha with ha | ha
      · exact hA a (by simp [ha])
      · exact hA' a (by rw [List.append_assoc]; exact List.mem_append_right _ ha)
    rw [scan39_if _ _ _ s1]
    have c1 : code39Check (p' ++ q') = code39Check (p ++ q') ↔
        (p.map code39Value).sum % 43 = (p'.map code39Value).sum % 43 := by
      rw [code39Check_eq_iff, List.map_append, List.map_append, List.sum_append, List.sum_append]
      omega
    simp only [c1]
  · intro a ha
    rcases List.mem_append.mp ha with ha | ha
    · exact hA a (by simp [ha])
    · exact hA' a (by simp [ha])

/-- `A1|23` and `B1|77` do not make `A177`, but `A1|23` and `1A|77` do. -/
example : ∃ x ms x' ms' x'' ms'', Code39.withChecksum "A123".toList = .ok x ∧ Code39.encode x = .ok ms ∧
    Code39.withChecksum "B177".toList = .ok x' ∧ Code39.encode x' = .ok ms' ∧ Code39.withChecksum "1A77".toList = .ok x'' ∧
    Code39.encode x'' = .ok ms'' ∧ scanCode39Checked (spliced 39 39 ms ms') = none ∧
    scanCode39Checked (spliced 39 39 ms ms'') = some "A177".toList :=
  ⟨_, _, _, _, _, _, rfl, rfl, rfl, rfl, rfl, rfl, by decide +kernel, by decide +kernel⟩

/-! ## Code 93 -/

theorem code93_splice (p q p' q' : List Char) (h : ∀ a ∈ p ++ p', a ∈ code93Alphabet) :
    spliced (9 * (p.length + 1)) (9 * (p'.length + 1)) (paint (code93SymWidths (p ++ q))) (paint (code93SymWidths (p' ++ q'))) =
      paint (code93SymWidths (p ++ q')) := by
  have hs : (w93 '*').sum = 9 := by decide
  have key := splice_cells w93 6 9 (by omega) (w93 '*') (w93 '*' ++ [1]) p q p' q' (fun a ha => by
    have hm : a ∈ '*' :: code93Alphabet := List.mem_cons_of_mem _ (h a ha)
    exact ⟨(w93_spec a hm).1, w93_sum a hm⟩)
  rw [hs, ← code93_cells, ← code93_cells, ← code93_cells] at key
  have e : ∀ l : List Char, 9 * (l.length + 1) = 9 + 9 * l.length := fun l => by omega
  rw [e, e]
  exact key

/-- C120. Code 93: the first characters of one label and the last ones of another are read as one text exactly if that text has
the two check characters of the second label. -/
theorem C120_code93 (p q p' q' : List Char) (x x' : Code93.Code93) (ms ms' : List Nat) (hx : Code93.new (p ++ q) = .ok x)
    (he : Code93.encode x = .ok ms) (hx' : Code93.new (p' ++ q') = .ok x') (he' : Code93.encode x' = .ok ms') :
    scanCode93 (spliced (9 * (p.length + 1)) (9 * (p'.length + 1)) ms ms') =
      if code93Check 20 (p ++ q') = code93Check 20 (p' ++ q') ∧
        code93Check 15 (p ++ q' ++ [code93Check 20 (p ++ q')]) = code93Check 15 (p' ++ q' ++ [code93Check 20 (p' ++ q')])
      then some (p ++ q') else none := by
  obtain ⟨hA, e⟩ := code93_symbol _ x hx
  obtain ⟨hA', e'⟩ := code93_symbol _ x' hx'
  rw [he] at e
  rw [he'] at e'
  cases e
  cases e'
  have e0 : ∀ p q, code93Text (p ++ q) = p ++ (q ++ [code93Check 20 (p ++ q),
      code93Check 15 (p ++ q ++ [code93Check 20 (p ++ q)])]) := fun p q => by simp [code93Text]
  rw [e0] at hA hA' ⊢
  rw [e0, code93_splice]
  · generalize hy : code93Check 20 (p' ++ q') = y at hA' ⊢
    generalize hz : code93Check 15 (p' ++ q' ++ [y]) = z at hA' ⊢
    have r1 := readCode93_paint (p ++ (q' ++ [y, z])) (fun a ha => by
      rcases List.mem_append.mp ha with ha | ha
      · exact hA a (by simp [ha])
      · exact hA' a (List.mem_append_right _ ha))
    rw [scan93_if _ (p ++ q') y z (by rw [r1, List.append_assoc])]
    have : (y = code93Check 20 (p ++ q') ∧ z = code93Check 15 (p ++ q' ++ [y])) ↔
        (code93Check 20 (p ++ q') = y ∧ code93Check 15 (p ++ q' ++ [code93Check 20 (p ++ q')]) = z) := by
      constructor
      · rintro ⟨h1, h2⟩
        exact ⟨h1.symm, by rw [← h1]; exact h2.symm⟩
      · rintro ⟨h1, h2⟩
        rw [h1] at h2
        exact ⟨h1.symm, h2.symm⟩
    simp only [this]
  · intro a ha
    rcases List.mem_append.mp ha with ha | ha
    · exact hA a (by simp [ha])
    · exact hA' a (by simp [ha])

/-- `AB|C` and `AD|C` make nothing. -/
example : ∃ x ms x' ms', Code93.new "ABC".toList = .ok x ∧ Code93.encode x = .ok ms ∧ Code93.new "ADC".toList = .ok x' ∧
    Code93.encode x' = .ok ms' ∧ scanCode93 (spliced 27 27 ms ms') = none ∧ scanCode93 (spliced 27 27 ms ms) = some "ABC".toList :=
  ⟨_, _, _, _, rfl, rfl, rfl, rfl, by decide +kernel, by decide +kernel⟩

/-! ## Code 128 -/

theorem code128_splice (p q p' q' : List Nat) (h : ∀ a ∈ p ++ p', a < 106) :
    spliced (11 * p.length) (11 * p'.length) (paint (code128Widths (p ++ q))) (paint (code128Widths (p' ++ q'))) =
      paint (code128Widths (p ++ q')) := by
  have key := splice_cells w128 6 11 (by omega) [] code128Stop p q p' q' (fun a ha => ⟨(w128_spec a (h a ha)).1, w128_sum a (h a ha)⟩)
  simpa [code128Widths] using key

/-- The check symbol of a drawn Code 128 symbol. -/
theorem code128_drawn_check (b : Build) (s : List Char) (x : Code128.Code128) (hx : Code128.new s = .ok x) (hl : s.length ≤ 6489)
    (ms : List Nat) (he : Code128.encode b x = .ok ms) (start chk : Nat) (data : List Nat)
    (hr : readCode128 ms = some (start :: data ++ [chk])) : chk = code128Sum start data % 103 := by
  obtain ⟨ms1, e1, hs⟩ := C28_code128_scan_regrouped_partial b s x hx hl
  rw [he, Outcome.ok.injEq] at e1
  subst e1
  rw [scan128_if ms start chk _ hr] at hs
  by_cases hk : chk = code128Sum start data % 103
  · exact hk
  · rw [if_neg hk] at hs
    cases hs

/-- C120. Code 128: the first symbols of one label and the last ones of another are read as one exactly if the check sum comes
out as on the second label; then they are read as they stand. The first label may be any row that a scanner can take apart. -/
theorem C120_code128 (b : Build) (s' : List Char) (x' : Code128.Code128) (hx' : Code128.new s' = .ok x') (hl' : s'.length ≤ 6489)
    (ms ms' : List Nat) (he' : Code128.encode b x' = .ok ms') (start chk start' chk' : Nat) (p q p' q' : List Nat)
    (hr : readCode128 ms = some (start :: (p ++ q) ++ [chk])) (hr' : readCode128 ms' = some (start' :: (p' ++ q') ++ [chk'])) :
    scanCode128 (spliced (11 * (p.length + 1)) (11 * (p'.length + 1)) ms ms') =
      if code128Sum start (p ++ q') % 103 = code128Sum start' (p' ++ q') % 103 then
        (code128Start start).bind (fun set => (code128Decode set (p ++ q')).map (set.char :: ·)) else none := by
  have hc' := code128_drawn_check b s' x' hx' hl' ms' he' start' chk' _ hr'
  obtain ⟨hv, hms⟩ := code128_read_symbol ms _ hr
  obtain ⟨hv', hms'⟩ := code128_read_symbol ms' _ hr'
  have e0 : ∀ (u : Nat) (p q : List Nat) (k : Nat), u :: (p ++ q) ++ [k] = (u :: p) ++ (q ++ [k]) := fun u p q k => by simp
  rw [e0] at hv hv' hms hms'
  have h1 := code128_splice (start :: p) (q ++ [chk]) (start' :: p') (q' ++ [chk']) (fun a ha => by
    rcases List.mem_append.mp ha with ha | ha
    · exact hv a (List.mem_append_left _ ha)
    · exact hv' a (List.mem_append_left _ ha))
  rw [List.length_cons, List.length_cons, ← hms, ← hms'] at h1
  rw [h1]
  have r1 := readCode128_paint (start :: p ++ (q' ++ [chk'])) (fun a ha => by
    rcases List.mem_append.mp ha with ha | ha
    · exact hv a (List.mem_append_left _ ha)
    · exact hv' a (List.mem_append_right _ ha))
  rw [scan128_if _ start chk' (p ++ q') (by rw [r1, e0]), hc']
  have : code128Sum start' (p' ++ q') % 103 = code128Sum start (p ++ q') % 103 ↔
      code128Sum start (p ++ q') % 103 = code128Sum start' (p' ++ q') % 103 := eq_comm
  simp only [this]

/-- `Ɓ1|A` and `Ɓ2|A` make nothing; `ƁA |x` and `Ɓ?!|x` have the same check sum and make `ƁA x`. -/
example : ∃ x ms x' ms' y ns y' ns', Code128.new "Ɓ1A".toList = .ok x ∧ Code128.encode .debug x = .ok ms ∧
    Code128.new "Ɓ2A".toList = .ok x' ∧ Code128.encode .debug x' = .ok ms' ∧ scanCode128 (spliced 22 22 ms ms') = none ∧
    Code128.new "ƁA x".toList = .ok y ∧ Code128.encode .debug y = .ok ns ∧ Code128.new "Ɓ?!x".toList = .ok y' ∧
    Code128.encode .debug y' = .ok ns' ∧ scanCode128 (spliced 33 33 ns ns') = some "ƁA x".toList :=
  ⟨_, _, _, _, _, _, _, _, rfl, rfl, rfl, rfl, by decide +kernel, rfl, rfl, rfl, rfl, by decide +kernel⟩

/-! ## EAN and UPC -/

theorem left_splice (n k : Nat) (ls rs ls' rs' : List Nat) (hls : Digits ls) (hls' : Digits ls')
    (ll : ls.length = n) (ll' : ls'.length = n) (hk : k ≤ n) :
    spliced (3 + 7 * k) (3 + 7 * k) (paint (halvesWidths (ls.flatMap wA) (rs.flatMap wA)))
        (paint (halvesWidths (ls'.flatMap wA) (rs'.flatMap wA))) =
      paint (halvesWidths ((ls.take k ++ ls'.drop k).flatMap wA) (rs'.flatMap wA)) := by
  have dt : ∀ l : List Nat, Digits l → Digits (l.take k) := fun l h d hd => h d (List.mem_of_mem_take hd)
  have key := splice_paint ([1, 1, 1] ++ (ls.take k).flatMap wA) ((ls.drop k).flatMap wA ++ ([1, 1, 1, 1, 1] ++ (rs.flatMap wA ++ [1, 1, 1])))
    ([1, 1, 1] ++ (ls'.take k).flatMap wA) ((ls'.drop k).flatMap wA ++ ([1, 1, 1, 1, 1] ++ (rs'.flatMap wA ++ [1, 1, 1]))) (by
      rw [List.length_append, List.length_append, wA_length_of _ (dt ls hls), wA_length_of _ (dt ls' hls')]
      simp; omega)
  have e : ∀ l : List Nat, Digits l → l.length = n → ([1, 1, 1] ++ (l.take k).flatMap wA).sum = 3 + 7 * k := by
    intro l hl hn
    rw [List.sum_append, wA_flatMap_sum _ (dt l hl), List.length_take, hn, Nat.min_eq_left hk]
    rfl
  have f : ∀ (l r : List Nat), [1, 1, 1] ++ (l.take k).flatMap wA ++ ((l.drop k).flatMap wA ++ r) = [1, 1, 1] ++ (l.flatMap wA ++ r) := by
    intro l r
    rw [List.append_assoc, ← List.append_assoc ((l.take k).flatMap wA), ← List.flatMap_append, List.take_append_drop]
  rw [e ls hls ll, e ls' hls' ll', f, f] at key
  unfold halvesWidths
  simp only [List.append_assoc] at key ⊢
  rw [key, List.flatMap_append]
  simp only [List.append_assoc]

theorem right_splice (S k : Nat) (L L' rs rs' : List Nat) (hL : L.sum = S ∧ L.length % 2 = 0) (hL' : L'.sum = S ∧ L'.length % 2 = 0)
    (hrs : Digits rs) (hrs' : Digits rs') (hk : k ≤ rs.length) (hk' : k ≤ rs'.length) :
    spliced (8 + S + 7 * k) (8 + S + 7 * k) (paint (halvesWidths L (rs.flatMap wA))) (paint (halvesWidths L' (rs'.flatMap wA))) =
      paint (halvesWidths L ((rs.take k ++ rs'.drop k).flatMap wA)) := by
  have dt : ∀ l : List Nat, Digits l → Digits (l.take k) := fun l h d hd => h d (List.mem_of_mem_take hd)
  have key := splice_paint ([1, 1, 1] ++ (L ++ ([1, 1, 1, 1, 1] ++ (rs.take k).flatMap wA))) ((rs.drop k).flatMap wA ++ [1, 1, 1])
    ([1, 1, 1] ++ (L' ++ ([1, 1, 1, 1, 1] ++ (rs'.take k).flatMap wA))) ((rs'.drop k).flatMap wA ++ [1, 1, 1]) (by
      simp only [List.length_append, wA_length_of _ (dt rs hrs), wA_length_of _ (dt rs' hrs')]
      omega)
  have e : ∀ l r : List Nat, l.sum = S → Digits r → k ≤ r.length →
      ([1, 1, 1] ++ (l ++ ([1, 1, 1, 1, 1] ++ (r.take k).flatMap wA))).sum = 8 + S + 7 * k := by
    intro l r hl hr hk
    rw [List.sum_append, List.sum_append, List.sum_append, hl, wA_flatMap_sum _ (dt r hr), List.length_take, Nat.min_eq_left hk]
    have e1 : [1, 1, 1].sum = 3 := rfl
    have e2 : [1, 1, 1, 1, 1].sum = 5 := rfl
    omega
  have f : ∀ (l r : List Nat), [1, 1, 1] ++ (l ++ ([1, 1, 1, 1, 1] ++ (r.take k).flatMap wA)) ++ ((r.drop k).flatMap wA ++ [1, 1, 1]) =
      [1, 1, 1] ++ (l ++ ([1, 1, 1, 1, 1] ++ (r.flatMap wA ++ [1, 1, 1]))) := by
    intro l r
    simp only [List.append_assoc]
    rw [← List.append_assoc ((r.take k).flatMap wA), ← List.flatMap_append, List.take_append_drop]
  rw [e L rs hL.1 hrs hk, e L' rs' hL'.1 hrs' hk', f, f] at key
  unfold halvesWidths
  simp only [List.append_assoc] at key ⊢
  rw [key, List.flatMap_append]
  simp only [List.append_assoc]

/-- What is read of the front of one UPC-A or EAN-8 symbol and the rear of another, cut between two digits. -/
theorem halves_spliced_scan (n k : Nat) (ls rs ls' rs' : List Nat) (hls : Digits ls) (hls' : Digits ls') (hrs : Digits rs)
    (hrs' : Digits rs') (ll : ls.length = n) (ll' : ls'.length = n) (lr : rs.length = n) (lr' : rs'.length = n) (hk : k ≤ 2 * n) :
    (elements (spliced (if k ≤ n then 3 + 7 * k else 8 + 7 * k) (if k ≤ n then 3 + 7 * k else 8 + 7 * k)
        (paint (halvesWidths (ls.flatMap wA) (rs.flatMap wA))) (paint (halvesWidths (ls'.flatMap wA) (rs'.flatMap wA))))).bind
          (readHalves n) =
      if Gs1Valid ((ls ++ rs).take k ++ (ls' ++ rs').drop k) then some ((ls ++ rs).take k ++ (ls' ++ rs').drop k) else none := by
  have tk : ∀ (j : Nat) (a b : List Nat), Digits a → Digits b → Digits (a.take j ++ b.drop j) := fun j a b ha hb d hd => by
    rcases List.mem_append.mp hd with hd | hd
    · exact ha d (List.mem_of_mem_take hd)
    · exact hb d (List.mem_of_mem_drop hd)
  by_cases h : k ≤ n
  · rw [if_pos h, left_splice n k ls rs ls' rs' hls hls' ll ll' h, elements_halves _ _ (tk k ls ls' hls hls') hrs', Option.bind_some,
      readHalves_widths n _ _ (tk k ls ls' hls hls') hrs' (by simp [ll, ll']; omega) lr']
    rw [List.take_append_of_le_length (by omega), List.drop_append_of_le_length (by omega), List.append_assoc]
  · obtain ⟨j, rfl⟩ : ∃ j, k = n + j := ⟨k - n, by omega⟩
    have e : 8 + 7 * (n + j) = 8 + 7 * n + 7 * j := by omega
    rw [if_neg h, e, right_splice (7 * n) j _ _ rs rs' ⟨by rw [wA_flatMap_sum _ hls, ll], by rw [wA_length_of _ hls]; omega⟩
      ⟨by rw [wA_flatMap_sum _ hls', ll'], by rw [wA_length_of _ hls']; omega⟩ hrs hrs' (by omega) (by omega),
      elements_halves _ _ hls (tk j rs rs' hrs hrs'), Option.bind_some,
      readHalves_widths n _ _ hls (tk j rs rs' hrs hrs') ll (by simp [lr, lr']; omega)]
    have e1 : (ls ++ rs).take (n + j) = ls ++ rs.take j := by rw [← ll, List.take_length_add_append]
    have e2 : (ls' ++ rs').drop (n + j) = rs'.drop j := by rw [← ll', List.drop_length_add_append]
    rw [e1, e2, List.append_assoc]

/-- C120. UPC-A and EAN-8, cut between any two digits (or at the centre): the front of one label and the rear of another are read as
one number exactly if the digits together are a valid number. The same for EAN-13, cut at the centre or to the right of it. -/
theorem C120_retail (b : Build) (s s' : List Char) (ms ms' ds ds' : List Nat) (k : Nat) :
    (Drawn b .upca s ms → Drawn b .upca s' ms' → scanUpca ms = some ds → scanUpca ms' = some ds' → k ≤ 12 →
      scanUpca (spliced (if k ≤ 6 then 3 + 7 * k else 8 + 7 * k) (if k ≤ 6 then 3 + 7 * k else 8 + 7 * k) ms ms') =
        if Gs1Valid (ds.take k ++ ds'.drop k) then some (ds.take k ++ ds'.drop k) else none) ∧
    (Drawn b .ean8 s ms → Drawn b .ean8 s' ms' → scanEan8 ms = some ds → scanEan8 ms' = some ds' → k ≤ 8 →
      scanEan8 (spliced (if k ≤ 4 then 3 + 7 * k else 8 + 7 * k) (if k ≤ 4 then 3 + 7 * k else 8 + 7 * k) ms ms') =
        if Gs1Valid (ds.take k ++ ds'.drop k) then some (ds.take k ++ ds'.drop k) else none) ∧
    (Drawn b .ean13 s ms → Drawn b .ean13 s' ms' → scanEan13 ms = some ds → scanEan13 ms' = some ds' → 7 ≤ k → k ≤ 13 →
      scanEan13 (spliced (7 * k + 1) (7 * k + 1) ms ms') =
        if Gs1Valid (ds.take k ++ ds'.drop k) then some (ds.take k ++ ds'.drop k) else none) := by
  refine ⟨?_, ?_, ?_⟩
  · rintro ⟨x, hx, he⟩ ⟨x', hx', he'⟩ hs hs' hk
    obtain ⟨ls, rs, hls, hrs, ll, lr, -, e⟩ := upca_symbol b s x hx
    obtain ⟨ls', rs', hls', hrs', ll', lr', -, e'⟩ := upca_symbol b s' x' hx'
    have e := e b
    have e' := e' b
    rw [he] at e
    rw [he'] at e'
    cases e
    cases e'
    have d : ds = ls ++ rs := by
      rw [scanUpca, elements_halves _ _ hls hrs, Option.bind_some, readHalves_widths 6 _ _ hls hrs ll lr] at hs
      split at hs
      · cases hs; rfl
      · cases hs
    have d' : ds' = ls' ++ rs' := by
      rw [scanUpca, elements_halves _ _ hls' hrs', Option.bind_some, readHalves_widths 6 _ _ hls' hrs' ll' lr'] at hs'
      split at hs'
      · cases hs'; rfl
      · cases hs'
    subst d d'
    exact halves_spliced_scan 6 k ls rs ls' rs' hls hls' hrs hrs' ll ll' lr lr' (by omega)
  · rintro ⟨x, hx, he⟩ ⟨x', hx', he'⟩ hs hs' hk
    obtain ⟨ls, rs, hls, hrs, ll, lr, -, e⟩ := ean8_symbol b s x hx
    obtain ⟨ls', rs', hls', hrs', ll', lr', -, e'⟩ := ean8_symbol b s' x' hx'
    have e := e b
    have e' := e' b
    rw [he] at e
    rw [he'] at e'
    cases e
    cases e'
    have d : ds = ls ++ rs := by
      rw [scanEan8, elements_halves _ _ hls hrs, Option.bind_some, readHalves_widths 4 _ _ hls hrs ll lr] at hs
      split at hs
      · cases hs; rfl
      · cases hs
    have d' : ds' = ls' ++ rs' := by
      rw [scanEan8, elements_halves _ _ hls' hrs', Option.bind_some, readHalves_widths 4 _ _ hls' hrs' ll' lr'] at hs'
      split at hs'
      · cases hs'; rfl
      · cases hs'
    subst d d'
    exact halves_spliced_scan 4 k ls rs ls' rs' hls hls' hrs hrs' ll ll' lr lr' (by omega)
  · rintro ⟨x, hx, he⟩ ⟨x', hx', he'⟩ hs hs' h7 hk
    obtain ⟨d0, ls, rs, h0, hls, hrs, ll, lr, -, e⟩ := ean13_symbol b s x hx
    obtain ⟨d0', ls', rs', h0', hls', hrs', ll', lr', -, e'⟩ := ean13_symbol b s' x' hx'
    have e := e b
    have e' := e' b
    rw [he] at e
    rw [he'] at e'
    cases e
    cases e'
    have el : ∀ d0 ls rs, Digits ls → Digits rs → elements (paint (ean13Widths d0 ls rs)) = some (ean13Widths d0 ls rs) :=
      fun d0 ls rs hls hrs => elements_paint _ (fun w hw => (ean13Widths_pos d0 ls rs hls hrs w hw).1) (halves_ne_nil _ _)
    have d : ds = d0 :: (ls ++ rs) := by
      rw [scanEan13, el d0 ls rs hls hrs, Option.bind_some, readEan13_widths d0 ls rs h0 hls hrs ll lr] at hs
      split at hs
      · cases hs; rfl
      · cases hs
    have d' : ds' = d0' :: (ls' ++ rs') := by
      rw [scanEan13, el d0' ls' rs' hls' hrs', Option.bind_some, readEan13_widths d0' ls' rs' h0' hls' hrs' ll' lr'] at hs'
      split at hs'
      · cases hs'; rfl
      · cases hs'
    subst d d'
    obtain ⟨j, rfl⟩ : ∃ j, k = 7 + j := ⟨k - 7, by omega⟩
    have hL : ∀ d0 ls, d0 < 10 → Digits ls → ls.length = 6 →
        (((setsOf d0).zip ls).flatMap wAB).sum = 42 ∧ (((setsOf d0).zip ls).flatMap wAB).length % 2 = 0 := by
      intro d0 ls h0 hls ll
      have hz := zip_snd_lt (setsOf d0) ls hls
      have hlen : ((setsOf d0).zip ls).length = 6 := by simp [(parity_spec d0 h0).2.2.2.2.2, ll]
      exact ⟨by rw [wAB_flatMap_sum _ hz, hlen], by rw [wAB_length_of _ hz, hlen]⟩
    have hD : Digits (rs.take j ++ rs'.drop j) := fun d hd => by
      rcases List.mem_append.mp hd with hd | hd
      · exact hrs d (List.mem_of_mem_take hd)
      · exact hrs' d (List.mem_of_mem_drop hd)
    have key := right_splice 42 j _ _ rs rs' (hL d0 ls h0 hls ll) (hL d0' ls' h0' hls' ll') hrs hrs' (by omega) (by omega)
    have e : 7 * (7 + j) + 1 = 8 + 42 + 7 * j := by omega
    have key' : spliced (7 * (7 + j) + 1) (7 * (7 + j) + 1) (paint (ean13Widths d0 ls rs)) (paint (ean13Widths d0' ls' rs')) =
        paint (ean13Widths d0 ls (rs.take j ++ rs'.drop j)) := by rw [e]; exact key
    rw [key', scanEan13, el _ _ _ hls hD, Option.bind_some, readEan13_widths d0 ls _ h0 hls hD ll (by simp [lr, lr']; omega)]
    have e1 : (d0 :: (ls ++ rs)).take (7 + j) = d0 :: (ls ++ rs.take j) := by
      have : 7 + j = (ls.length + j) + 1 := by omega
      rw [this, List.take_succ_cons, List.take_length_add_append]
    have e2 : (d0' :: (ls' ++ rs')).drop (7 + j) = rs'.drop j := by
      have : 7 + j = (ls'.length + j) + 1 := by omega
      rw [this, List.drop_succ_cons, List.drop_length_add_append]
    rw [e1, e2, List.cons_append, List.append_assoc]

/-- The left half of 4006381333931 with the right half of 9783161484100 is not a number; with that of 4006381333931 it is. -/
example : ∃ ms ms', Drawn .debug .ean13 "4006381333931".toList ms ∧ Drawn .debug .ean13 "9783161484100".toList ms' ∧
    scanEan13 (spliced 50 50 ms ms') = none ∧ scanEan13 (spliced 50 50 ms ms) = some [4, 0, 0, 6, 3, 8, 1, 3, 3, 3, 9, 3, 1] :=
  ⟨_, _, ⟨_, rfl, rfl⟩, ⟨_, rfl, rfl⟩, by decide +kernel, by decide +kernel⟩

/-- The halves of the UPC-A numbers 036000291452 and 140000000003 make nothing, those of 036000291452 and 010000000009 a third number. -/
example : ∃ ms ms' ms'', Drawn .debug .upca "036000291452".toList ms ∧ Drawn .debug .upca "140000000003".toList ms' ∧
    Drawn .debug .upca "010000000009".toList ms'' ∧ scanUpca (spliced 45 45 ms ms') = none ∧
    scanUpca (spliced 45 45 ms ms'') = some [0, 3, 6, 0, 0, 0, 0, 0, 0, 0, 0, 9] :=
  ⟨_, _, _, ⟨_, rfl, rfl⟩, ⟨_, rfl, rfl⟩, ⟨_, rfl, rfl⟩, by decide +kernel, by decide +kernel⟩

/-! ## Symbols without check characters -/

/-- C120. Code 39 without check character and 2 of 5: the first characters of one label and the last ones of another are always
read as one text. -/
theorem C120_unchecked (b : Build) (s s' : List Char) (ms ms' : List Nat) :
    (∀ p q p' q', s = p ++ q → s' = p' ++ q' → (∃ x, Code39.new s = .ok x ∧ Code39.encode x = .ok ms) →
      (∃ x, Code39.new s' = .ok x ∧ Code39.encode x = .ok ms') →
      scanCode39 (spliced (13 * (p.length + 1)) (13 * (p'.length + 1)) ms ms') = some (p ++ q')) ∧
    (∀ p q p' q', Drawn b .stf s ms → Drawn b .stf s' ms' → digitsOf s = p ++ q → digitsOf s' = p' ++ q' →
      scanStf (spliced (8 + 14 * p.length) (8 + 14 * p'.length) ms ms') = some (p ++ q')) ∧
    (∀ p q p' q', Drawn b .itf s ms → Drawn b .itf s' ms' → scanItf ms = some (p ++ q) → scanItf ms' = some (p' ++ q') →
      p.length % 2 = 0 → p'.length % 2 = 0 →
      scanItf (spliced (4 + 9 * p.length) (4 + 9 * p'.length) ms ms') = some (p ++ q')) := by
  refine ⟨?_, ?_, ?_⟩
  · rintro p q p' q' rfl rfl ⟨x, hx, he⟩ ⟨x', hx', he'⟩
    obtain ⟨hA, e⟩ := code39_symbol _ false x hx
    obtain ⟨hA', e'⟩ := code39_symbol _ false x' hx'
    rw [he] at e
    rw [he'] at e'
    cases e
    cases e'
    simp only [Bool.false_eq_true, if_false] at hA hA' ⊢
    rw [code39_splice, scanCode39_paint]
    · intro a ha
      rcases List.mem_append.mp ha with ha | ha
      · exact hA a (List.mem_append_left _ ha)
      · exact hA' a (List.mem_append_right _ ha)
    · intro a ha
      rcases List.mem_append.mp ha with ha | ha
      · exact hA a (List.mem_append_left _ ha)
      · exact hA' a (List.mem_append_left _ ha)
  · rintro p q p' q' ⟨x, hx, he⟩ ⟨x', hx', he'⟩ hs hs'
    obtain ⟨hD, e⟩ := stf_symbol s x hx
    obtain ⟨hD', e'⟩ := stf_symbol s' x' hx'
    rw [he] at e
    rw [he'] at e'
    cases e
    cases e'
    have hd := digits_lt s hD
    have hd' := digits_lt s' hD'
    rw [hs] at hd ⊢
    rw [hs'] at hd' ⊢
    have h1 := splice_cells wStf 10 14 (by omega) [2, 1, 2, 1, 1, 1] [2, 1, 1, 1, 2, 1] p q p' q' (fun a ha => by
      have : a < 10 := by
        rcases List.mem_append.mp ha with ha | ha
        · exact hd a (List.mem_append_left _ ha)
        · exact hd' a (List.mem_append_left _ ha)
      exact ⟨(wStf_spec a this).1, wStf_sum a this⟩)
    refine (congrArg scanStf h1).trans (scanStf_paint (p ++ q') (fun a ha => ?_))
    rcases List.mem_append.mp ha with ha | ha
    · exact hd a (List.mem_append_left _ ha)
    · exact hd' a (List.mem_append_right _ ha)
  · rintro p q p' q' ⟨x, hx, he⟩ ⟨x', hx', he'⟩ hs hs' hp hp'
    obtain ⟨ds, hd, hev, -, -, -, e⟩ := itf_symbol b s x hx
    obtain ⟨ds', hd', hev', -, -, -, e'⟩ := itf_symbol b s' x' hx'
    rw [he] at e
    rw [he'] at e'
    cases e
    cases e'
    rw [scanItf_paint ds hd hev, Option.some.injEq] at hs
    rw [scanItf_paint ds' hd' hev', Option.some.injEq] at hs'
    subst hs
    subst hs'
    have hq' : q'.length % 2 = 0 := by simp at hev'; omega
    have hpp : Digits p := fun a ha => hd a (List.mem_append_left _ ha)
    have hpp' : Digits p' := fun a ha => hd' a (List.mem_append_left _ ha)
    have hqq' : Digits q' := fun a ha => hd' a (List.mem_append_right _ ha)
    have h1 := splice_cells wItf 10 18 (by omega) [1, 1, 1, 1] [2, 1, 1] (pairs p) (pairs q) (pairs p') (pairs q') (fun a ha => by
      have : a.1 < 10 ∧ a.2 < 10 := by
        rcases List.mem_append.mp ha with ha | ha
        · exact pairs_lt p hpp a ha
        · exact pairs_lt p' hpp' a ha
      exact ⟨(wItf_spec a.1 this.1 a.2 this.2).1, wItf_sum a.1 this.1 a.2 this.2⟩)
    have hpos : ∀ l : List Nat, l.length % 2 = 0 → 4 + 9 * l.length = [1, 1, 1, 1].sum + 18 * (pairs l).length := by
      intro l hl
      rw [pairs_length]
      have : [1, 1, 1, 1].sum = 4 := rfl
      omega
    have w : ∀ u v : List Nat, u.length % 2 = 0 → itfWidths (u ++ v) = [1, 1, 1, 1] ++ ((pairs u ++ pairs v).flatMap wItf ++ [2, 1, 1]) := by
      intro u v hu
      rw [itfWidths, pairs_append u v hu]
    rw [w p q hp, w p' q' hp', hpos p hp, hpos p' hp', h1, ← w p q' hp]
    refine scanItf_paint _ (fun a ha => ?_) (by simp; omega)
    rcases List.mem_append.mp ha with ha | ha
    · exact hpp a ha
    · exact hqq' a ha

example : ∃ ms ms', Drawn .debug .itf "123456".toList ms ∧ Drawn .debug .itf "778899".toList ms' ∧
    scanItf (spliced 22 40 ms ms') = some [1, 2, 9, 9] := ⟨_, _, ⟨_, rfl, rfl⟩, ⟨_, rfl, rfl⟩, by decide +kernel⟩

end Barcoders
