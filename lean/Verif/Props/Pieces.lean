import Verif.Spec.Pieces
import Verif.Props.HandScan

/-!
# C92: several symbols in one line
-/

set_option autoImplicit false

namespace Barcoders
open Spec

/-- No element is wider than four modules. -/
theorem drawn_widest (b : Build) (k : Kind) (s : List Char) (ms : List Nat) (h : Drawn b k s ms) : ∀ r ∈ runs ms, r.2 ≤ 4 := by
  obtain ⟨h1, h2, h3, h4, h5, h6, h7, h8, h9, h10, h11, h12⟩ := C48_widest b b s
  have two : (∀ r ∈ runs ms, r.2 ≤ 2) → ∀ r ∈ runs ms, r.2 ≤ 4 := fun h r hr => Nat.le_trans (h r hr) (by omega)
  have three : (∀ r ∈ runs ms, r.2 ≤ 3) → ∀ r ∈ runs ms, r.2 ≤ 4 := fun h r hr => Nat.le_trans (h r hr) (by omega)
  cases k with
  | ean13 => obtain ⟨x, hx, he⟩ := h; exact h1 x ms hx he
  | ean8 => obtain ⟨x, hx, he⟩ := h; exact h2 x ms hx he
  | upca => obtain ⟨x, hx, he⟩ := h; exact h3 x ms hx he
  | supp => obtain ⟨x, hx, he⟩ := h; exact h4 x ms hx he
  | code39 =>
    obtain ⟨x, hx | hx, he⟩ := h
    · exact two (h5 x ms hx he)
    · exact two (h6 x ms hx he)
  | code93 => obtain ⟨x, hx, he⟩ := h; exact h7 x ms hx he
  | code11 => obtain ⟨x, hx, he⟩ := h; exact two (h8 x ms hx he)
  | codabar => obtain ⟨x, hx, rfl⟩ := h; exact two (h9 x hx)
  | stf => obtain ⟨x, hx, he⟩ := h; exact three (h10 x ms hx he)
  | itf => obtain ⟨x, hx, he⟩ := h; exact three (h11 x ms hx he)
  | code128 => obtain ⟨x, hx, he⟩ := h; exact h12 x ms hx he

theorem piecesFrom_zeros (n k : Nat) (cur : List Nat) (z : Nat) (rest : List Nat) :
    piecesFrom n cur z (List.replicate k 0 ++ rest) = piecesFrom n cur (z + k) rest := by
  induction k generalizing z with
  | zero => simp
  | succ k ih =>
    rw [List.replicate_succ, List.cons_append]
    cases cur <;> rw [piecesFrom, ih, Nat.add_right_comm] <;> rfl

theorem piecesFrom_ones (n : Nat) (hn : 0 < n) (k : Nat) (c : Nat) (cur rest : List Nat) :
    piecesFrom n (c :: cur) 0 (List.replicate k 1 ++ rest) = piecesFrom n (c :: cur ++ List.replicate k 1) 0 rest := by
  induction k generalizing cur with
  | zero => simp
  | succ k ih =>
    rw [List.replicate_succ, List.cons_append, piecesFrom, if_neg (by omega)]
    rw [List.replicate_zero, List.append_nil, List.cons_append, ih]
    simp

/-- Inside a symbol the gaps are too small to cut. -/
theorem piecesFrom_inside (n m : Nat) (vs : List Nat) (hl : vs.length = 2 * m) (hp : ∀ v ∈ vs, 0 < v ∧ v < n)
    (hn : 0 < n) (c : Nat) (cur rest : List Nat) :
    piecesFrom n (c :: cur) 0 (paintFrom 0 vs ++ rest) = piecesFrom n (c :: cur ++ paintFrom 0 vs) 0 rest := by
  induction m generalizing vs cur with
  | zero => rw [List.length_eq_zero_iff.mp hl]; simp [paintFrom]
  | succ m ih =>
    obtain ⟨u, v, vs, rfl⟩ : ∃ u v vs', vs = u :: v :: vs' := by
      match vs, hl with
      | [], h => simp at h
      | [_], h => simp at h; omega
      | u :: v :: vs', _ => exact ⟨u, v, vs', rfl⟩
    have hu := hp u (by simp)
    obtain ⟨w, rfl⟩ : ∃ w, v = w + 1 := ⟨v - 1, by have := hp v (by simp); omega⟩
    have h0 : paintFrom 0 (u :: (w + 1) :: vs) ++ rest =
        List.replicate u 0 ++ (1 :: (List.replicate w 1 ++ (paintFrom 0 vs ++ rest))) := by
      simp [paintFrom, List.replicate_succ]
    rw [h0, piecesFrom_zeros, piecesFrom, if_neg (by omega)]
    rw [List.cons_append, List.cons_append, piecesFrom_ones n hn, List.cons_append,
      ih vs (by simp at hl; omega) (fun v hv => hp v (by simp [hv]))]
    simp [paintFrom, List.replicate_succ]

/-- A bar further on: the piece at hand ends, another one begins. -/
theorem piecesFrom_symbol (n : Nat) (us : List Nat) (ho : us.length % 2 = 1) (hp : ∀ u ∈ us, 0 < u ∧ u < n)
    (hn : 0 < n) (z : Nat) (rest : List Nat) :
    piecesFrom n [] z (paint us ++ rest) = piecesFrom n (paint us) 0 rest ∧
    ∀ c cur, n ≤ z → piecesFrom n (c :: cur) z (paint us ++ rest) = (c :: cur) :: piecesFrom n (paint us) 0 rest := by
  obtain ⟨u, vs, rfl⟩ := List.exists_cons_of_ne_nil (l := us) (by rintro rfl; simp at ho)
  obtain ⟨w, rfl⟩ : ∃ w, u = w + 1 := ⟨u - 1, by have := hp u (by simp); omega⟩
  have h0 : paint ((w + 1) :: vs) ++ rest = 1 :: (List.replicate w 1 ++ (paintFrom 0 vs ++ rest)) := by
    simp [paint, paintFrom, List.replicate_succ]
  have h1 : piecesFrom n [1] 0 (List.replicate w 1 ++ (paintFrom 0 vs ++ rest)) =
      piecesFrom n (paint ((w + 1) :: vs)) 0 rest := by
    rw [piecesFrom_ones n hn, List.cons_append, piecesFrom_inside n (vs.length / 2) vs (by simp at ho; omega)
      (fun v hv => hp v (by simp [hv])) hn]
    simp [paint, paintFrom, List.replicate_succ]
  constructor
  · rw [h0, piecesFrom, h1]
  · intro c cur hz
    rw [h0, piecesFrom, if_pos hz, h1]

/-- A printed symbol: a piece that begins and ends in a bar, perhaps followed by light cells. -/
theorem printed_core (b : Build) (k : Kind) (s : List Char) (ms : List Nat) (h : Drawn b k s ms) (x n : Nat) (hx : 0 < x)
    (hn : 4 * x < n) :
    ∃ us z, stretch x ms = paint us ++ List.replicate z 0 ∧ us.length % 2 = 1 ∧ (∀ u ∈ us, 0 < u ∧ u < n) ∧
      strip (stretch x ms) = paint us := by
  obtain ⟨ws, rfl, hne, hp, -⟩ := drawn_widths b k s ms h
  have hw := drawn_widest b k s _ h
  have h4 : ∀ w ∈ ws, w ≤ 4 := by
    intro w hw'
    rw [paint, runs_paintFrom 1 (by omega) ws hp] at hw
    rw [← colours_snd 1 ws] at hw'
    obtain ⟨r, hr, rfl⟩ := List.mem_map.mp hw'
    exact hw r hr
  have key : ∀ vs : List Nat, (∀ v ∈ vs, v ∈ ws) → ∀ u ∈ vs.map (· * x), 0 < u ∧ u < n := by
    intro vs hvs u hu
    obtain ⟨v, hv, rfl⟩ := List.mem_map.mp hu
    have h1 := hp v (hvs v hv)
    have h2 := h4 v (hvs v hv)
    refine ⟨Nat.mul_pos h1 hx, ?_⟩
    have : v * x ≤ 4 * x := Nat.mul_le_mul_right x h2
    omega
  have core : ∀ us : List Nat, us.length % 2 = 1 → (∀ u ∈ us, 0 < u ∧ u < n) → ∀ z,
      strip (paint us ++ List.replicate z 0) = paint us := by
    intro us ho hu z
    have hne : us ≠ [] := by rintro rfl; simp at ho
    obtain ⟨c, hc⟩ := paint_head us hne (fun u h => (hu u h).1)
    obtain ⟨d, hd⟩ := paint_head us.reverse (by simpa using hne) (fun u h => (hu u (List.mem_reverse.mp h)).1)
    exact strip_core 0 z (paint us) c d hc (by rw [paint_reverse_odd us ho, hd])
  by_cases ho : ws.length % 2 = 1
  · have hs : stretch x (paint ws) = paint (ws.map (· * x)) := stretch_paintFrom x 1 ws
    have hk := key ws (fun _ h => h)
    have hc := core (ws.map (· * x)) (by simpa using ho) hk 0
    rw [List.replicate_zero, List.append_nil] at hc
    exact ⟨ws.map (· * x), 0, by rw [hs]; simp, by simpa using ho, hk, by rw [hs, hc]⟩
  · have hd := List.dropLast_concat_getLast hne
    have hlen : ws.dropLast.length % 2 = 1 := by
      rw [List.length_dropLast]; have := List.length_pos_iff.mpr hne; omega
    have hs : stretch x (paint ws) = paint (ws.dropLast.map (· * x)) ++ List.replicate (ws.getLast hne * x) 0 := by
      rw [show stretch x (paint ws) = paint (ws.map (· * x)) from stretch_paintFrom x 1 ws]
      conv => lhs; rw [← hd]
      rw [List.map_append, paint, paintFrom_append_odd 1 (by omega) _ _ (by simpa using hlen)]
      simp [paintFrom, paint]
    have hk := key ws.dropLast (fun _ h => List.dropLast_subset ws h)
    exact ⟨ws.dropLast.map (· * x), _, hs, by simpa using hlen, hk, by rw [hs]; exact core _ (by simpa using hlen) hk _⟩

/-- Light cells around it do not matter to a reader. -/
theorem handScan_core {α : Type} (scan : List Nat → Option α) (core c d : List Nat) (hc : core = 1 :: c)
    (hd : core.reverse = 1 :: d) (q r : Nat) :
    handScan scan (List.replicate q 0 ++ core ++ List.replicate r 0) = handScan scan core ∧
    handScan scan (List.replicate q 0 ++ core ++ List.replicate r 0).reverse = handScan scan core.reverse := by
  have hrev : (List.replicate q 0 ++ core ++ List.replicate r 0).reverse =
      List.replicate r 0 ++ core.reverse ++ List.replicate q 0 := by
    rw [List.reverse_append, List.reverse_append, List.reverse_replicate, List.reverse_replicate, List.append_assoc]
  have h1 : ∀ q r, readLine scan (List.replicate q 0 ++ core ++ List.replicate r 0) = (measureRow core).bind (fun r => scan r.2) := by
    intro q r
    rw [readLine, strip_core q r core c d hc hd]
  have h2 : ∀ q r, readLine scan (List.replicate q 0 ++ core.reverse ++ List.replicate r 0) =
      (measureRow core.reverse).bind (fun r => scan r.2) := by
    intro q r
    rw [readLine, strip_core q r core.reverse d c hd (by rw [List.reverse_reverse, hc])]
  have h10 := h1 0 0
  have h20 := h2 0 0
  simp only [List.replicate_zero, List.nil_append, List.append_nil] at h10 h20
  constructor
  · rw [handScan, handScan, hrev, h1, h2, h10, h20]
  · rw [handScan, handScan, List.reverse_reverse, hrev, List.reverse_reverse, h1, h2, h10, h20]

theorem piecesFrom_label (b : Build) (n r : Nat) (ps : List Printed) (hn : 0 < n)
    (hd : ∀ p ∈ ps, ∃ k s, Drawn b k s p.row) (hw : ∀ p ∈ ps, 0 < p.width ∧ 4 * p.width < n) (hg : ∀ p ∈ ps, n ≤ p.gap)
    (c : Nat) (cur : List Nat) (z : Nat) :
    piecesFrom n (c :: cur) z (labelLine r ps) = (c :: cur) :: ps.map (fun p => strip (stretch p.width p.row)) := by
  induction ps generalizing c cur z with
  | nil =>
    rw [labelLine, ← List.append_nil (List.replicate r 0), piecesFrom_zeros, piecesFrom, List.map_nil]
  | cons p ps ih =>
    obtain ⟨k, s, h⟩ := hd p (by simp)
    obtain ⟨h1, h2⟩ := hw p (by simp)
    obtain ⟨us, y, e1, e2, e3, e4⟩ := printed_core b k s p.row h p.width n h1 h2
    obtain ⟨d, hd'⟩ := paint_head us (by rintro rfl; simp at e2) (fun u h => (e3 u h).1)
    rw [labelLine, List.append_assoc, piecesFrom_zeros, e1, List.append_assoc,
      (piecesFrom_symbol n us e2 e3 hn _ _).2 c cur (by have := hg p (by simp); omega), piecesFrom_zeros, hd',
      ih (fun p hp => hd p (by simp [hp])) (fun p hp => hw p (by simp [hp])) (fun p hp => hg p (by simp [hp])),
      List.map_cons, e4, hd']

/-- C92. A label with any number of symbols of any kinds and module widths, cut at gaps wider than four modules of each:
the pieces are the symbols, in order, and each of them can be read. -/
theorem C92_pieces {α : Type} (b : Build) (n r : Nat) (ps : List Printed) (hd : ∀ p ∈ ps, ∃ k s, Drawn b k s p.row)
    (hw : ∀ p ∈ ps, 0 < p.width ∧ 4 * p.width < n) (hg : ∀ p ∈ ps.tail, n ≤ p.gap) :
    (pieces n (labelLine r ps)).length = ps.length ∧
    ∀ (i : Nat) (p : Printed), ps[i]? = some p → ∃ piece, (pieces n (labelLine r ps))[i]? = some piece ∧
      ∀ (scan : List Nat → Option α) t, Readable scan p.row t → ReadsBoth scan piece t := by
  have hp : pieces n (labelLine r ps) = ps.map (fun p => strip (stretch p.width p.row)) := by
    cases ps with
    | nil =>
      rw [pieces, labelLine, ← List.append_nil (List.replicate r 0), piecesFrom_zeros, piecesFrom, List.map_nil]
    | cons p ps =>
      obtain ⟨k, s, h⟩ := hd p (by simp)
      obtain ⟨h1, h2⟩ := hw p (by simp)
      obtain ⟨us, y, e1, e2, e3, e4⟩ := printed_core b k s p.row h p.width n h1 h2
      obtain ⟨d, hd'⟩ := paint_head us (by rintro rfl; simp at e2) (fun u h => (e3 u h).1)
      rw [pieces, labelLine, List.append_assoc, piecesFrom_zeros, e1, List.append_assoc,
        (piecesFrom_symbol n us e2 e3 (by omega) _ _).1, piecesFrom_zeros, hd',
        piecesFrom_label b n r ps (by omega) (fun p hp => hd p (by simp [hp])) (fun p hp => hw p (by simp [hp]))
          (fun p hp => hg p (by simpa using hp)), List.map_cons, e4, hd']
  rw [hp]
  refine ⟨by simp, fun i p hi => ⟨_, by rw [List.getElem?_map, hi]; rfl, fun scan t hr => ?_⟩⟩
  have hm := List.mem_of_getElem? hi
  obtain ⟨k, s, h⟩ := hd p hm
  obtain ⟨h1, h2⟩ := hw p hm
  obtain ⟨us, y, e1, e2, e3, e4⟩ := printed_core b k s p.row h p.width n h1 h2
  obtain ⟨r1, r2⟩ := hr 0 p.width 0 h1
  have hp0 : onPaper 0 p.width 0 p.row = List.replicate 0 0 ++ paint us ++ List.replicate y 0 := by
    rw [onPaper, e1]; simp
  rw [hp0] at r1 r2
  show ReadsBoth scan (strip (stretch p.width p.row)) t
  rw [e4]
  have hne : us ≠ [] := by rintro rfl; simp at e2
  obtain ⟨c, hc⟩ := paint_head us hne (fun u h => (e3 u h).1)
  obtain ⟨d, hd'⟩ := paint_head us.reverse (by simpa using hne) (fun u h => (e3 u (List.mem_reverse.mp h)).1)
  have hd'' : (paint us).reverse = 1 :: d := by rw [paint_reverse_odd us e2, hd']
  obtain ⟨f1, f2⟩ := handScan_core scan (paint us) c d hc hd'' 0 y
  rw [f1] at r1
  rw [f2] at r2
  exact ⟨r1, r2⟩

/-- A label with an EAN-8, two cells per module, and a Code 39, three cells per module: 13 light cells between them. -/
example : ∃ m1 m2, Drawn .debug .ean8 "5512345".toList m1 ∧ Drawn .debug .code39 "A".toList m2 ∧
    (pieces 13 (labelLine 9 [⟨4, 2, m1⟩, ⟨13, 3, m2⟩])).map (handScan scanEan8) = [some [5, 5, 1, 2, 3, 4, 5, 7], none] ∧
    (pieces 13 (labelLine 9 [⟨4, 2, m1⟩, ⟨13, 3, m2⟩])).map (handScan scanCode39) = [none, some "A".toList] :=
  ⟨_, _, ⟨_, rfl, rfl⟩, ⟨_, Or.inl rfl, rfl⟩, by decide +kernel, by decide +kernel⟩

/-- C92. Four modules of white are too few: there are symbols that contain as much, and they would be cut. -/
theorem C92_gap_needed : ∃ ms, Drawn .debug .ean8 "0000333".toList ms ∧ (pieces 5 (labelLine 0 [⟨0, 1, ms⟩])).length = 1 ∧
    (pieces 4 (labelLine 0 [⟨0, 1, ms⟩])).length = 4 :=
  ⟨_, ⟨_, rfl, rfl⟩, by decide +kernel, by decide +kernel⟩

end Barcoders
