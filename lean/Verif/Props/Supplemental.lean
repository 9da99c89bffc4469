import Verif.Props.Distance
import Verif.Props.Reversal

/-!
# Supplementals, Codabar and Code 11: misread modules and mirror images (C34, C47)
-/

set_option autoImplicit false

namespace Barcoders
open Spec

/-- What the add-on scanner makes of any sets and digits. -/
theorem scanAddOn_paint_if (ps : List (Bool × Nat)) (h : ∀ p ∈ ps, p.2 < 10) (h0 : ps ≠ []) :
    scanAddOn (paint (suppWidths ps)) =
      if addOnOk (ps.map Prod.fst) (ps.map Prod.snd) = true then some (ps.map Prod.snd) else none := by
  match ps, h0 with
  | p :: ps, _ =>
    rw [scanAddOn, elements_paint _ (fun w hw => (suppWidths_pos _ h w hw).1) (by simp [suppWidths]), Option.bind_some,
      suppWidths, readAddOn]
    have h1 := readN_append 4 readAB wAB id [p] (ps.flatMap (fun q => [1, 1] ++ wAB q))
      (by intro q hq; rw [List.mem_singleton] at hq; subst hq; exact wAB_spec q.2 (h q (by simp)) q.1)
    have h2 := readAll_flatMap 6 (by omega) readAddOnDigit (fun q => [1, 1] ++ wAB q) id ps
      (by
        intro q hq
        have := wAB_spec q.2 (h q (by simp [hq])) q.1
        refine ⟨by rw [List.length_append, this.1]; rfl, ?_⟩
        rw [readAddOnDigit, expect_append, Option.bind_some, this.2]; rfl)
    simp only [List.length_singleton, List.flatMap_cons, List.flatMap_nil, List.append_nil, List.map_id] at h1 h2
    simp only [expect_append, Option.bind_eq_bind, Option.bind_some, h1, h2, List.singleton_append]

/-- The symbol of every accepted add-on, with its sets. -/
theorem supp_symbol_sets (s : List Char) (x : EanSupp.EANSUPP) (h : EanSupp.new s = .ok x) :
    ∃ ws, (∀ b, EanSupp.encode b x = .ok (paint (suppWidths ws))) ∧ (ws.length = 2 ∨ ws.length = 5) ∧
      ws.length = s.length ∧ (∀ p ∈ ws, p.2 < 10) ∧ addOnOk (ws.map Prod.fst) (ws.map Prod.snd) = true := by
  obtain ⟨ws, h1, h2, h3, h4, h5, h6⟩ := supp_symbol s x h
  refine ⟨ws, h1, by omega, h2, h3, ?_⟩
  rw [scanAddOn_paint_if ws h3 (by rintro rfl; simp at h2; omega)] at h4
  split at h4
  · assumption
  · cases h4

theorem wAB_four (p : Bool × Nat) (h : p.2 < 10) : ∃ a b c d, wAB p = [a, b, c, d] := by
  have := (wAB_spec p.2 h p.1).1
  match hp : wAB p, this with
  | [a, b, c, d], _ => exact ⟨a, b, c, d, rfl⟩

theorem wAB_end112 : ∀ d < 10, ∀ q, (wAB (q, d)).reverse.take 3 = [1, 1, 2] → q = false ∧ d = 0 ∧ (wAB (q, d)).reverse.drop 3 = [3] := by
  decide

theorem wAB_end211 : ∀ d < 10, ∀ q, (wAB (q, d)).reverse.take 3 = [2, 1, 1] → q = false ∧ d = 9 ∧ (wAB (q, d)).reverse.drop 3 = [3] := by
  decide

theorem wAB_start311 : ∀ d < 10, ∀ q, (wAB (q, d)).take 3 = [3, 1, 1] → (wAB (q, d)).drop 3 = [2] := by decide

theorem supp_widths_odd (ws : List (Bool × Nat)) (h : ∀ p ∈ ws, p.2 < 10) (h0 : ws ≠ []) : (suppWidths ws).length % 2 = 1 := by
  match ws, h0 with
  | p :: ps, _ =>
    have hl := flatMap_length 6 (fun q => [1, 1] ++ wAB q) ps (fun q hq => by
      rw [List.length_append, (wAB_spec q.2 (h q (by simp [hq])) q.1).1]; rfl)
    rw [suppWidths, List.length_append, List.length_append, (wAB_spec p.2 (h p (by simp)) p.1).1, hl]
    simp
    omega

/-- C34. No accepted supplemental symbol is another one read backwards. -/
theorem C34_supp_not_reversed (b b' : Build) (s t : List Char) (x y : EanSupp.EANSUPP) (ms : List Nat)
    (hx : EanSupp.new s = .ok x) (hy : EanSupp.new t = .ok y) (ex : EanSupp.encode b x = .ok ms) :
    EanSupp.encode b' y ≠ .ok ms.reverse := by
  intro ey
  obtain ⟨ws, e1, l1, k1, d1, ok1⟩ := supp_symbol_sets s x hx
  obtain ⟨vs, e2, l2, k2, d2, ok2⟩ := supp_symbol_sets t y hy
  rw [e1, Outcome.ok.injEq] at ex
  subst ex
  rw [e2, Outcome.ok.injEq] at ey
  have n1 : ws ≠ [] := by rintro rfl; simp at l1
  have n2 : vs ≠ [] := by rintro rfl; simp at l2
  have h := reversed_widths (suppWidths vs) (suppWidths ws) 4 (suppWidths_pos vs d2) (suppWidths_pos ws d1)
    (supp_widths_odd ws d1 n1) (by obtain ⟨p, ps, rfl⟩ := List.exists_cons_of_ne_nil n2; simp [suppWidths]) ey
  have hlen := congrArg List.length ey
  rw [List.length_reverse, (suppWidths_row vs d2 n2).length, (suppWidths_row ws d1 n1).length] at hlen
  rcases l1 with l1 | l1
  · match ws, vs, l1, (show vs.length = 2 by omega) with
    | [(g1, p1), (g2, p2)], [(j1, q1), (j2, q2)], _, _ =>
      obtain ⟨a1, b1, c1, f1, w1⟩ := wAB_four (g1, p1) (d1 _ (by simp))
      obtain ⟨a2, b2, c2, f2, w2⟩ := wAB_four (g2, p2) (d1 _ (by simp))
      obtain ⟨a3, b3, c3, f3, w3⟩ := wAB_four (j1, q1) (d2 _ (by simp))
      obtain ⟨a4, b4, c4, f4, w4⟩ := wAB_four (j2, q2) (d2 _ (by simp))
      have k2 := wAB_end112 p2 (d1 (g2, p2) (by simp)) g2
      have k1 := wAB_end211 p1 (d1 (g1, p1) (by simp)) g1
      have k3 := wAB_start311 q1 (d2 (j1, q1) (by simp)) j1
      simp only [w1, w2, w3, w4, suppWidths, List.flatMap_cons, List.flatMap_nil, List.append_nil,
        List.cons_append, List.nil_append, List.reverse_cons, List.reverse_nil, List.cons.injEq, List.take_succ_cons,
        List.take_zero, List.drop_succ_cons, List.drop_zero, and_true] at h k1 k2 k3
      obtain ⟨rfl, rfl, rfl, rfl, rfl, rfl, rfl, rfl, rfl, h⟩ := h
      obtain ⟨rfl, rfl, rfl⟩ := k2 ⟨rfl, rfl, rfl⟩
      cases k3 ⟨rfl, rfl, rfl⟩
      obtain ⟨rfl, rfl, -⟩ := k1 ⟨rfl, rfl, rfl⟩
      revert ok1
      decide
  · match ws, vs, l1, (show vs.length = 5 by omega) with
    | [(g1, p1), (g2, p2), (g3, p3), (g4, p4), (g5, p5)], [(j1, q1), (j2, q2), (j3, q3), (j4, q4), (j5, q5)], _, _ =>
      obtain ⟨a1, b1, c1, f1, w1⟩ := wAB_four (g1, p1) (d1 _ (by simp))
      obtain ⟨a2, b2, c2, f2, w2⟩ := wAB_four (g2, p2) (d1 _ (by simp))
      obtain ⟨a3, b3, c3, f3, w3⟩ := wAB_four (g3, p3) (d1 _ (by simp))
      obtain ⟨a4, b4, c4, f4, w4⟩ := wAB_four (g4, p4) (d1 _ (by simp))
      obtain ⟨a5, b5, c5, f5, w5⟩ := wAB_four (g5, p5) (d1 _ (by simp))
      obtain ⟨a6, b6, c6, f6, w6⟩ := wAB_four (j1, q1) (d2 _ (by simp))
      obtain ⟨a7, b7, c7, f7, w7⟩ := wAB_four (j2, q2) (d2 _ (by simp))
      obtain ⟨a8, b8, c8, f8, w8⟩ := wAB_four (j3, q3) (d2 _ (by simp))
      obtain ⟨a9, b9, c9, f9, w9⟩ := wAB_four (j4, q4) (d2 _ (by simp))
      obtain ⟨a10, b10, c10, f10, w10⟩ := wAB_four (j5, q5) (d2 _ (by simp))
      have k5 := wAB_end112 p5 (d1 (g5, p5) (by simp)) g5
      have k4 := wAB_end211 p4 (d1 (g4, p4) (by simp)) g4
      have k3 := wAB_end211 p3 (d1 (g3, p3) (by simp)) g3
      have k2 := wAB_end211 p2 (d1 (g2, p2) (by simp)) g2
      have k1 := wAB_end211 p1 (d1 (g1, p1) (by simp)) g1
      have m1 := wAB_start311 q1 (d2 (j1, q1) (by simp)) j1
      have m2 := wAB_start311 q2 (d2 (j2, q2) (by simp)) j2
      have m3 := wAB_start311 q3 (d2 (j3, q3) (by simp)) j3
      have m4 := wAB_start311 q4 (d2 (j4, q4) (by simp)) j4
      simp only [w1, w2, w3, w4, w5, w6, w7, w8, w9, w10, suppWidths, List.flatMap_cons, List.flatMap_nil, List.append_nil,
        List.cons_append, List.nil_append, List.reverse_cons, List.reverse_nil, List.cons.injEq, List.take_succ_cons,
        List.take_zero, List.drop_succ_cons, List.drop_zero, and_true] at h k1 k2 k3 k4 k5 m1 m2 m3 m4
      obtain ⟨rfl, rfl, rfl, rfl, rfl, rfl, rfl, rfl, rfl, rfl, rfl, rfl, rfl, rfl, rfl, rfl, rfl, rfl, rfl, rfl, rfl, rfl,
        rfl, rfl, rfl, rfl, rfl, h⟩ := h
      obtain ⟨rfl, rfl, rfl⟩ := k5 ⟨rfl, rfl, rfl⟩
      cases m1 ⟨rfl, rfl, rfl⟩
      obtain ⟨rfl, rfl, rfl⟩ := k4 ⟨rfl, rfl, rfl⟩
      cases m2 ⟨rfl, rfl, rfl⟩
      obtain ⟨rfl, rfl, rfl⟩ := k3 ⟨rfl, rfl, rfl⟩
      cases m3 ⟨rfl, rfl, rfl⟩
      obtain ⟨rfl, rfl, rfl⟩ := k2 ⟨rfl, rfl, rfl⟩
      cases m4 ⟨rfl, rfl, rfl⟩
      obtain ⟨rfl, rfl, -⟩ := k1 ⟨rfl, rfl, rfl⟩
      revert ok1
      decide

example : ∃ x ms, EanSupp.new "11".toList = .ok x ∧ EanSupp.encode .debug x = .ok ms ∧ scanAddOn ms = some [1, 1] ∧
    scanAddOn ms.reverse = none := ⟨_, _, rfl, rfl, by decide +kernel⟩

/-! ## Misread modules: supplementals -/

/-- Distance of two digits with their sets. -/
def digitDist (p q : Bool × Nat) : Nat := dist (paintFrom 0 (wAB p)) (paintFrom 0 (wAB q))

theorem paint_supp (p : Bool × Nat) (ps : List (Bool × Nat)) (h : ∀ q ∈ p :: ps, q.2 < 10) :
    paint (suppWidths (p :: ps)) =
      [1, 0, 1, 1] ++ (paintFrom 0 (wAB p) ++ ps.flatMap (fun q => [0, 1] ++ paintFrom 0 (wAB q))) := by
  have l4 : ∀ q ∈ p :: ps, (wAB q).length = 4 := fun q hq => (wAB_spec q.2 (h q hq) q.1).1
  rw [suppWidths, paint, paintFrom_append_odd 1 (by omega) _ _ rfl,
    paintFrom_append_even _ (by omega) _ _ (by rw [l4 p (by simp)]), paintFrom_flatMap _ (by omega)]
  · rfl
  · intro q hq
    rw [List.length_append, l4 q (by simp [hq])]
    rfl

theorem supp_dist (p q : Bool × Nat) (ps qs : List (Bool × Nat)) (h : ∀ a ∈ p :: ps, a.2 < 10) (h' : ∀ a ∈ q :: qs, a.2 < 10)
    (hl : ps.length = qs.length) :
    dist (paint (suppWidths (p :: ps))) (paint (suppWidths (q :: qs))) =
      (((p :: ps).zip (q :: qs)).map (fun a => digitDist a.1 a.2)).sum := by
  have l7 : ∀ a : Bool × Nat, a.2 < 10 → (paintFrom 0 (wAB a)).length = 7 := fun a ha => wAB_module_length 0 a ha
  rw [paint_supp p ps h, paint_supp q qs h', dist_append _ _ _ _ rfl, dist_append _ _ _ _ (by
    rw [l7 p (h p (by simp)), l7 q (h' q (by simp))]), dist_flatMap 9 _ ps qs
    (fun a ha => by rw [List.length_append, l7 a (h a (by simp [ha]))]; rfl)
    (fun a ha => by rw [List.length_append, l7 a (h' a (by simp [ha]))]; rfl) hl, List.zip_cons_cons, List.map_cons,
    List.sum_cons, dist_self, Nat.zero_add]
  congr 2

theorem ean5Sets_dist : ∀ n < 10, ∀ m < 10, n ≠ m → 2 ≤ setDist (ean5Sets.getD n []) (ean5Sets.getD m []) := by decide

theorem digitDist_set (p q : Bool × Nat) (hp : p.2 < 10) (hq : q.2 < 10) (h : p.1 ≠ q.1) : 1 ≤ digitDist p q :=
  (mAB_dist p.1 q.1 p.2 hp q.2 hq (by simp [h])).1

theorem digitDist_same (p q : Bool × Nat) (hp : p.2 < 10) (hq : q.2 < 10) (h : p.1 = q.1) (hne : p ≠ q) : 2 ≤ digitDist p q :=
  (mAB_dist p.1 q.1 p.2 hp q.2 hq hne).2 h

theorem digits_setDist (ps qs : List (Bool × Nat)) (h : ∀ a ∈ ps, a.2 < 10) (h' : ∀ a ∈ qs, a.2 < 10) :
    setDist (ps.map Prod.fst) (qs.map Prod.fst) ≤ ((ps.zip qs).map (fun a => digitDist a.1 a.2)).sum := by
  induction ps generalizing qs with
  | nil => simp [setDist]
  | cons p ps ih =>
    cases qs with
    | nil => simp [setDist]
    | cons q qs =>
      have := ih qs (fun a ha => h a (by simp [ha])) (fun a ha => h' a (by simp [ha]))
      rw [List.map_cons, List.map_cons, setDist, List.zip_cons_cons, List.map_cons, List.sum_cons]
      by_cases hs : p.1 = q.1
      · rw [if_pos hs]; omega
      · rw [if_neg hs]
        have := digitDist_set p q (h p (by simp)) (h' q (by simp)) hs
        simp only; omega

theorem digits_same (ps qs : List (Bool × Nat)) (h : ∀ a ∈ ps, a.2 < 10) (h' : ∀ a ∈ qs, a.2 < 10)
    (hs : ps.map Prod.fst = qs.map Prod.fst) (hne : ps ≠ qs) : 2 ≤ ((ps.zip qs).map (fun a => digitDist a.1 a.2)).sum := by
  induction ps generalizing qs with
  | nil =>
    cases qs with
    | nil => exact absurd rfl hne
    | cons => simp at hs
  | cons p ps ih =>
    cases qs with
    | nil => simp at hs
    | cons q qs =>
      rw [List.map_cons, List.map_cons, List.cons.injEq] at hs
      rw [List.zip_cons_cons, List.map_cons, List.sum_cons]
      by_cases hpq : p = q
      · have := ih qs (fun a ha => h a (by simp [ha])) (fun a ha => h' a (by simp [ha])) hs.2 (by
          rintro rfl; exact hne (by rw [hpq]))
        omega
      · have := digitDist_same p q (h p (by simp)) (h' q (by simp)) hs.1 hpq
        simp only; omega

/-- C47. Two EAN-5 symbols never differ in exactly one module. -/
theorem C47_ean5_distance (b b' : Build) (s t : List Char) (x y : EanSupp.EANSUPP) (ms ms' : List Nat)
    (hx : EanSupp.new s = .ok x) (hy : EanSupp.new t = .ok y) (ex : EanSupp.encode b x = .ok ms)
    (ey : EanSupp.encode b' y = .ok ms') (h5 : s.length = 5) : ¬ DifferIn 1 ms ms' := by
  refine not_differ_one _ _ fun hne hlen => ?_
  obtain ⟨ws, e1, l1, k1, d1, ok1⟩ := supp_symbol_sets s x hx
  obtain ⟨vs, e2, l2, k2, d2, ok2⟩ := supp_symbol_sets t y hy
  rw [e1, Outcome.ok.injEq] at ex
  rw [e2, Outcome.ok.injEq] at ey
  subst ex ey
  have n1 : ws ≠ [] := by rintro rfl; simp at l1
  have n2 : vs ≠ [] := by rintro rfl; simp at l2
  rw [(suppWidths_row vs d2 n2).length, (suppWidths_row ws d1 n1).length] at hlen
  obtain ⟨p, ps, rfl⟩ := List.exists_cons_of_ne_nil n1
  obtain ⟨q, qs, rfl⟩ := List.exists_cons_of_ne_nil n2
  rw [supp_dist p q ps qs d1 d2 (by simp at hlen; omega)]
  have hne' : p :: ps ≠ q :: qs := fun h => hne (by rw [h])
  by_cases hs : (p :: ps).map Prod.fst = (q :: qs).map Prod.fst
  · have := digits_same _ _ d1 d2 hs hne'
    omega
  · have key : ∀ ws : List (Bool × Nat), ws.length = 5 → addOnOk (ws.map Prod.fst) (ws.map Prod.snd) = true →
        ∃ n < 10, ws.map Prod.fst = ean5Sets.getD n [] := by
      intro ws hl hok
      match ws, hl with
      | [x1, x2, x3, x4, x5], _ =>
        simp only [List.map_cons, List.map_nil, addOnOk, beq_iff_eq] at hok ⊢
        refine ⟨(3 * x1.snd + 9 * x2.snd + 3 * x3.snd + 9 * x4.snd + 3 * x5.snd) % 10, Nat.mod_lt _ (by omega), ?_⟩
        rw [List.getD, hok]
        rfl
    obtain ⟨n, hn, e1⟩ := key _ (k1.trans h5) ok1
    obtain ⟨m, hm, e2⟩ := key _ (show (q :: qs).length = 5 by rw [k1, h5] at hlen; omega) ok2
    have := digits_setDist _ _ d1 d2
    have h2 := ean5Sets_dist n hn m hm (by rintro rfl; exact hs (e1.trans e2.symm))
    rw [← e1, ← e2] at h2
    omega

example : ∃ ms ms', (EanSupp.new "00000".toList >>= EanSupp.encode .debug) = .ok ms ∧
    (EanSupp.new "00001".toList >>= EanSupp.encode .debug) = .ok ms' ∧ ms.length = ms'.length ∧ ¬ DifferIn 1 ms ms' ∧ ms ≠ ms' :=
  ⟨_, _, rfl, rfl, by decide, by rintro ⟨-, h⟩; revert h; decide, by decide⟩

/-- C47. The EAN-2 symbols of 23 and 93 differ in exactly one module. -/
theorem C47_ean2_clash : ∃ (x y : EanSupp.EANSUPP) (ms ms' : List Nat),
    EanSupp.new "23".toList = .ok x ∧ EanSupp.new "93".toList = .ok y ∧
    (∀ b, EanSupp.encode b x = .ok ms) ∧ (∀ b, EanSupp.encode b y = .ok ms') ∧ DifferIn 1 ms ms' := by
  refine ⟨_, _, _, _, rfl, rfl, fun b => by cases b <;> rfl, fun b => by cases b <;> rfl, by decide, by decide⟩

/-! ## Misread modules: characters of different lengths -/

theorem dist_mono (u v u' v' : List Nat) : dist u v ≤ dist (u ++ u') (v ++ v') := by
  induction u generalizing v with
  | nil => simp [dist]
  | cons x u ih =>
    cases v with
    | nil => simp [dist]
    | cons y v =>
      have := ih v
      unfold dist at this ⊢
      simp only [List.cons_append, List.zip_cons_cons, List.countP_cons]
      omega

theorem dist_comm (u v : List Nat) : dist u v = dist v u := by
  induction u generalizing v with
  | nil => cases v <;> rfl
  | cons x u ih =>
    cases v with
    | nil => rfl
    | cons y v =>
      have := ih v
      unfold dist at this ⊢
      simp only [List.zip_cons_cons, List.countP_cons, this, bne_iff_ne, ne_eq, eq_comm (a := x)]

/-- A set of codewords that all start with a bar, in which equally long ones differ, and a shorter one followed by a bar differs
twice from a longer one. -/
structure Codewords {α : Type} (f : α → List Nat) (A : List α) : Prop where
  head : ∀ a ∈ A, (f a).head? = some 1
  same : ∀ a ∈ A, ∀ c ∈ A, a ≠ c → (f a).length = (f c).length → 1 ≤ dist (f a) (f c)
  less : ∀ a ∈ A, ∀ c ∈ A, (f a).length < (f c).length → 2 ≤ dist (f a ++ [1]) (f c)

theorem Codewords.less_row {α : Type} {f : α → List Nat} {A : List α} (h : Codewords f A) (a c : α) (l m : List α)
    (ha : a ∈ A) (hc : c ∈ A) (hl : ∀ x ∈ l, x ∈ A) (hlt : (f a).length < (f c).length)
    (hlen : ((a :: l).flatMap f).length = ((c :: m).flatMap f).length) :
    2 ≤ dist ((a :: l).flatMap f) ((c :: m).flatMap f) := by
  match l, hl, hlen with
  | [], _, hlen => simp at hlen; omega
  | x :: l, hl, _ =>
    have h1 := h.head x (hl x (by simp))
    obtain ⟨r, hr⟩ : ∃ r, f x = 1 :: r := by
      cases hx : f x with
      | nil => rw [hx] at h1; cases h1
      | cons y r => rw [hx] at h1; cases h1; exact ⟨r, rfl⟩
    have h2 := h.less a ha c hc hlt
    have h3 := dist_mono (f a ++ [1]) (f c) (r ++ l.flatMap f) (m.flatMap f)
    simp only [List.flatMap_cons, hr]
    simp only [List.append_assoc, List.cons_append, List.nil_append] at h3 ⊢
    omega

theorem Codewords.pos {α : Type} [DecidableEq α] {f : α → List Nat} {A : List α} (h : Codewords f A) (l m : List α)
    (hl : ∀ x ∈ l, x ∈ A) (hm : ∀ x ∈ m, x ∈ A) (hlen : (l.flatMap f).length = (m.flatMap f).length) (hne : l ≠ m) :
    1 ≤ dist (l.flatMap f) (m.flatMap f) := by
  induction l generalizing m with
  | nil =>
    cases m with
    | nil => exact absurd rfl hne
    | cons c m =>
      have := h.head c (hm c (by simp))
      have h0 : f c = [] := by
        simp only [List.flatMap_nil, List.length_nil, List.flatMap_cons, List.length_append] at hlen
        exact List.length_eq_zero_iff.mp (by omega)
      rw [h0] at this
      cases this
  | cons a l ih =>
    cases m with
    | nil =>
      have := h.head a (hl a (by simp))
      have h0 : f a = [] := by
        simp only [List.flatMap_nil, List.length_nil, List.flatMap_cons, List.length_append] at hlen
        exact List.length_eq_zero_iff.mp (by omega)
      rw [h0] at this
      cases this
    | cons c m =>
      rcases Nat.lt_trichotomy (f a).length (f c).length with hlt | heq | hgt
      · have := h.less_row a c l m (hl a (by simp)) (hm c (by simp)) (fun x hx => hl x (by simp [hx])) hlt hlen
        omega
      · rw [List.flatMap_cons, List.flatMap_cons, dist_append _ _ _ _ heq]
        by_cases hac : a = c
        · have := ih m (fun x hx => hl x (by simp [hx])) (fun x hx => hm x (by simp [hx])) (by
            simp only [List.flatMap_cons, List.length_append] at hlen; omega) (by rintro rfl; exact hne (by rw [hac]))
          omega
        · have := h.same a (hl a (by simp)) c (hm c (by simp)) hac heq
          omega
      · have := h.less_row c a m l (hm c (by simp)) (hl a (by simp)) (fun x hx => hm x (by simp [hx])) hgt hlen.symm
        rw [dist_comm] at this
        omega

/-- Rows of such codewords of the same length differ twice unless they agree in all codewords but one. -/
theorem Codewords.two {α : Type} [DecidableEq α] {f : α → List Nat} {A : List α} (h : Codewords f A) (l m : List α)
    (hl : ∀ x ∈ l, x ∈ A) (hm : ∀ x ∈ m, x ∈ A) (hlen : (l.flatMap f).length = (m.flatMap f).length) (hne : l ≠ m) :
    2 ≤ dist (l.flatMap f) (m.flatMap f) ∨
      ∃ p q a c, l = p ++ a :: q ∧ m = p ++ c :: q ∧ a ≠ c ∧ (f a).length = (f c).length := by
  induction l generalizing m with
  | nil =>
    exfalso
    have h0 := h.pos [] m hl hm hlen hne
    simp [dist] at h0
  | cons a l ih =>
    cases m with
    | nil =>
      exfalso
      have h0 := h.pos (a :: l) [] hl hm hlen hne
      simp [dist] at h0
    | cons c m =>
      have hlA : ∀ x ∈ l, x ∈ A := fun x hx => hl x (by simp [hx])
      have hmA : ∀ x ∈ m, x ∈ A := fun x hx => hm x (by simp [hx])
      rcases Nat.lt_trichotomy (f a).length (f c).length with hlt | heq | hgt
      · exact Or.inl (h.less_row a c l m (hl a (by simp)) (hm c (by simp)) hlA hlt hlen)
      · have hlen' : (l.flatMap f).length = (m.flatMap f).length := by
          simp only [List.flatMap_cons, List.length_append] at hlen; omega
        rw [List.flatMap_cons, List.flatMap_cons, dist_append _ _ _ _ heq]
        by_cases hac : a = c
        · subst hac
          rcases ih m hlA hmA hlen' (by rintro rfl; exact hne rfl) with h2 | ⟨p, q, a', c', rfl, rfl, h3, h4⟩
          · left; omega
          · exact Or.inr ⟨a :: p, q, a', c', rfl, rfl, h3, h4⟩
        · have h1 := h.same a (hl a (by simp)) c (hm c (by simp)) hac heq
          by_cases hlm : l = m
          · subst hlm
            exact Or.inr ⟨[], l, a, c, rfl, rfl, hac, heq⟩
          · have h2 := h.pos l m hlA hmA hlen' hlm
            left; omega
      · left
        rw [dist_comm]
        exact h.less_row c a m l (hm c (by simp)) (hl a (by simp)) hmA hgt hlen.symm

/-- A Codabar character and its gap. -/
def fCb (c : Char) : List Nat := paintFrom 1 (wU (unitOf c) ++ [1])

theorem fCb_codewords : Codewords fCb codabarAlphabet := ⟨by decide, by decide +kernel, by decide +kernel⟩

theorem fCb_two : ∀ a ∈ codabarAlphabet, ∀ c ∈ codabarAlphabet, a ≠ c → (fCb a).length = (fCb c).length →
    2 ≤ dist (fCb a) (fCb c) := by decide +kernel

theorem codabar_paint_gap (cs : List Char) (c : Char) :
    paint (codabarSymWidths (cs.map unitOf) (unitOf c)) ++ [0] = (cs ++ [c]).flatMap fCb := by
  have h8 : ∀ u, (wU u ++ [1]).length = 8 := fun u => by rw [List.length_append, (wU_spec u).2.1]; rfl
  have h1 : paint (codabarSymWidths (cs.map unitOf) (unitOf c)) ++ [0] =
      paintFrom 1 ((cs ++ [c]).flatMap (fun c => wU (unitOf c) ++ [1])) := by
    rw [List.flatMap_append, codabarSymWidths, List.flatMap_map, List.flatMap_singleton, paint]
    rw [← List.append_assoc, paintFrom_append_odd 1 (by omega) _ [1]]
    · rfl
    · rw [List.length_append, (wU_spec (unitOf c)).2.1, flatMap_length 8 _ _ (fun c _ => h8 (unitOf c))]
      omega
  rw [h1, paintFrom_flatMap 1 (by omega) _ _ (fun c _ => by rw [h8])]
  rfl

/-- C47. Two Codabar symbols never differ in exactly one module. -/
theorem C47_codabar_distance (s t : List Char) (x y : Codabar.Codabar) (hx : Codabar.new s = .ok x) (hy : Codabar.new t = .ok y) :
    ¬ DifferIn 1 (Codabar.encode x) (Codabar.encode y) := by
  refine not_differ_one _ _ fun hne hlen => ?_
  obtain ⟨cs, c, rfl, hA, e1⟩ := codabar_symbol s x hx
  obtain ⟨ds, d, rfl, hB, e2⟩ := codabar_symbol t y hy
  rw [e1, e2] at hne hlen ⊢
  have h0 := dist_append _ _ [0] [0] hlen
  have hl2 := congrArg (· + 1) hlen
  rw [codabar_paint_gap, codabar_paint_gap, dist_self] at h0
  have hl3 : ((cs ++ [c]).flatMap fCb).length = ((ds ++ [d]).flatMap fCb).length := by
    rw [← codabar_paint_gap, ← codabar_paint_gap]; simpa using hlen
  have hne2 : cs ++ [c] ≠ ds ++ [d] := by
    intro h
    obtain ⟨h1, h2⟩ := List.append_inj' h rfl
    rw [List.singleton_inj] at h2
    exact hne (by rw [h1, h2])
  rcases fCb_codewords.two _ _ hA hB hl3 hne2 with h2 | ⟨p, q, a, e, h3, h4, h5, h6⟩
  · omega
  · rw [h3, h4, List.flatMap_append, List.flatMap_append, dist_append _ _ _ _ rfl, List.flatMap_cons, List.flatMap_cons,
      dist_append _ _ _ _ h6] at h0
    have := fCb_two a (hA a (by rw [h3]; simp)) e (hB e (by rw [h4]; simp)) h5 h6
    omega

example : ∃ x y, Codabar.new "0".toList = .ok x ∧ Codabar.new "1".toList = .ok y ∧ DifferIn 2 (Codabar.encode x) (Codabar.encode y) :=
  ⟨_, _, rfl, rfl, by decide, by decide⟩

/-- A Code 11 character and its gap. -/
def fC11 (c : Char) : List Nat := paintFrom 1 (w11 c ++ [1])

theorem fC11_codewords : Codewords fC11 ('*' :: code11Alphabet) := ⟨by decide, by decide, by decide⟩

theorem code11_paint_gap (t : List Char) (h : ∀ c ∈ t, c ∈ code11Alphabet) :
    paint (code11SymWidths t) = fC11 '*' ++ (t.flatMap fC11 ++ paintFrom 1 (w11 '*')) := by
  have hm := star_cons_mem _ _ h
  have h6 : ∀ c ∈ '*' :: t, (w11 c ++ [1]).length % 2 = 0 := fun c hc => by
    rw [List.length_append, (w11_spec c (hm c hc)).1]; rfl
  rw [code11SymWidths, paint, paintFrom_append_even 1 (by omega), paintFrom_flatMap 1 (by omega) _ _ h6, List.flatMap_cons,
    List.append_assoc]
  · rfl
  · rw [flatMap_length 6 _ _ (fun c hc => by rw [List.length_append, (w11_spec c (hm c hc)).1]; rfl)]
    omega

/-- C47. Two Code 11 symbols never differ in exactly one module: the check character sees to it. -/
theorem C47_code11_distance (s t : List Char) (x y : Code11.Code11) (ms ms' : List Nat) (hx : Code11.new s = .ok x)
    (hy : Code11.new t = .ok y) (ex : Code11.encode x = .ok ms) (ey : Code11.encode y = .ok ms') : ¬ DifferIn 1 ms ms' := by
  refine not_differ_one _ _ fun hne hlen => ?_
  obtain ⟨hA, e1⟩ := code11_symbol s x hx
  obtain ⟨hB, e2⟩ := code11_symbol t y hy
  have hAs := (code11_new_ok s x hx).2
  rw [e1, Outcome.ok.injEq] at ex
  rw [e2, Outcome.ok.injEq] at ey
  subst ex ey
  have hne2 : code11Text s ≠ code11Text t := fun h => hne (by rw [h])
  rw [code11_paint_gap _ hA, code11_paint_gap _ hB] at hlen ⊢
  have hl3 : ((code11Text s).flatMap fC11).length = ((code11Text t).flatMap fC11).length := by
    simp only [List.length_append] at hlen; omega
  rw [dist_append _ _ _ _ rfl, dist_append _ _ _ _ hl3, dist_self, dist_self]
  rcases fC11_codewords.two _ _ (fun c hc => List.mem_cons_of_mem _ (hA c hc)) (fun c hc => List.mem_cons_of_mem _ (hB c hc))
    hl3 hne2 with h2 | ⟨p, q, a, e, h3, h4, h5, h6⟩
  · omega
  · exact absurd (code11_replace s t p q a e hAs h3 h4 (hB e (by rw [h4]; simp))).symm h5

-- The bound is sharp, and single Code 11 characters are only one module apart.
example : dist (fC11 '1') (fC11 '2') = 1 := by decide
example : DifferIn 2 (Codabar.encode ⟨[.A, .Zero, .A]⟩) (Codabar.encode ⟨[.A, .One, .A]⟩) :=
  ⟨by decide, by decide⟩

end Barcoders
