import Verif.Spec.Part
import Verif.Props.HandScan

/-!
# Parts of rows
-/

set_option autoImplicit false

namespace Barcoders
open Spec

theorem cut_left (ws : List Nat) : ∀ (c : Nat) (u p : List Nat), c < 2 → paintFrom c ws = u ++ 1 :: p →
    ∃ A a B e, ws = A ++ a :: B ∧ (c + A.length) % 2 = 1 ∧ 0 < e ∧ e ≤ a ∧ 1 :: p = paintFrom 1 (e :: B) := by
  induction ws with
  | nil => intro c u p _ h; simp [paintFrom] at h
  | cons w ws ih =>
    intro c u p hc h
    rw [paintFrom, List.append_eq_append_iff] at h
    rcases h with ⟨u', rfl, h⟩ | ⟨v, hv, h⟩
    · obtain ⟨A, a, B, e, rfl, h1, h2, h3, h4⟩ := ih (1 - c) u' p (by omega) h
      exact ⟨w :: A, a, B, e, rfl, by simp only [List.length_cons]; omega, h2, h3, h4⟩
    · cases v with
      | nil =>
        rw [List.nil_append] at h
        obtain ⟨A, a, B, e, rfl, h1, h2, h3, h4⟩ := ih (1 - c) [] p (by omega) h.symm
        exact ⟨w :: A, a, B, e, rfl, by simp only [List.length_cons]; omega, h2, h3, h4⟩
      | cons m v =>
        rw [List.cons_append, List.cons.injEq] at h
        obtain ⟨rfl, rfl⟩ := h
        have hl := congrArg List.length hv
        simp only [List.length_replicate, List.length_append, List.length_cons] at hl
        have hv' := List.replicate_eq_append_iff.mp hv
        obtain ⟨-, -, h2⟩ := hv'
        have hc1 : c = 1 := by
          have : 1 ∈ (List.replicate (1 :: v).length c) := by rw [← h2]; simp
          exact (List.eq_of_mem_replicate this).symm
        subst hc1
        refine ⟨[], w, ws, (1 :: v).length, rfl, by simp, by simp, by simp; omega, ?_⟩
        rw [paintFrom, ← h2]
        rfl

theorem cut_right (ws : List Nat) : ∀ (c : Nat) (p v : List Nat), c < 2 → paintFrom c ws = p ++ 1 :: v →
    ∃ A a B e, ws = A ++ a :: B ∧ (c + A.length) % 2 = 1 ∧ 0 < e ∧ e ≤ a ∧ p ++ [1] = paintFrom c (A ++ [e]) := by
  induction ws with
  | nil => intro c u p _ h; simp [paintFrom] at h
  | cons w ws ih =>
    intro c p v hc h
    rw [paintFrom, List.append_eq_append_iff] at h
    have step : ∀ p', paintFrom (1 - c) ws = p' ++ 1 :: v → p = List.replicate w c ++ p' →
        ∃ A a B e, w :: ws = A ++ a :: B ∧ (c + A.length) % 2 = 1 ∧ 0 < e ∧ e ≤ a ∧ p ++ [1] = paintFrom c (A ++ [e]) := by
      intro p' h hp
      obtain ⟨A, a, B, e, rfl, h1, h2, h3, h4⟩ := ih (1 - c) p' v (by omega) h
      refine ⟨w :: A, a, B, e, rfl, by simp only [List.length_cons]; omega, h2, h3, ?_⟩
      rw [List.cons_append, paintFrom, ← h4, hp, List.append_assoc]
    rcases h with ⟨p', hp, h⟩ | ⟨y, hy, h⟩
    · exact step p' h hp
    · cases y with
      | nil =>
        rw [List.nil_append] at h
        rw [List.append_nil] at hy
        exact step [] h.symm (by rw [hy, List.append_nil])
      | cons m y =>
        rw [List.cons_append, List.cons.injEq] at h
        obtain ⟨rfl, rfl⟩ := h
        have hl := congrArg List.length hy
        simp only [List.length_replicate, List.length_append, List.length_cons] at hl
        obtain ⟨-, h1, h2⟩ := List.replicate_eq_append_iff.mp hy
        have hc1 : c = 1 := by
          have : 1 ∈ (List.replicate (1 :: y).length c) := by rw [← h2]; simp
          exact (List.eq_of_mem_replicate this).symm
        subst hc1
        refine ⟨[], w, ws, p.length + 1, rfl, by simp, by simp, by omega, ?_⟩
        rw [List.nil_append, paintFrom, paintFrom, List.append_nil, List.replicate_succ', h1]
        simp

theorem getD_shift (A l : List Nat) (k : Nat) : (A ++ l).getD (A.length + k) 0 = l.getD k 0 := by
  simp only [List.getD_eq_getElem?_getD]
  rw [List.getElem?_append_right (by omega), show A.length + k - A.length = k by omega]

theorem getD_left (l r : List Nat) (k : Nat) (h : k < l.length) : (l ++ r).getD k 0 = l.getD k 0 := by
  simp only [List.getD_eq_getElem?_getD]
  rw [List.getElem?_append_left h]

theorem getD_succ (a : Nat) (l : List Nat) (k : Nat) : (a :: l).getD (k + 1) 0 = l.getD k 0 := by
  simp only [List.getD_eq_getElem?_getD, List.getElem?_cons_succ]

/-- The widths of a part that begins and ends in a bar: those of the row, but for the first and the last one. -/
structure Within (W V : List Nat) (i : Nat) : Prop where
  even : i % 2 = 0
  odd : W.length % 2 = 1
  fits : i + W.length ≤ V.length
  pos : ∀ w ∈ W, 0 < w
  inner : ∀ k, 0 < k → k + 1 < W.length → W.getD k 0 = V.getD (i + k) 0
  first : W.getD 0 0 ≤ V.getD i 0
  last : W.getD (W.length - 1) 0 ≤ V.getD (i + (W.length - 1)) 0

theorem part_widths (V : List Nat) (hV : ∀ w ∈ V, 0 < w) (u v core c d : List Nat) (h : paint V = u ++ core ++ v)
    (hc : core = 1 :: c) (hd : core = d ++ [1]) : ∃ W i, core = paint W ∧ Within W V i := by
  obtain ⟨A, a, B, e, rfl, h1, h2, h3, h4⟩ := cut_left V 1 u (c ++ v) (by omega) (by
    rw [paint] at h; rw [h, hc, List.append_assoc, List.cons_append])
  have h5 : paintFrom 1 (e :: B) = d ++ 1 :: v := by
    rw [← h4, ← List.cons_append, ← hc, hd, List.append_assoc]; rfl
  obtain ⟨A', a', B', e', h6, h7, h8, h9, h10⟩ := cut_right (e :: B) 1 d v (by omega) h5
  rw [← hd] at h10
  cases A' with
  | nil =>
    rw [List.nil_append, List.cons.injEq] at h6
    obtain ⟨rfl, rfl⟩ := h6
    refine ⟨[e'], A.length, h10, by omega, by simp, by simp, by simpa using h8, ?_, ?_, ?_⟩
    · intro k hk hk'; simp at hk'
    · have := getD_shift A (a :: B) 0
      rw [Nat.add_zero] at this
      rw [this]; exact Nat.le_trans h9 h3
    · have := getD_shift A (a :: B) 0
      rw [Nat.add_zero] at this
      simp only [List.length_singleton, Nat.sub_self, Nat.add_zero]
      rw [this]; exact Nat.le_trans h9 h3
  | cons z A'' =>
    rw [List.cons_append, List.cons.injEq] at h6
    obtain ⟨rfl, rfl⟩ := h6
    simp only [List.length_cons] at h7
    refine ⟨e :: A'' ++ [e'], A.length, h10, by omega, ?_, ?_, ?_, ?_, ?_, ?_⟩
    · simp; omega
    · simp
    · intro w hw
      simp only [List.cons_append, List.mem_cons, List.mem_append, List.not_mem_nil, or_false] at hw
      rcases hw with rfl | hw | rfl
      · exact h2
      · exact hV w (by simp [hw])
      · exact h8
    · intro k hk hk'
      obtain ⟨k, rfl⟩ : ∃ j, k = j + 1 := ⟨k - 1, by omega⟩
      simp only [List.cons_append, List.length_cons, List.length_append, List.length_nil] at hk'
      rw [getD_shift, List.cons_append, getD_succ, getD_succ, getD_left _ _ k (by omega), getD_left _ _ k (by omega)]
    · have := getD_shift A (a :: (A'' ++ a' :: B')) 0
      rw [Nat.add_zero] at this
      rw [this]; exact h3
    · have hl : (e :: A'' ++ [e']).length - 1 = A''.length + 1 := by simp
      have h11 := getD_shift A'' (a' :: B') 0
      have h12 := getD_shift A'' [e'] 0
      rw [Nat.add_zero] at h11 h12
      rw [hl, getD_shift, List.cons_append, getD_succ, getD_succ, h11, h12]
      exact h9

theorem dropWhile_light (l : List Nat) (hl : ∀ m ∈ l, m = 0 ∨ m = 1) :
    ∃ a, l = List.replicate a 0 ++ l.dropWhile (fun m => m == 0) ∧
      (l.dropWhile (fun m => m == 0) = [] ∨ ∃ c, l.dropWhile (fun m => m == 0) = 1 :: c) := by
  induction l with
  | nil => exact ⟨0, rfl, Or.inl rfl⟩
  | cons m l ih =>
    rcases hl m (by simp) with rfl | rfl
    · obtain ⟨a, h1, h2⟩ := ih (fun m hm => hl m (by simp [hm]))
      refine ⟨a + 1, ?_, by simpa using h2⟩
      rw [List.replicate_succ, List.cons_append]
      simpa using h1
    · exact ⟨0, by simp, Or.inr ⟨l, by simp⟩⟩

/-- A part, without the light cells at its ends. -/
theorem part_core (p : List Nat) (hp : ∀ m ∈ p, m = 0 ∨ m = 1) :
    (∃ n, p = List.replicate n 0) ∨
    ∃ a b core c d, p = List.replicate a 0 ++ core ++ List.replicate b 0 ∧ core = 1 :: c ∧ core = d ++ [1] := by
  obtain ⟨a, h1, h2⟩ := dropWhile_light p hp
  rcases h2 with h2 | ⟨c, h2⟩
  · rw [h2, List.append_nil] at h1
    exact Or.inl ⟨a, h1⟩
  · rw [h2] at h1
    have hr : ∀ m ∈ (1 :: c).reverse, m = 0 ∨ m = 1 := by
      intro m hm
      exact hp m (by rw [h1]; exact List.mem_append_right _ (List.mem_reverse.mp hm))
    obtain ⟨b, h3, h4⟩ := dropWhile_light _ hr
    rcases h4 with h4 | ⟨d, h4⟩
    · exfalso
      rw [h4, List.append_nil] at h3
      have : (1 : Nat) ∈ List.replicate b 0 := by rw [← h3]; simp
      simpa using List.eq_of_mem_replicate this
    · rw [h4] at h3
      have h5 := congrArg List.reverse h3
      rw [List.reverse_reverse, List.reverse_append, List.reverse_replicate] at h5
      right
      have h6 : ∃ c', (1 :: d).reverse = 1 :: c' := by
        cases hd : (1 :: d).reverse with
        | nil => simp at hd
        | cons m c' =>
          rw [hd, List.cons_append, List.cons.injEq] at h5
          exact ⟨c', by rw [← h5.1]⟩
      obtain ⟨c', h6⟩ := h6
      exact ⟨a, b, (1 :: d).reverse, c', d.reverse, by rw [h1, h5, List.append_assoc], h6, by simp⟩

theorem narrowest_le (W : List Nat) : ∀ w ∈ W, narrowest W ≤ w := by
  induction W with
  | nil => simp
  | cons a W ih =>
    intro w hw
    cases W with
    | nil => simp at hw; rw [hw]; exact Nat.le_refl _
    | cons b W =>
      rw [narrowest]
      · rcases List.mem_cons.mp hw with rfl | hw
        · exact Nat.min_le_left _ _
        · exact Nat.le_trans (Nat.min_le_right _ _) (ih w hw)
      · simp

theorem paint_back (n : Nat) (W : List Nat) : ∀ c,
    (colours c W).flatMap (fun r => List.replicate (r.2 / n) r.1) = paintFrom c (W.map (· / n)) := by
  induction W with
  | nil => intro c; rfl
  | cons w W ih => intro c; rw [colours, List.flatMap_cons, ih, List.map_cons, paintFrom]

/-- What a reader of `paint W` sees. -/
theorem measure_paint (W : List Nat) (hW : ∀ w ∈ W, 0 < w) (r : Nat × List Nat) (h : measureRow (paint W) = some r) :
    ∃ F, F.length = W.length ∧ 0 < r.1 ∧ (∀ k, r.1 * F.getD k 0 = W.getD k 0) ∧ (∀ w ∈ F, 0 < w) ∧ r.2 = paint F ∧
      W = F.map (r.1 * ·) := by
  unfold measureRow at h
  rw [paint, runs_paintFrom 1 (by omega) W hW] at h
  simp only [colours_snd] at h
  split at h
  · rename_i hc
    obtain ⟨h1, h2⟩ := hc
    rw [Option.some.injEq] at h
    subst h
    have hdiv : ∀ w ∈ W, w % narrowest W = 0 := by
      intro w hw
      have : w ∈ (colours 1 W).map Prod.snd := by rw [colours_snd]; exact hw
      obtain ⟨q, hq, rfl⟩ := List.mem_map.mp this
      have := List.all_eq_true.mp h2 q hq
      simpa using this
    have hmap : W = (W.map (· / narrowest W)).map (narrowest W * ·) := by
      conv => lhs; rw [← List.map_id W]
      rw [List.map_map]
      apply List.map_congr_left
      intro w hw
      have := Nat.div_add_mod w (narrowest W)
      rw [hdiv w hw] at this
      simp only [Function.comp_apply, id_eq]; omega
    refine ⟨W.map (· / narrowest W), by simp, h1, ?_, ?_, paint_back _ _ _, hmap⟩
    · intro k
      conv => rhs; rw [hmap]
      simp only [List.getD_eq_getElem?_getD, List.getElem?_map]
      cases W[k]? <;> simp
    · intro w hw
      obtain ⟨v, hv, rfl⟩ := List.mem_map.mp hw
      exact Nat.div_pos (narrowest_le W v hv) h1
  · cases h

/-- What is read from a part of the row `paint E` at module width `x`: widths `F`, in units of `n` cells. -/
structure Seen (E F : List Nat) (x n i : Nat) : Prop where
  unit : 0 < n
  even : i % 2 = 0
  odd : F.length % 2 = 1
  fits : i + F.length ≤ E.length
  pos : ∀ w ∈ F, 0 < w
  inner : ∀ k, 0 < k → k + 1 < F.length → n * F.getD k 0 = x * E.getD (i + k) 0
  first : n * F.getD 0 0 ≤ x * E.getD i 0
  last : n * F.getD (F.length - 1) 0 ≤ x * E.getD (i + (F.length - 1)) 0

theorem getD_map_mul (x : Nat) (E : List Nat) (k : Nat) : (E.map (x * ·)).getD k 0 = x * E.getD k 0 := by
  simp only [List.getD_eq_getElem?_getD, List.getElem?_map]
  cases E[k]? <;> simp

theorem stretch_paint_mul (x : Nat) (E : List Nat) : stretch x (paint E) = paint (E.map (x * ·)) := by
  rw [paint, stretch_paintFrom, paint]
  congr 1
  exact List.map_congr_left (fun w _ => Nat.mul_comm _ _)

theorem getD_ext (a b : List Nat) (hl : a.length = b.length) (h : ∀ k < a.length, a.getD k 0 = b.getD k 0) : a = b := by
  apply List.ext_getElem hl
  intro k h1 h2
  have := h k h1
  simpa [List.getD_eq_getElem?_getD, List.getElem?_eq_getElem h1, List.getElem?_eq_getElem h2] using this

theorem read_part {α : Type} (scan : List Nat → Option α) (E : List Nat) (hE : ∀ w ∈ E, 0 < w) (x q r : Nat) (hx : 0 < x)
    (p : List Nat) (t : α) (hp : p <:+: stretch x (paint E)) (h : readLine scan (crossing q p r) = some t) :
    ∃ F n i, Seen E F x n i ∧ scan (paint F) = some t ∧
      (i = 0 → F.length = E.length → n * F.getD 0 0 = x * E.getD 0 0 →
        n * F.getD (F.length - 1) 0 = x * E.getD (F.length - 1) 0 → p = stretch x (paint E)) := by
  obtain ⟨u, v, huv⟩ := hp
  have hE' : ∀ w ∈ E.map (x * ·), 0 < w := by
    intro w hw
    obtain ⟨e, he, rfl⟩ := List.mem_map.mp hw
    exact Nat.mul_pos hx (hE e he)
  have hbin : ∀ m ∈ p, m = 0 ∨ m = 1 := by
    intro m hm
    refine paintFrom_binary 1 (by omega) (E.map (x * ·)) m ?_
    rw [← paint, ← stretch_paint_mul, ← huv]
    simp [hm]
  rcases part_core p hbin with ⟨n, rfl⟩ | ⟨a, b, core, c, d, rfl, hc, hd⟩
  · exfalso
    have : strip (crossing q (List.replicate n 0) r) = [] := by
      rw [crossing, List.replicate_append_replicate, List.replicate_append_replicate, strip]
      have : List.dropWhile (fun m => m == 0) (List.replicate (q + n + r) 0) = [] := by
        generalize q + n + r = k
        induction k with
        | zero => rfl
        | succ k ih => rw [List.replicate_succ]; simp
      rw [this]; rfl
    rw [readLine, this] at h
    simp [measureRow, runs, narrowest] at h
  · have hs : strip (crossing q (List.replicate a 0 ++ core ++ List.replicate b 0) r) = core := by
      have : crossing q (List.replicate a 0 ++ core ++ List.replicate b 0) r =
          List.replicate (q + a) 0 ++ core ++ List.replicate (b + r) 0 := by
        rw [crossing, ← List.replicate_append_replicate, ← List.replicate_append_replicate]
        simp only [List.append_assoc]
      rw [this]
      exact strip_core _ _ core c d.reverse hc (by rw [hd]; simp)
    rw [readLine, hs, Option.bind_eq_some_iff] at h
    obtain ⟨m, hm, h⟩ := h
    obtain ⟨W, i, hW, w⟩ := part_widths (E.map (x * ·)) hE' (u ++ List.replicate a 0) (List.replicate b 0 ++ v) core c d
      (by rw [← stretch_paint_mul, ← huv]; simp only [List.append_assoc]) hc hd
    subst hW
    obtain ⟨F, f1, f2, f3, f4, f5, f6⟩ := measure_paint W w.pos m hm
    refine ⟨F, m.1, i, ⟨f2, w.even, by rw [f1]; exact w.odd, by rw [f1]; simpa using w.fits, f4, ?_, ?_, ?_⟩, by rw [← f5]; exact h, ?_⟩
    · intro k h1 h2
      rw [f3, w.inner k h1 (by omega), getD_map_mul]
    · rw [f3, ← getD_map_mul]; exact w.first
    · rw [f3, f1, ← getD_map_mul]; exact w.last
    · rintro rfl hl h0 h1
      have hWE : W = E.map (x * ·) := by
        apply getD_ext _ _ (by rw [← f1, hl]; simp)
        intro k hk
        rw [getD_map_mul]
        by_cases hk0 : k = 0
        · subst hk0; rw [← f3, h0]
        · by_cases hk1 : k + 1 < W.length
          · rw [w.inner k (by omega) hk1, getD_map_mul, Nat.zero_add]
          · have : k = F.length - 1 := by omega
            rw [this, ← f3, h1]
      rw [hWE, ← stretch_paint_mul] at huv ⊢
      have hlen := congrArg List.length huv
      simp only [List.length_append, List.length_replicate] at hlen
      rw [show a = 0 by omega, show b = 0 by omega]
      simp

/-- The part that is read is the whole row. -/
def AllSeen (E F : List Nat) (x n i : Nat) : Prop :=
  i = 0 ∧ F.length = E.length ∧ n * F.getD 0 0 = x * E.getD 0 0 ∧ n * F.getD (F.length - 1) 0 = x * E.getD (F.length - 1) 0

theorem onlyWhole_of {α : Type} (scan : List Nat → Option α) (E : List Nat) (hE : ∀ w ∈ E, 0 < w) (ho : E.length % 2 = 1)
    (h1 : ∀ F x n i t, 0 < x → Seen E F x n i → scan (paint F) = some t → AllSeen E F x n i)
    (h2 : ∀ F x n i t, 0 < x → Seen E.reverse F x n i → scan (paint F) = some t → AllSeen E.reverse F x n i) :
    OnlyWhole scan (paint E) := by
  intro x q r p t hx hp h
  unfold handScan at h
  split at h
  · rename_i t' e
    obtain ⟨F, n, i, hs, hr, hw⟩ := read_part scan E hE x q r hx p t' hp e
    obtain ⟨a1, a2, a3, a4⟩ := h1 F x n i t' hx hs hr
    exact hw a1 a2 a3 a4
  · have hrev : (crossing q p r).reverse = crossing r p.reverse q := by
      rw [crossing, crossing, List.reverse_append, List.reverse_append, List.reverse_replicate, List.reverse_replicate,
        List.append_assoc]
    have hst : (stretch x (paint E)).reverse = stretch x (paint E.reverse) := by
      rw [stretch_reverse, paint_reverse_odd E ho]
    rw [hrev] at h
    have hp' : p.reverse <:+: stretch x (paint E.reverse) := by
      rw [← hst]; exact List.reverse_infix.mpr hp
    obtain ⟨F, n, i, hs, hr, hw⟩ := read_part scan E.reverse (fun w hw => hE w (List.mem_reverse.mp hw)) x r q hx p.reverse t hp' h
    obtain ⟨a1, a2, a3, a4⟩ := h2 F x n i t hx hs hr
    have := congrArg List.reverse (hw a1 a2 a3 a4)
    rwa [List.reverse_reverse, ← hst, List.reverse_reverse] at this

end Barcoders
