import Verif.Props.Exact
import Verif.Props.Errors
import Verif.Props.DoubleErrors
import Verif.Props.Distance
import Verif.Props.ExactCode128

/-!
# C106: how many wrong modules are harmless

Symbologies whose characters all have the same width and which carry check characters: two symbols of the same length differ in
several characters, and so in several modules.
-/

set_option autoImplicit false

namespace Barcoders

open Spec

/-! ## Counting changed characters -/

/-- Number of places in which two lists differ. -/
def changes {α : Type} [DecidableEq α] (l m : List α) : Nat := (l.zip m).countP (fun p => decide (p.1 ≠ p.2))

theorem changes_cons {α : Type} [DecidableEq α] (a c : α) (l m : List α) :
    changes (a :: l) (c :: m) = changes l m + (if a = c then 0 else 1) := by
  unfold changes
  rw [List.zip_cons_cons, List.countP_cons]
  by_cases h : a = c <;> simp [h]

theorem changes_append {α : Type} [DecidableEq α] (l m l' m' : List α) (h : l.length = m.length) :
    changes (l ++ l') (m ++ m') = changes l m + changes l' m' := by
  unfold changes
  rw [List.zip_append h, List.countP_append]

theorem changes_none {α : Type} [DecidableEq α] (l m : List α) (hl : l.length = m.length) (h : changes l m = 0) : l = m := by
  induction l generalizing m with
  | nil => cases m with
    | nil => rfl
    | cons => simp at hl
  | cons a l ih => cases m with
    | nil => simp at hl
    | cons c m =>
      rw [changes_cons] at h
      by_cases hac : a = c
      · rw [hac, ih m (by simpa using hl) (by omega)]
      · rw [if_neg hac] at h; omega

theorem changes_one {α : Type} [DecidableEq α] (l m : List α) (hl : l.length = m.length) (h : changes l m = 1) :
    ∃ p a c q, l = p ++ a :: q ∧ m = p ++ c :: q ∧ a ≠ c := by
  induction l generalizing m with
  | nil => cases m with
    | nil => simp [changes] at h
    | cons => simp at hl
  | cons a l ih => cases m with
    | nil => simp at hl
    | cons c m =>
      rw [changes_cons] at h
      by_cases hac : a = c
      · rw [if_pos hac] at h
        obtain ⟨p, x, y, q, h1, h2, h3⟩ := ih m (by simpa using hl) (by omega)
        exact ⟨a :: p, x, y, q, by rw [h1]; rfl, by rw [h2, hac]; rfl, h3⟩
      · rw [if_neg hac] at h
        rw [changes_none l m (by simpa using hl) (by omega)]
        exact ⟨[], a, c, m, rfl, rfl, hac⟩

theorem changes_two {α : Type} [DecidableEq α] (l m : List α) (hl : l.length = m.length) (h : changes l m = 2) :
    ∃ p a c k a' c' q, l = p ++ a :: (k ++ a' :: q) ∧ m = p ++ c :: (k ++ c' :: q) ∧ a ≠ c ∧ a' ≠ c' := by
  induction l generalizing m with
  | nil => cases m with
    | nil => simp [changes] at h
    | cons => simp at hl
  | cons a l ih => cases m with
    | nil => simp at hl
    | cons c m =>
      rw [changes_cons] at h
      by_cases hac : a = c
      · rw [if_pos hac] at h
        obtain ⟨p, x, y, k, x', y', q, h1, h2, h3⟩ := ih m (by simpa using hl) (by omega)
        exact ⟨a :: p, x, y, k, x', y', q, by rw [h1]; rfl, by rw [h2, hac]; rfl, h3⟩
      · rw [if_neg hac] at h
        obtain ⟨p, x, y, q, h1, h2, h3⟩ := changes_one l m (by simpa using hl) (by omega)
        exact ⟨[], a, c, p, x, y, q, by rw [h1]; rfl, by rw [h2]; rfl, hac, h3⟩

/-- Codewords at pairwise distance at least `g`. -/
theorem dist_changes {α : Type} [DecidableEq α] (g k : Nat) (f : α → List Nat) (l m : List α)
    (hl : ∀ a ∈ l, (f a).length = k) (hm : ∀ a ∈ m, (f a).length = k) (hlen : l.length = m.length)
    (hd : ∀ a ∈ l, ∀ c ∈ m, a ≠ c → g ≤ dist (f a) (f c)) : g * changes l m ≤ dist (l.flatMap f) (m.flatMap f) := by
  induction l generalizing m with
  | nil => simp [changes]
  | cons a l ih => cases m with
    | nil => simp at hlen
    | cons c m =>
      rw [List.flatMap_cons, List.flatMap_cons, dist_append _ _ _ _ (by rw [hl a (by simp), hm c (by simp)]), changes_cons]
      have := ih m (fun x hx => hl x (by simp [hx])) (fun x hx => hm x (by simp [hx])) (by simpa using hlen)
        (fun x hx y hy => hd x (by simp [hx]) y (by simp [hy]))
      by_cases hac : a = c
      · rw [if_pos hac, Nat.add_zero]; omega
      · have := hd a (by simp) c (by simp) hac
        rw [if_neg hac, Nat.mul_add, Nat.mul_one]; omega

theorem differ_dist (n : Nat) (ms ms' : List Nat) (h : DifferIn n ms ms') : ms.length = ms'.length ∧ dist ms ms' = n := h

/-! ## EAN and UPC -/

theorem wA_changes (ds es : List Nat) (c : Nat) (hc : c < 2) (hd : Digits ds) (he : Digits es) (hl : ds.length = es.length) :
    2 * changes ds es ≤ dist (paintFrom c (ds.flatMap wA)) (paintFrom c (es.flatMap wA)) := by
  have even : ∀ l : List Nat, Digits l → ∀ a ∈ l, (wA a).length % 2 = 0 := fun l h a ha => by
    rw [(wA_spec a (h a ha)).1]
  rw [paintFrom_flatMap c hc wA ds (even ds hd), paintFrom_flatMap c hc wA es (even es he)]
  refine dist_changes 2 7 _ ds es (fun d h => wA_module_length c d (hd d h)) (fun d h => wA_module_length c d (he d h)) hl ?_
  intro a ha b hb hab
  have : c = 0 ∨ c = 1 := by omega
  rcases this with rfl | rfl
  · exact mA_dist a (hd a ha) b (he b hb) hab
  · exact mR_dist a (hd a ha) b (he b hb) hab

theorem halves_changes (ls rs ls' rs' : List Nat) (hls : Digits ls) (hrs : Digits rs) (hls' : Digits ls') (hrs' : Digits rs')
    (hl : ls.length = ls'.length) (hr : rs.length = rs'.length) :
    2 * changes (ls ++ rs) (ls' ++ rs') ≤ dist (paint (halvesWidths (ls.flatMap wA) (rs.flatMap wA)))
      (paint (halvesWidths (ls'.flatMap wA) (rs'.flatMap wA))) := by
  rw [paint_halves_dist _ _ _ _ (by rw [wA_length_of _ hls]; omega) (by rw [wA_length_of _ hrs]; omega)
    (by rw [wA_length_of _ hls']; omega) (by rw [wA_length_of _ hrs']; omega)
    (by rw [wA_flatMap_sum _ hls, wA_flatMap_sum _ hls', hl]) (by rw [wA_flatMap_sum _ hrs, wA_flatMap_sum _ hrs', hr]),
    changes_append _ _ _ _ hl]
  have h1 := wA_changes ls ls' 0 (by omega) hls hls' hl
  have h2 := wA_changes rs rs' 1 (by omega) hrs hrs' hr
  omega

theorem gs1_changes (ds es : List Nat) (hd : Digits ds) (he : Digits es) (hl : ds.length = es.length) (vd : Gs1Valid ds)
    (ve : Gs1Valid es) (h : changes ds es ≤ 1) : ds = es := by
  by_cases h0 : changes ds es = 0
  · exact changes_none ds es hl h0
  · obtain ⟨p, a, c, q, rfl, rfl, hne⟩ := changes_one ds es hl (by omega)
    exact absurd (gs1Valid_replace p q a c (hd a (by simp)) (he c (by simp)) vd ve).symm hne

theorem upca_read_symbol (ms ds : List Nat) (h : scanUpca ms = some ds) :
    ∃ ls rs, Digits ls ∧ Digits rs ∧ ls.length = 6 ∧ rs.length = 6 ∧ ds = ls ++ rs ∧
      ms = paint (halvesWidths (ls.flatMap wA) (rs.flatMap wA)) := by
  obtain ⟨s, -, -, x, hx, he⟩ := (C75_upca .release ms ds).mp h
  obtain ⟨ls, rs, hls, hrs, ll, lr, e, e1⟩ := upca_symbol _ s x hx
  obtain ⟨bits, e2, e3⟩ := C09_upca_scan _ s x hx
  rw [he, Outcome.ok.injEq] at e2
  subst e2
  rw [h, Option.some.injEq] at e3
  rw [e1, Outcome.ok.injEq] at he
  exact ⟨ls, rs, hls, hrs, ll, lr, e3.trans e.symm, he.symm⟩

theorem ean8_read_symbol (ms ds : List Nat) (h : scanEan8 ms = some ds) :
    ∃ ls rs, Digits ls ∧ Digits rs ∧ ls.length = 4 ∧ rs.length = 4 ∧ ds = ls ++ rs ∧
      ms = paint (halvesWidths (ls.flatMap wA) (rs.flatMap wA)) := by
  obtain ⟨s, -, -, x, hx, he⟩ := (C75_ean8 .release ms ds).mp h
  obtain ⟨ls, rs, hls, hrs, ll, lr, e, e1⟩ := ean8_symbol _ s x hx
  obtain ⟨bits, e2, e3⟩ := C07_ean8_scan _ s x hx
  rw [he, Outcome.ok.injEq] at e2
  subst e2
  rw [h, Option.some.injEq] at e3
  rw [e1, Outcome.ok.injEq] at he
  exact ⟨ls, rs, hls, hrs, ll, lr, e3.trans e.symm, he.symm⟩

theorem ean13_read_symbol (ms ds : List Nat) (h : scanEan13 ms = some ds) :
    ∃ d0 ls rs, d0 < 10 ∧ Digits ls ∧ Digits rs ∧ ls.length = 6 ∧ rs.length = 6 ∧ ds = d0 :: (ls ++ rs) ∧
      ms = paint (ean13Widths d0 ls rs) := by
  obtain ⟨s, -, -, x, hx, he⟩ := (C75_ean13 .release ms ds).mp h
  obtain ⟨d0, ls, rs, h0, hls, hrs, ll, lr, e, e1⟩ := ean13_symbol _ s x hx
  obtain ⟨bits, e2, e3⟩ := C02_ean13_scan _ s x hx
  rw [he, Outcome.ok.injEq] at e2
  subst e2
  rw [h, Option.some.injEq] at e3
  rw [e1, Outcome.ok.injEq] at he
  exact ⟨d0, ls, rs, h0, hls, hrs, ll, lr, e3.trans e.symm, he.symm⟩

/-- Rows that are read and differ in at most `k` modules are equal; then a row that differs in `1` to `k` modules is not read. -/
theorem not_read {β : Type} (scan : List Nat → Option β) (k : Nat) (ms : List Nat)
    (hc : ∀ ms' u, scan ms' = some u → ms.length = ms'.length → dist ms ms' ≤ k → ms = ms') (n : Nat) (h1 : 1 ≤ n) (hk : n ≤ k)
    (ms' : List Nat) (hd : DifferIn n ms ms') : scan ms' = none := by
  cases hs : scan ms' with
  | none => rfl
  | some u =>
    exfalso
    obtain ⟨hl, hn⟩ := differ_dist n ms ms' hd
    have := hc ms' u hs hl (by omega)
    subst this
    rw [dist_self] at hn
    omega

/-- C106. Up to three wrong modules in a UPC-A symbol: nothing is read. -/
theorem C106_upca (b : Build) (s : List Char) (ms : List Nat) (h : Drawn b .upca s ms) (n : Nat) (h1 : 1 ≤ n) (h3 : n ≤ 3)
    (ms' : List Nat) (hd : DifferIn n ms ms') : scanUpca ms' = none := by
  obtain ⟨x, hx, he⟩ := h
  obtain ⟨bits, e2, e3⟩ := C09_upca_scan b s x hx
  rw [he, Outcome.ok.injEq] at e2
  subst e2
  refine not_read scanUpca 3 ms (fun ms' es hs _ hdist => ?_) n h1 h3 ms' hd
  obtain ⟨-, v1, -⟩ := scanHalves_valid 6 _ _ e3
  obtain ⟨-, v2, -⟩ := scanHalves_valid 6 _ _ hs
  obtain ⟨ls, rs, a1, a2, a3, a4, a5, a6⟩ := upca_read_symbol ms _ e3
  obtain ⟨ls', rs', b1, b2, b3, b4, b5, b6⟩ := upca_read_symbol ms' _ hs
  have hch := halves_changes ls rs ls' rs' a1 a2 b1 b2 (by omega) (by omega)
  rw [← a6, ← b6] at hch
  rw [a5] at v1 e3
  rw [b5] at v2 hs
  have := gs1_changes _ _ (digits_append a1 a2) (digits_append b1 b2) (by simp [a3, a4, b3, b4]) v1 v2 (by omega)
  rw [this] at e3
  exact scanHalves_inj 6 ms ms' _ e3 hs

/-- Four can be too many. -/
example : ∃ ms ms', Drawn .debug .upca "50008063608".toList ms ∧ Drawn .debug .upca "50008067608".toList ms' ∧ DifferIn 4 ms ms' :=
  ⟨_, _, ⟨_, rfl, rfl⟩, ⟨_, rfl, rfl⟩, by decide +kernel, by decide +kernel⟩

/-- C106. Up to three wrong modules in an EAN-8 symbol: nothing is read. -/
theorem C106_ean8 (b : Build) (s : List Char) (ms : List Nat) (h : Drawn b .ean8 s ms) (n : Nat) (h1 : 1 ≤ n) (h3 : n ≤ 3)
    (ms' : List Nat) (hd : DifferIn n ms ms') : scanEan8 ms' = none := by
  obtain ⟨x, hx, he⟩ := h
  obtain ⟨bits, e2, e3⟩ := C07_ean8_scan b s x hx
  rw [he, Outcome.ok.injEq] at e2
  subst e2
  refine not_read scanEan8 3 ms (fun ms' es hs _ hdist => ?_) n h1 h3 ms' hd
  obtain ⟨-, v1, -⟩ := scanHalves_valid 4 _ _ e3
  obtain ⟨-, v2, -⟩ := scanHalves_valid 4 _ _ hs
  obtain ⟨ls, rs, a1, a2, a3, a4, a5, a6⟩ := ean8_read_symbol ms _ e3
  obtain ⟨ls', rs', b1, b2, b3, b4, b5, b6⟩ := ean8_read_symbol ms' _ hs
  have hch := halves_changes ls rs ls' rs' a1 a2 b1 b2 (by omega) (by omega)
  rw [← a6, ← b6] at hch
  rw [a5] at v1 e3
  rw [b5] at v2 hs
  have := gs1_changes _ _ (digits_append a1 a2) (digits_append b1 b2) (by simp [a3, a4, b3, b4]) v1 v2 (by omega)
  rw [this] at e3
  exact scanHalves_inj 4 ms ms' _ e3 hs

example : ∃ ms ms', Drawn .debug .ean8 "7066907".toList ms ∧ Drawn .debug .ean8 "7166997".toList ms' ∧ DifferIn 4 ms ms' :=
  ⟨_, _, ⟨_, rfl, rfl⟩, ⟨_, rfl, rfl⟩, by decide +kernel, by decide +kernel⟩

/-- Left halves with the same sets. -/
theorem wAB_changes (ss : List Bool) (ls ls' : List Nat) (hls : Digits ls) (hls' : Digits ls') (h1 : ss.length = ls.length)
    (h2 : ss.length = ls'.length) :
    2 * changes ls ls' ≤ dist ((ss.zip ls).flatMap (fun p => paintFrom 0 (wAB p))) ((ss.zip ls').flatMap (fun p => paintFrom 0 (wAB p))) := by
  induction ss generalizing ls ls' with
  | nil =>
    cases ls with
    | nil => simp [changes]
    | cons => simp at h1
  | cons s ss ih =>
    match ls, ls', h1, h2 with
    | l :: ls, l' :: ls', h1, h2 =>
      have hl := digits_head hls
      have hl' := digits_head hls'
      rw [List.zip_cons_cons, List.zip_cons_cons, List.flatMap_cons, List.flatMap_cons,
        dist_append _ _ _ _ (by rw [wAB_module_length _ _ hl, wAB_module_length _ _ hl']), changes_cons]
      have := ih ls ls' (digits_tail hls) (digits_tail hls') (by simpa using h1) (by simpa using h2)
      by_cases h : l = l'
      · rw [if_pos h]; omega
      · have := (mAB_dist s s l hl l' hl' (by simp [h])).2 rfl
        rw [if_neg h]; omega

theorem ean13_changes (d0 : Nat) (ls rs ls' rs' : List Nat) (h0 : d0 < 10) (hls : Digits ls) (hrs : Digits rs) (hls' : Digits ls')
    (hrs' : Digits rs') (ll : ls.length = 6) (lr : rs.length = 6) (ll' : ls'.length = 6) (lr' : rs'.length = 6) :
    2 * changes (d0 :: (ls ++ rs)) (d0 :: (ls' ++ rs')) ≤ dist (paint (ean13Widths d0 ls rs)) (paint (ean13Widths d0 ls' rs')) := by
  have hs := (parity_spec d0 h0).2.2.2.2.2
  have hz := zip_snd_lt (setsOf d0) ls hls
  have hz' := zip_snd_lt (setsOf d0) ls' hls'
  have lz : ((setsOf d0).zip ls).length = 6 := by simp [hs, ll]
  have lz' : ((setsOf d0).zip ls').length = 6 := by simp [hs, ll']
  rw [ean13Widths, ean13Widths, paint_halves_dist _ _ _ _ (by rw [wAB_length_of _ hz]; omega)
    (by rw [wA_length_of _ hrs]; omega) (by rw [wAB_length_of _ hz']; omega) (by rw [wA_length_of _ hrs']; omega)
    (by rw [wAB_flatMap_sum _ hz, wAB_flatMap_sum _ hz', lz, lz'])
    (by rw [wA_flatMap_sum _ hrs, wA_flatMap_sum _ hrs', lr, lr']), changes_cons, if_pos rfl, changes_append _ _ _ _ (by omega)]
  have even : ∀ l : List (Bool × Nat), (∀ p ∈ l, p.2 < 10) → ∀ a ∈ l, (wAB a).length % 2 = 0 := fun l h a ha => by
    rw [(wAB_spec a.2 (h a ha) a.1).1]
  rw [paintFrom_flatMap 0 (by omega) wAB _ (even _ hz), paintFrom_flatMap 0 (by omega) wAB _ (even _ hz')]
  have h1 := wAB_changes (setsOf d0) ls ls' hls hls' (by omega) (by omega)
  have h2 := wA_changes rs rs' 1 (by omega) hrs hrs' (by omega)
  omega

/-- C106. EAN-13: with up to three wrong modules, only a number with another leading digit can be read; one wrong module is always
noticed. -/
theorem C106_ean13 (b : Build) (s : List Char) (ms : List Nat) (h : Drawn b .ean13 s ms) (n : Nat) (h1 : 1 ≤ n) (h3 : n ≤ 3)
    (ms' : List Nat) (hd : DifferIn n ms ms') :
    (n = 1 → scanEan13 ms' = none) ∧ ∀ ds, scanEan13 ms' = some ds → ds.head? ≠ (digitsOf s).head? := by
  obtain ⟨x, hx, he⟩ := h
  refine ⟨fun hn => ?_, fun es hs hh => ?_⟩
  · cases hs : scanEan13 ms' with
    | none => rfl
    | some es =>
      exfalso
      obtain ⟨t, -, -, y, hy, he'⟩ := (C75_ean13 b ms' es).mp hs
      exact (C47_ean_distance b b s t ms ms').1 x y hx hy he he' (hn ▸ hd)
  · obtain ⟨bits, e2, e3⟩ := C02_ean13_scan b s x hx
    rw [he, Outcome.ok.injEq] at e2
    subst e2
    obtain ⟨-, v1, -⟩ := scanEan13_valid _ _ e3
    obtain ⟨-, v2, -⟩ := scanEan13_valid _ _ hs
    have hacc := (C01_ean13_accepts b s)
    obtain ⟨d0, ls, rs, a0, a1, a2, a3, a4, a5, a6⟩ := ean13_read_symbol ms _ e3
    obtain ⟨d0', ls', rs', b0, b1, b2, b3, b4, b5, b6⟩ := ean13_read_symbol ms' _ hs
    have hsome : (digitsOf s).head? = some d0 := by
      cases hds : digitsOf s with
      | nil =>
        rw [hds] at a5
        simp at a5
        rw [a5.2.1] at a3
        cases a3
      | cons d r =>
        rw [hds] at a5
        simp at a5
        simp [a5.1]
    rw [hsome, b5, List.head?_cons, Option.some.injEq] at hh
    subst hh
    have hch := ean13_changes d0' ls rs ls' rs' a0 a1 a2 b1 b2 a3 a4 b3 b4
    obtain ⟨-, hn⟩ := differ_dist n ms ms' hd
    rw [← a6, ← b6, hn] at hch
    rw [a5] at v1 e3
    rw [b5] at v2 hs
    have := gs1_changes _ _ (digits_append (digits_single a0) (digits_append a1 a2))
      (digits_append (digits_single b0) (digits_append b1 b2)) (by simp [a3, a4, b3, b4]) v1 v2 (by
        simpa using (by omega : changes (d0' :: (ls ++ rs)) (d0' :: (ls' ++ rs')) ≤ 1))
    simp only [List.singleton_append] at this
    rw [this] at e3
    have := scanEan13_inj ms ms' _ e3 hs
    subst this
    rw [dist_self] at hn
    omega

/-- Two can be too many for EAN-13: the leading digit is in the choice of the sets alone. -/
example : ∃ ms ms', Drawn .debug .ean13 "370752650584".toList ms ∧ Drawn .debug .ean13 "974752650584".toList ms' ∧
    DifferIn 2 ms ms' := ⟨_, _, ⟨_, rfl, rfl⟩, ⟨_, rfl, rfl⟩, by decide +kernel, by decide +kernel⟩

/-! ## Code 39 with check character -/

theorem code39_changes (t u : List Char) (ht : ∀ c ∈ t, c ∈ code39Alphabet) (hu : ∀ c ∈ u, c ∈ code39Alphabet)
    (hl : t.length = u.length) : 2 * changes t u ≤ dist (paint (code39Widths t)) (paint (code39Widths u)) := by
  have len : ∀ v : List Char, (∀ c ∈ v, c ∈ code39Alphabet) → ∀ c ∈ '*' :: v,
      (paintFrom 1 (w39 c ++ [1])).length = 13 := by
    intro v hv c hc
    rw [paintFrom_length, List.sum_append, w39_sum c (star_cons_mem _ _ hv c hc)]
    rfl
  rw [paint39 t ht, paint39 u hu, dist_append]
  · have := dist_changes 2 13 (fun c => paintFrom 1 (w39 c ++ [1])) ('*' :: t) ('*' :: u) (len t ht) (len u hu)
      (by simp [hl]) (fun a ha c hc => m39_dist a (star_cons_mem _ _ ht a ha) c (star_cons_mem _ _ hu c hc))
    rw [changes_cons, if_pos rfl] at this
    omega
  · rw [flatMap_length 13 _ _ (len t ht), flatMap_length 13 _ _ (len u hu)]
    simp [hl]

theorem code39_read_symbol (ms : List Nat) (t : List Char) (h : scanCode39 ms = some t) : ms = paint (code39Widths t) :=
  scanCode39_inj ms _ t h (scanCode39_paint t (scanCode39_chars ms t h))

/-- C106. Up to three wrong modules in a Code 39 symbol with check character: a reader that verifies it reads nothing. -/
theorem C106_code39 (s : List Char) (x : Code39.Code39) (hx : Code39.withChecksum s = .ok x) (ms : List Nat)
    (he : Code39.encode x = .ok ms) (n : Nat) (h1 : 1 ≤ n) (h3 : n ≤ 3) (ms' : List Nat) (hd : DifferIn n ms ms') :
    scanCode39Checked ms' = none := by
  obtain ⟨bits, e2, e3, e4⟩ := C14_code39_checksum_scan s x hx
  rw [he, Outcome.ok.injEq] at e2
  subst e2
  refine not_read scanCode39Checked 3 ms (fun ms' u hs hlen hdist => ?_) n h1 h3 ms' hd
  have hs' := scanCode39Checked_inv _ _ hs
  have a1 := scanCode39_chars _ _ e3
  have b1 := scanCode39_chars _ _ hs'
  have a2 := code39_read_symbol _ _ e3
  have b2 := code39_read_symbol _ _ hs'
  have hl : (s ++ [code39Check s]).length = (u ++ [code39Check u]).length := by
    rw [a2, b2, (code39_row _ a1).length, (code39_row _ b1).length] at hlen
    omega
  have hch := code39_changes _ _ a1 b1 hl
  rw [← a2, ← b2] at hch
  by_cases h0 : changes (s ++ [code39Check s]) (u ++ [code39Check u]) = 0
  · rw [a2, b2, changes_none _ _ hl h0]
  · obtain ⟨p, a, c, q, g1, g2, hne⟩ := changes_one _ _ hl (by omega)
    rw [g1] at e3
    have hc : c ∈ code39Alphabet := b1 c (by rw [g2]; simp)
    rw [g2] at hs'
    rw [C15_code39_single_error s x hx ms he p q a c e3 hc (Ne.symm hne) ms' hs'] at hs
    cases hs

example : ∃ x y ms ms', Code39.withChecksum "0".toList = .ok x ∧ Code39.withChecksum "4".toList = .ok y ∧ Code39.encode x = .ok ms ∧
    Code39.encode y = .ok ms' ∧ DifferIn 4 ms ms' := ⟨_, _, _, _, rfl, rfl, rfl, rfl, by decide +kernel, by decide +kernel⟩

/-! ## Code 93 -/

theorem code93_changes (t u : List Char) (ht : ∀ c ∈ t, c ∈ code93Alphabet) (hu : ∀ c ∈ u, c ∈ code93Alphabet)
    (hl : t.length = u.length) : changes t u ≤ dist (paint (code93SymWidths t)) (paint (code93SymWidths u)) := by
  have len : ∀ v : List Char, (∀ c ∈ v, c ∈ code93Alphabet) → ∀ c ∈ '*' :: (v ++ ['*']),
      (paintFrom 1 (w93 c)).length = 9 := by
    intro v hv c hc
    rw [paintFrom_length, w93_sum c (star_text_mem _ _ hv c hc)]
  rw [paint93 _ ht, paint93 _ hu, dist_append]
  · have := dist_changes 1 9 (fun c => paintFrom 1 (w93 c)) _ _ (len _ ht) (len _ hu) (by simp [hl])
      (fun a ha c hc => m93_inj a (star_text_mem _ _ ht a ha) c (star_text_mem _ _ hu c hc))
    rw [changes_cons, if_pos rfl, changes_append _ _ _ _ hl] at this
    omega
  · rw [flatMap_length 9 _ _ (len _ ht), flatMap_length 9 _ _ (len _ hu)]
    simp [hl]

theorem code93_read_symbol (ms : List Nat) (t : List Char) (h : scanCode93 ms = some t) :
    (∀ c ∈ code93Text t, c ∈ code93Alphabet) ∧ ms = paint (code93SymWidths (code93Text t)) := by
  have hA := code93_text_mem t (scanCode93_chars ms t h)
  refine ⟨hA, scanCode93_inj ms _ t h ?_⟩
  rw [scanCode93, readCode93_paint _ hA, Option.bind_some]
  exact (verifyCode93_iff _ _).mpr rfl

/-- C106. Up to two wrong modules in a Code 93 symbol of at most fourteen characters: nothing is read. -/
theorem C106_code93 (b : Build) (s : List Char) (ms : List Nat) (h : Drawn b .code93 s ms) (hs14 : s.length ≤ 14) (n : Nat)
    (h1 : 1 ≤ n) (h3 : n ≤ 2) (ms' : List Nat) (hd : DifferIn n ms ms') : scanCode93 ms' = none := by
  obtain ⟨x, hx, he⟩ := h
  obtain ⟨bits, e2, e3⟩ := C17_code93_scan s x hx
  rw [he, Outcome.ok.injEq] at e2
  subst e2
  refine not_read scanCode93 2 ms (fun ms' u hs hlen hdist => ?_) n h1 h3 ms' hd
  obtain ⟨a1, a2⟩ := code93_read_symbol _ _ e3
  obtain ⟨b1, b2⟩ := code93_read_symbol _ _ hs
  have hl : (code93Text s).length = (code93Text u).length := by
    rw [a2, b2, (code93_row _ a1).length, (code93_row _ b1).length] at hlen
    omega
  have hch := code93_changes _ _ a1 b1 hl
  rw [← a2, ← b2] at hch
  have as := scanCode93_chars _ _ e3
  have : changes (code93Text s) (code93Text u) = 0 ∨ changes (code93Text s) (code93Text u) = 1 ∨
    changes (code93Text s) (code93Text u) = 2 := by omega
  rcases this with h0 | h0 | h0
  · rw [a2, b2, changes_none _ _ hl h0]
  · obtain ⟨p, a, c, q, g1, g2, hne⟩ := changes_one _ _ hl h0
    exact absurd (code93_replace s u p q a c as g1 g2 (b1 c (by rw [g2]; simp))).symm hne
  · obtain ⟨p, a, c, k, a', c', q, g1, g2, hne, -⟩ := changes_two _ _ hl h0
    exact absurd (code93_two_replaced s u p k q a a' c c' as hs14 g1 g2 (b1 c (by rw [g2]; simp)) (b1 c' (by rw [g2]; simp))).2.symm hne

example : ∃ ms ms', Drawn .debug .code93 "T".toList ms ∧ Drawn .debug .code93 "%".toList ms' ∧ DifferIn 3 ms ms' :=
  ⟨_, _, ⟨_, rfl, rfl⟩, ⟨_, rfl, rfl⟩, by decide +kernel, by decide +kernel⟩

/-! ## Code 128 -/

theorem code128_changes (vs ws : List Nat) (hv : ∀ v ∈ vs, v < 106) (hw : ∀ v ∈ ws, v < 106) (hl : vs.length = ws.length) :
    2 * changes vs ws ≤ dist (paint (code128Widths vs)) (paint (code128Widths ws)) := by
  have p : ∀ l : List Nat, (∀ v ∈ l, v < 106) →
      paint (code128Widths l) = l.flatMap (fun v => paintFrom 1 (w128 v)) ++ paintFrom 1 code128Stop := by
    intro l h
    rw [code128Widths, paint, paintFrom_append_even 1 (by omega) _ _ (by rw [w128_length l h]; omega),
      paintFrom_flatMap 1 (by omega)]
    intro v hv
    rw [(w128_spec v (h v hv)).1]
  have len : ∀ l : List Nat, (∀ v ∈ l, v < 106) → ∀ v ∈ l, (paintFrom 1 (w128 v)).length = 11 := by
    intro l h v hv
    rw [paintFrom_length, w128_sum v (h v hv)]
  rw [p vs hv, p ws hw, dist_append]
  · have := dist_changes 2 11 (fun v => paintFrom 1 (w128 v)) vs ws (len vs hv) (len ws hw) hl
      (fun a ha c hc => m128_dist a (hv a ha) c (hw c hc))
    omega
  · rw [flatMap_length 11 _ _ (len vs hv), flatMap_length 11 _ _ (len ws hw), hl]

theorem code128_read_symbol (ms vs : List Nat) (h : readCode128 ms = some vs) :
    (∀ v ∈ vs, v < 106) ∧ ms = paint (code128Widths vs) := by
  have h' := h
  unfold readCode128 at h'
  simp only [Option.bind_eq_bind, Option.bind_eq_some_iff] at h'
  obtain ⟨es, h1, es', h2, h3⟩ := h'
  have hv : ∀ v ∈ vs, v < 106 := readAll_values (fun v => v < 106) 6 (by omega) code128Chart.idxOf? (fun w v hw => by
    have := (List.findIdx?_eq_some_iff_findIdx_eq.mp hw).1
    exact this) _ _ h3
  refine ⟨hv, ?_⟩
  have h4 := readCode128_paint vs hv
  unfold readCode128 at h4
  simp only [Option.bind_eq_bind, Option.bind_eq_some_iff] at h4
  obtain ⟨fs, k1, fs', k2, k3⟩ := h4
  rw [elements_inv _ _ h1, elements_inv _ _ k1, expectEnd_inv _ _ _ h2, expectEnd_inv _ _ _ k2,
    readAll_inj 6 (by omega) _ (fun w w' v _ _ h h' => idxOf_inj _ w w' v h h') _ _ _ h3 k3]

theorem transmitSymbol_small (st : ReaderState) (v : Nat) (p : List Char × ReaderState) (h : transmitSymbol st v = some p) :
    v < 103 := by
  obtain ⟨set, shift, first⟩ := st
  by_cases hv : v < 103
  · exact hv
  · exfalso
    unfold transmitSymbol at h
    cases set <;> cases shift <;>
      simp [code128Data, CodeSet.other, show ¬ v < 64 by omega, show ¬ v < 96 by omega, show ¬ v < 100 by omega,
        show v ≠ 102 by omega, show v ≠ 101 by omega, show v ≠ 100 by omega, show v ≠ 99 by omega, show v ≠ 98 by omega,
        show v ≠ 97 by omega, show v ≠ 96 by omega] at h

theorem transmitAll_small (vs : List Nat) (st : ReaderState) (t : List Char) (h : transmitAll transmitSymbol st vs = some t) :
    ∀ v ∈ vs, v < 103 := by
  induction vs generalizing st t with
  | nil => simp
  | cons v vs ih =>
    rw [transmitAll_append, Option.bind_eq_some_iff] at h
    obtain ⟨⟨o, st'⟩, h1, h2⟩ := h
    rw [Option.map_eq_some_iff] at h2
    obtain ⟨t', h3, -⟩ := h2
    intro w hw
    rcases List.mem_cons.mp hw with rfl | hw
    · exact transmitSymbol_small _ _ _ h1
    · exact ih st' t' h3 w hw

/-- Two symbol sequences with valid check symbols that differ in at most one symbol are equal. -/
theorem check128_changes (set set' : CodeSet) (data data' : List Nat) (hd : ∀ v ∈ data, v < 103) (hd' : ∀ v ∈ data', v < 103)
    (hl : data.length = data'.length) (h102 : data.length ≤ 102)
    (h : changes (set.start :: (data ++ [code128Sum set.start data % 103]))
      (set'.start :: (data' ++ [code128Sum set'.start data' % 103])) ≤ 1) : set.start = set'.start ∧ data = data' := by
  rw [changes_cons, changes_append _ _ _ _ hl, changes_cons] at h
  have hs : ∀ z : CodeSet, z.start = 103 ∨ z.start = 104 ∨ z.start = 105 := by intro z; cases z <;> decide
  by_cases h0 : changes data data' = 0
  · have := changes_none _ _ hl h0
    subst this
    refine ⟨?_, rfl⟩
    by_cases hst : set.start = set'.start
    · exact hst
    · exfalso
      rw [if_neg hst] at h
      have : code128Sum set.start data % 103 = code128Sum set'.start data % 103 := by
        by_cases hc : code128Sum set.start data % 103 = code128Sum set'.start data % 103
        · exact hc
        · rw [if_neg hc] at h; omega
      unfold code128Sum at this
      have := hs set
      have := hs set'
      omega
  · exfalso
    obtain ⟨p, a, c, q, rfl, rfl, hne⟩ := changes_one _ _ hl (by omega)
    have hst : set.start = set'.start := by
      by_cases hst : set.start = set'.start
      · exact hst
      · rw [if_neg hst] at h; omega
    have hc : code128Sum set.start (p ++ a :: q) % 103 = code128Sum set'.start (p ++ c :: q) % 103 := by
      by_cases hc : code128Sum set.start (p ++ a :: q) % 103 = code128Sum set'.start (p ++ c :: q) % 103
      · exact hc
      · rw [if_neg hc] at h; omega
    unfold code128Sum at hc
    rw [hst, positionSum_append, positionSum_append, positionSum, positionSum] at hc
    rw [List.length_append, List.length_cons] at h102
    refine hne (mul_cancel_103 (1 + p.length) a c (by omega) (hd a (by simp)) (hd' c (by simp)) (by omega))

/-- The symbols of a row that is scanned or from which a message is received. -/
theorem received128 (ms : List Nat) (h : (∃ t, scanCode128 ms = some t) ∨ ∃ t, receiveCode128 ms = some t) :
    ∃ set data, (∀ v ∈ data, v < 103) ∧ readCode128 ms = some (CodeSet.start set :: (data ++ [code128Sum set.start data % 103])) := by
  have key : ∀ vs p, readCode128 ms = some vs → verifyCode128 vs = some p → ∀ set, code128Start p.1 = some set →
      readCode128 ms = some (CodeSet.start set :: (p.2 ++ [code128Sum set.start p.2 % 103])) := by
    intro vs p h1 h4 set h5
    have hs : p.1 = set.start := code128Start_eq _ _ h5
    rw [h1, Option.some.injEq]
    unfold verifyCode128 at h4
    split at h4
    · cases h4
    · next start rest =>
      split at h4
      · cases h4
      · next c hc =>
        split at h4
        · next hsum =>
          rw [Option.some.injEq] at h4
          subst h4
          simp only at hs ⊢
          have hne : rest ≠ [] := by rintro rfl; simp at hc
          rw [List.getLast?_eq_some_getLast hne, Option.some.injEq] at hc
          have := List.dropLast_concat_getLast hne
          rw [hc, hsum] at this
          rw [← hs, this]
        · cases h4
  rcases h with ⟨t, h⟩ | ⟨t, h⟩
  · unfold scanCode128 at h
    simp only [Option.bind_eq_bind, Option.bind_eq_some_iff] at h
    obtain ⟨vs, h1, p, h4, set, h5, r, h6, -⟩ := h
    exact ⟨set, p.2, code128Decode_small _ _ _ h6, key vs p h1 h4 set h5⟩
  · unfold receiveCode128 at h
    simp only [Option.bind_eq_bind, Option.bind_eq_some_iff] at h
    obtain ⟨vs, h1, p, h4, set, h5, h6⟩ := h
    exact ⟨set, p.2, transmitAll_small _ _ _ h6, key vs p h1 h4 set h5⟩

theorem code128_close (ms ms' : List Nat) (hm : ms.length ≤ 1157)
    (h : (∃ t, scanCode128 ms = some t) ∨ ∃ t, receiveCode128 ms = some t)
    (h' : (∃ t, scanCode128 ms' = some t) ∨ ∃ t, receiveCode128 ms' = some t) (hlen : ms.length = ms'.length)
    (hdist : dist ms ms' ≤ 3) : ms = ms' := by
  obtain ⟨set, data, a1, a2⟩ := received128 ms h
  obtain ⟨set', data', b1, b2⟩ := received128 ms' h'
  obtain ⟨a3, a4⟩ := code128_read_symbol _ _ a2
  obtain ⟨b3, b4⟩ := code128_read_symbol _ _ b2
  have hla : ms.length = 11 * data.length + 35 := by
    rw [a4, (code128_row _ a3).length]; simp; omega
  have hlb : ms'.length = 11 * data'.length + 35 := by
    rw [b4, (code128_row _ b3).length]; simp; omega
  have hch := code128_changes _ _ a3 b3 (by simp; omega)
  rw [← a4, ← b4] at hch
  obtain ⟨e1, e2⟩ := check128_changes set set' data data' a1 b1 (by omega) (by omega) (by omega)
  rw [a4, b4, e1, e2]

/-- C106. Up to three wrong modules in a Code 128 symbol of at most 1157 modules (102 symbols between start and check): nothing is
read. -/
theorem C106_code128 (b : Build) (s : List Char) (ms : List Nat) (h : Drawn b .code128 s ms) (hl : s.length ≤ 6489)
    (hm : ms.length ≤ 1157) (n : Nat) (h1 : 1 ≤ n) (h3 : n ≤ 3) (ms' : List Nat) (hd : DifferIn n ms ms') :
    scanCode128 ms' = none ∧ receiveCode128 ms' = none := by
  obtain ⟨x, hx, he⟩ := h
  obtain ⟨bits, e2, e3⟩ := C28_code128_scan_regrouped_partial b s x hx hl
  rw [he, Outcome.ok.injEq] at e2
  subst e2
  exact ⟨not_read scanCode128 3 ms (fun ms' u hs hlen hdist => code128_close ms ms' hm (.inl ⟨_, e3⟩) (.inl ⟨u, hs⟩) hlen hdist)
      n h1 h3 ms' hd,
    not_read receiveCode128 3 ms (fun ms' u hs hlen hdist => code128_close ms ms' hm (.inl ⟨_, e3⟩) (.inr ⟨u, hs⟩) hlen hdist)
      n h1 h3 ms' hd⟩

example : ∃ ms ms', Drawn .debug .code128 "Ɓ ".toList ms ∧ Drawn .debug .code128 "Ɓ!".toList ms' ∧ DifferIn 4 ms ms' :=
  ⟨_, _, ⟨_, rfl, rfl⟩, ⟨_, rfl, rfl⟩, by decide +kernel, by decide +kernel⟩

/-- Two strings are drawn, in `n` modules, of which `k` differ. -/
def drawnApart (n k : Nat) (s t : List Char) : Bool :=
  match Code128.new s, Code128.new t with
  | .ok x, .ok y =>
    match Code128.encode .debug x, Code128.encode .debug y with
    | .ok ms, .ok ms' => ms.length == n && ms'.length == n && dist ms ms' == k
    | _, _ => false
  | _, _ => false

theorem drawnApart_spec (n k : Nat) (s t : List Char) (h : drawnApart n k s t = true) :
    ∃ ms ms', Drawn .debug .code128 s ms ∧ Drawn .debug .code128 t ms' ∧ ms.length = n ∧ DifferIn k ms ms' := by
  unfold drawnApart at h
  split at h
  · next x y hx hy =>
    split at h
    · next ms ms' e1 e2 =>
      simp only [Bool.and_eq_true, beq_iff_eq] at h
      exact ⟨ms, ms', ⟨x, hx, e1⟩, ⟨y, hy, e2⟩, h.1.1, h.1.1.trans h.1.2.symm, h.2⟩
    · cases h
  · cases h

/-- C106. The limit is sharp: with 103 symbols the check symbol no longer depends on the last one, and two wrong modules can go
unnoticed. -/
theorem C106_code128_long : ∃ ms ms', Drawn .debug .code128 ('Ɓ' :: (List.replicate 102 'A' ++ [' '])) ms ∧
    Drawn .debug .code128 ('Ɓ' :: (List.replicate 102 'A' ++ ['!'])) ms' ∧ ms.length = 1168 ∧ DifferIn 2 ms ms' :=
  drawnApart_spec 1168 2 _ _ (by decide +kernel)

/-- C106. The numbers cannot be improved: drawn symbols that are four modules apart, three for Code 93, two for EAN-13. -/
theorem C106_sharp :
    (∃ ms ms', Drawn .debug .upca "50008063608".toList ms ∧ Drawn .debug .upca "50008067608".toList ms' ∧ DifferIn 4 ms ms') ∧
    (∃ ms ms', Drawn .debug .ean8 "7066907".toList ms ∧ Drawn .debug .ean8 "7166997".toList ms' ∧ DifferIn 4 ms ms') ∧
    (∃ ms ms', Drawn .debug .ean13 "370752650584".toList ms ∧ Drawn .debug .ean13 "974752650584".toList ms' ∧ DifferIn 2 ms ms') ∧
    (∃ x y ms ms', Code39.withChecksum "0".toList = .ok x ∧ Code39.withChecksum "4".toList = .ok y ∧ Code39.encode x = .ok ms ∧
      Code39.encode y = .ok ms' ∧ DifferIn 4 ms ms') ∧
    (∃ ms ms', Drawn .debug .code93 "T".toList ms ∧ Drawn .debug .code93 "%".toList ms' ∧ DifferIn 3 ms ms') ∧
    ∃ ms ms', Drawn .debug .code128 "Ɓ ".toList ms ∧ Drawn .debug .code128 "Ɓ!".toList ms' ∧ DifferIn 4 ms ms' :=
  ⟨⟨_, _, ⟨_, rfl, rfl⟩, ⟨_, rfl, rfl⟩, by decide +kernel, by decide +kernel⟩,
    ⟨_, _, ⟨_, rfl, rfl⟩, ⟨_, rfl, rfl⟩, by decide +kernel, by decide +kernel⟩,
    ⟨_, _, ⟨_, rfl, rfl⟩, ⟨_, rfl, rfl⟩, by decide +kernel, by decide +kernel⟩,
    ⟨_, _, _, _, rfl, rfl, rfl, rfl, by decide +kernel, by decide +kernel⟩,
    ⟨_, _, ⟨_, rfl, rfl⟩, ⟨_, rfl, rfl⟩, by decide +kernel, by decide +kernel⟩,
    ⟨_, _, ⟨_, rfl, rfl⟩, ⟨_, rfl, rfl⟩, by decide +kernel, by decide +kernel⟩⟩

end Barcoders
