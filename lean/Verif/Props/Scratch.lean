import Verif.Lemmas.Scratch
import Verif.Props.Exact
import Verif.Props.TwoDigits
import Verif.Props.DoubleErrors
import Verif.Props.AddOnErrors
import Verif.Props.Distance
import Verif.Props.Cut
import Verif.Props.OneModule
import Verif.Props.Errors
import Verif.Props.ExactCode128

/-!
# C90: a short scratch is never misread
-/

set_option autoImplicit false

namespace Barcoders
open Spec

/-- The slice with `n` modules from `p` on made white (for the examples). -/
def whitened (p n : Nat) (ms : List Nat) : List Nat := ms.take p ++ List.replicate n 0 ++ ms.drop (p + n)

theorem scratched_at (p n : Nat) (ms ms' : List Nat) (hl : ms.length = ms'.length) (h1 : ms.take p = ms'.take p)
    (h2 : ms.drop (p + n) = ms'.drop (p + n)) : Scratched n ms ms' := by
  refine ⟨ms.take p, (ms.drop p).take n, (ms'.drop p).take n, ms.drop (p + n), ?_, ?_, ?_, ?_⟩
  · rw [← List.drop_drop, List.append_assoc, List.take_append_drop, List.take_append_drop]
  · rw [h1, h2, ← List.drop_drop, List.append_assoc, List.take_append_drop, List.take_append_drop]
  · simp only [List.length_take, List.length_drop, hl]
  · rw [List.length_take]; omega


/-! ## EAN and UPC -/

/-- A digit with its place: 0 in the left half, 2 last in the left half (with the middle guard), 1 in the right half. -/
def eanCell : Nat × Bool × Nat → List Nat
  | (0, p) => paintFrom 0 (wAB p)
  | (1, p) => paintFrom 1 (wAB p)
  | (_, p) => paintFrom 0 (wAB p) ++ [0, 1, 0, 1, 0]

def eanLetters (ps qs : List (Bool × Nat)) : List (Nat × Bool × Nat) :=
  ps.dropLast.map (fun p => (0, p)) ++ (ps.getLast?.toList.map (fun p => (2, p)) ++ qs.map (fun p => (1, p)))

theorem eanLetters_snd (ps qs : List (Bool × Nat)) : (eanLetters ps qs).map Prod.snd = ps ++ qs := by
  rcases List.eq_nil_or_concat ps with rfl | ⟨ps, z, rfl⟩ <;>
    simp [eanLetters, Function.comp_def]

theorem eanLetters_fst (ps qs ps' qs' : List (Bool × Nat)) (h : ps.length = ps'.length) (h' : qs.length = qs'.length) :
    (eanLetters ps qs).map Prod.fst = (eanLetters ps' qs').map Prod.fst := by
  have key : ∀ ps qs : List (Bool × Nat), (eanLetters ps qs).map Prod.fst =
      List.replicate (ps.length - 1) 0 ++ (List.replicate (min ps.length 1) 2 ++ List.replicate qs.length 1) := by
    intro ps qs
    rcases List.eq_nil_or_concat ps with rfl | ⟨ps, z, rfl⟩ <;>
      simp [eanLetters, Function.comp_def, List.map_const']
  rw [key, key, h, h']

theorem eanLetters_length (ps qs ps' qs' : List (Bool × Nat)) (h : ps.length = ps'.length) (h' : qs.length = qs'.length) :
    (eanLetters ps qs).length = (eanLetters ps' qs').length := by
  have := congrArg List.length (eanLetters_fst ps qs ps' qs' h h')
  simpa using this

theorem ean_row (ps qs : List (Bool × Nat)) (hp : ∀ p ∈ ps, p.2 < 10) (hq : ∀ p ∈ qs, p.2 < 10) (hne : ps ≠ []) :
    paint (halvesWidths (ps.flatMap wAB) (qs.flatMap wAB)) =
      [1, 0, 1] ++ (eanLetters ps qs).flatMap eanCell ++ [1, 0, 1] := by
  have even : ∀ l : List (Bool × Nat), (∀ p ∈ l, p.2 < 10) → ∀ a ∈ l, (wAB a).length % 2 = 0 := fun l h a ha => by
    rw [(wAB_spec a.2 (h a ha) a.1).1]
  rw [paint_halves _ _ (by rw [wAB_length_of _ hp]; omega) (by rw [wAB_length_of _ hq]; omega),
    paintFrom_flatMap 0 (by omega) wAB _ (even _ hp), paintFrom_flatMap 1 (by omega) wAB _ (even _ hq)]
  rcases List.eq_nil_or_concat ps with rfl | ⟨ps, z, rfl⟩
  · exact absurd rfl hne
  · simp [eanLetters, List.flatMap_map, eanCell]

/-- The place of the digit is the same in both symbols. -/
theorem same_place {α β : Type} (f : α → β) (l m P P' R R' : List α) (a a' : α) (h : l.map f = m.map f) (hl : l = P ++ a :: R)
    (hm : m = P' ++ a' :: R') (hP : P.length = P'.length) : f a = f a' := by
  rw [hl, hm, List.map_append, List.map_append] at h
  have := (List.append_inj h (by simpa using hP)).2
  simp only [List.map_cons, List.cons.injEq] at this
  exact this.1

/-- Two different digits at the same place: equally long, different, and the difference begins before the last and ends after
the first module. -/
def farApart (t : Nat) (p q : Bool × Nat) : Bool :=
  eanCell (t, p) != eanCell (t, q) && (eanCell (t, p)).length == (eanCell (t, q)).length &&
    decide (lead (eanCell (t, p)) (eanCell (t, q)) + 2 ≤ (eanCell (t, p)).length) &&
    decide (lead (eanCell (t, p)).reverse (eanCell (t, q)).reverse + 2 ≤ (eanCell (t, p)).length)

theorem eanCell_farApart (s s' : Bool) : ∀ t < 3, ∀ d < 10, ∀ e < 10, (s, d) ≠ (s', e) →
    farApart t (s, d) (s', e) = true := by
  cases s <;> cases s' <;> decide +kernel

theorem eanCell_far (t : Nat) (ht : t < 3) (s s' : Bool) (d : Nat) (hd : d < 10) (e : Nat) (he : e < 10)
    (h : (s, d) ≠ (s', e)) :
    eanCell (t, s, d) ≠ eanCell (t, s', e) ∧ (eanCell (t, s, d)).length = (eanCell (t, s', e)).length ∧
    lead (eanCell (t, s, d)) (eanCell (t, s', e)) + 2 ≤ (eanCell (t, s, d)).length ∧
    lead (eanCell (t, s, d)).reverse (eanCell (t, s', e)).reverse + 2 ≤ (eanCell (t, s, d)).length := by
  have := eanCell_farApart s s' t ht d hd e he h
  simpa [farApart, and_assoc] using this

theorem eanCell_farA : ∀ t < 3, ∀ d < 10, ∀ e < 10, d ≠ e →
    lead (eanCell (t, false, d)) (eanCell (t, false, e)) + 3 ≤ (eanCell (t, false, d)).length ∧
    lead (eanCell (t, false, d)).reverse (eanCell (t, false, e)).reverse + 3 ≤ (eanCell (t, false, d)).length := by
  decide +kernel

theorem eanLetters_mem (ps qs : List (Bool × Nat)) :
    ∀ a ∈ eanLetters ps qs, a.1 < 3 ∧ a.2 ∈ ps ++ qs := by
  intro a ha
  refine ⟨?_, by rw [← eanLetters_snd]; exact List.mem_map_of_mem ha⟩
  simp only [eanLetters, List.mem_append, List.mem_map] at ha
  rcases ha with ⟨_, _, rfl⟩ | ⟨_, _, rfl⟩ | ⟨_, _, rfl⟩ <;> simp

theorem eanCell_length (a : Nat × Bool × Nat) (h : a.2.2 < 10) : (eanCell a).length = if a.1 < 2 then 7 else 12 := by
  obtain ⟨t, p⟩ := a
  match t with
  | 0 => simpa [eanCell] using wAB_module_length 0 p h
  | 1 => simpa [eanCell] using wAB_module_length 1 p h
  | t + 2 => simp [eanCell, wAB_module_length 0 p h]

theorem eanCells_length (B B' : List (Nat × Bool × Nat)) (h : B.map Prod.fst = B'.map Prod.fst)
    (hB : ∀ a ∈ B, a.2.2 < 10) (hB' : ∀ a ∈ B', a.2.2 < 10) : (B.flatMap eanCell).length = (B'.flatMap eanCell).length := by
  induction B generalizing B' with
  | nil => cases B' with
    | nil => rfl
    | cons => simp at h
  | cons a B ih => cases B' with
    | nil => simp at h
    | cons a' B' =>
      simp only [List.map_cons, List.cons.injEq] at h
      rw [List.flatMap_cons, List.flatMap_cons, List.length_append, List.length_append, eanCell_length a (hB a (by simp)),
        eanCell_length a' (hB' a' (by simp)), h.1, ih B' h.2 (fun x hx => hB x (by simp [hx])) (fun x hx => hB' x (by simp [hx]))]

/-- Two rows of digits that differ by a scratch of at most `2 * k - 1` modules, where every two digits differ in the last and
the first `k` modules, differ in one digit. -/
theorem ean_one_letter (k n : Nat) (hk : n < k + k) (ps qs ps' qs' : List (Bool × Nat)) (hp : ∀ p ∈ ps ++ qs, p.2 < 10)
    (hp' : ∀ p ∈ ps' ++ qs', p.2 < 10) (hl : ps.length = ps'.length) (hl' : qs.length = qs'.length) (h0 : ps ≠ [])
    (hfar : ∀ t < 3, ∀ a ∈ ps ++ qs, ∀ a' ∈ ps' ++ qs', a ≠ a' →
      lead (eanCell (t, a)) (eanCell (t, a')) + k ≤ (eanCell (t, a)).length ∧
      lead (eanCell (t, a)).reverse (eanCell (t, a')).reverse + k ≤ (eanCell (t, a)).length)
    (h : Scratched n (paint (halvesWidths (ps.flatMap wAB) (qs.flatMap wAB)))
      (paint (halvesWidths (ps'.flatMap wAB) (qs'.flatMap wAB)))) (hne : ps ++ qs ≠ ps' ++ qs') :
    ∃ P a a' Q, ps ++ qs = P ++ a :: Q ∧ ps' ++ qs' = P ++ a' :: Q ∧ a ≠ a' := by
  have h0' : ps' ≠ [] := by rintro rfl; exact h0 (List.length_eq_zero_iff.mp hl)
  rw [ean_row ps qs (fun p h => hp p (by simp [h])) (fun p h => hp p (by simp [h])) h0,
    ean_row ps' qs' (fun p h => hp' p (by simp [h])) (fun p h => hp' p (by simp [h])) h0'] at h
  have hf := eanLetters_fst ps qs ps' qs' hl hl'
  have m1 := eanLetters_mem ps qs
  have m2 := eanLetters_mem ps' qs'
  have s1 := eanLetters_snd ps qs
  have s2 := eanLetters_snd ps' qs'
  have hlne : eanLetters ps qs ≠ eanLetters ps' qs' := by
    intro he; rw [← s1, ← s2, he] at hne; exact hne rfl
  rcases diff_cases _ _ (eanLetters_length ps qs ps' qs' hl hl') hlne with
    ⟨P, a, a', Q, e1, e2, hne'⟩ | ⟨P, a, a', B, B', c, c', Q, e1, e2, ha, hc, hB⟩
  · have ht := same_place Prod.fst _ _ _ _ _ _ a a' hf e1 e2 rfl
    refine ⟨P.map Prod.snd, a.2, a'.2, Q.map Prod.snd, ?_, ?_, fun h => hne' (Prod.ext ht h)⟩
    · rw [← s1, e1]; simp
    · rw [← s2, e2]; simp
  · exfalso
    have e1' : eanLetters ps qs = (P ++ a :: B) ++ c :: Q := by rw [e1]; simp
    have e2' : eanLetters ps' qs' = (P ++ a' :: B') ++ c' :: Q := by rw [e2]; simp
    have ta := same_place Prod.fst _ _ _ _ _ _ a a' hf e1 e2 rfl
    have tc := same_place Prod.fst _ _ _ _ _ _ c c' hf e1' e2' (by simp [hB])
    have hBf : B.map Prod.fst = B'.map Prod.fst := by
      rw [e1, e2, List.map_append, List.map_append, List.append_cancel_left_eq, List.map_cons, List.map_cons,
        List.cons.injEq, List.map_append, List.map_append] at hf
      exact (List.append_inj hf.2 (by simpa using hB)).1
    have M1 : ∀ x, x ∈ P ++ a :: (B ++ c :: Q) → x.1 < 3 ∧ x.2 ∈ ps ++ qs := fun x hx => m1 x (by rw [e1]; exact hx)
    have M2 : ∀ x, x ∈ P ++ a' :: (B' ++ c' :: Q) → x.1 < 3 ∧ x.2 ∈ ps' ++ qs' := fun x hx => m2 x (by rw [e2]; exact hx)
    obtain ⟨ma1, ma2⟩ := M1 a (by simp)
    obtain ⟨ma1', ma2'⟩ := M2 a' (by simp)
    obtain ⟨mc1, mc2⟩ := M1 c (by simp)
    obtain ⟨mc1', mc2'⟩ := M2 c' (by simp)
    rw [e1, e2] at h
    have ka : a.2 ≠ a'.2 := fun h => ha (Prod.ext ta h)
    have kc : c.2 ≠ c'.2 := fun h => hc (Prod.ext tc h)
    have ea' : a' = (a.1, a'.2) := Prod.ext ta.symm rfl
    have ec' : c' = (c.1, c'.2) := Prod.ext tc.symm rfl
    have fa := eanCell_far a.1 ma1 a.2.1 a'.2.1 a.2.2 (hp _ ma2) a'.2.2 (hp' _ ma2') ka
    have fc := eanCell_far c.1 mc1 c.2.1 c'.2.1 c.2.2 (hp _ mc2) c'.2.2 (hp' _ mc2') kc
    have := scratched_span eanCell _ _ P B B' Q a a' c c' n (by rw [ea']; exact fa.1) (by rw [ec']; exact fc.1)
      (by rw [ea']; exact fa.2.1) (by rw [ec']; exact fc.2.1)
      (eanCells_length B B' hBf (fun x hx => hp _ (M1 x (by simp [hx])).2) (fun x hx => hp' _ (M2 x (by simp [hx])).2)) h
    have g1 := (hfar a.1 ma1 a.2 ma2 a'.2 ma2' ka).1
    have g2 := (hfar c.1 mc1 c.2 mc2 c'.2 mc2' kc).2
    rw [← ea'] at g1
    rw [← ec'] at g2
    simp only [Prod.eta] at g1 g2
    omega

/-- One changed digit is noticed by the check digit. -/
theorem gs1Valid_one (P Q : List Nat) (a a' : Nat) (h : Gs1Valid (P ++ a :: Q)) (h' : Gs1Valid (P ++ a' :: Q)) (ha : a < 10)
    (ha' : a' < 10) : a = a' := by
  rcases List.eq_nil_or_concat Q with rfl | ⟨Q, z, rfl⟩
  · rw [gs1Valid_append _ _ ha] at h
    rw [gs1Valid_append _ _ ha'] at h'
    rw [h, h']
  · simp only [List.concat_eq_append] at h h'
    have := (gs1Valid_two P Q [] a z a' z h).mp h'
    rw [Int.sub_self, Int.mul_zero, Int.add_zero] at this
    unfold gs1Weight at this
    split at this <;> omega

theorem halves_scratched (m : Nat) (hm : 0 < m) (ls rs ls' rs' : List Nat) (hls : Digits ls) (hrs : Digits rs) (hls' : Digits ls')
    (hrs' : Digits rs') (ll : ls.length = m) (lr : rs.length = m) (ll' : ls'.length = m) (lr' : rs'.length = m)
    (hv : Gs1Valid (ls ++ rs)) (hv' : Gs1Valid (ls' ++ rs'))
    (h : Scratched 5 (paint (halvesWidths (ls.flatMap wA) (rs.flatMap wA)))
      (paint (halvesWidths (ls'.flatMap wA) (rs'.flatMap wA)))) : ls ++ rs = ls' ++ rs' := by
  refine Classical.byContradiction fun hne => ?_
  rw [wA_wAB, wA_wAB, wA_wAB, wA_wAB] at h
  have dig : ∀ l r : List Nat, Digits l → Digits r →
      ∀ p ∈ l.map (fun d => (false, d)) ++ r.map (fun d => (false, d)), p.1 = false ∧ p.2 < 10 := by
    intro l r hl hr p hp
    simp only [List.mem_append, List.mem_map] at hp
    rcases hp with ⟨d, hd, rfl⟩ | ⟨d, hd, rfl⟩
    · exact ⟨rfl, hl d hd⟩
    · exact ⟨rfl, hr d hd⟩
  have D := dig ls rs hls hrs
  have D' := dig ls' rs' hls' hrs'
  have back : ∀ l r : List Nat, (l.map (fun d => (false, d)) ++ r.map (fun d => (false, d))).map Prod.snd = l ++ r := by
    intro l r; simp [Function.comp_def]
  obtain ⟨P, a, a', Q, e1, e2, hne'⟩ := ean_one_letter 3 5 (by omega) _ _ _ _ (fun p hp => (D p hp).2) (fun p hp => (D' p hp).2)
    (by simp [ll, ll']) (by simp [lr, lr']) (by intro h; simp at h; simp [h] at ll; omega)
    (by
      intro t ht a ha a' ha' hne
      obtain ⟨h1, h2⟩ := D a ha
      obtain ⟨h3, h4⟩ := D' a' ha'
      obtain ⟨s, d⟩ := a
      obtain ⟨s', d'⟩ := a'
      simp only at h1 h2 h3 h4
      subst h1 h3
      exact eanCell_farA t ht d h2 d' h4 (by rintro rfl; exact hne rfl)) h
    (by intro h; have := congrArg (List.map Prod.snd) h; rw [back, back] at this; exact hne this)
  have A := D a (by rw [e1]; simp)
  have A' := D' a' (by rw [e2]; simp)
  have f1 := back ls rs
  have f2 := back ls' rs'
  rw [e1] at f1
  rw [e2] at f2
  rw [← f1] at hv
  rw [← f2] at hv'
  simp only [List.map_append, List.map_cons] at hv hv'
  exact hne' (Prod.ext (A.1.trans A'.1.symm) (gs1Valid_one _ _ _ _ hv hv' A.2 A'.2))

theorem setDist_append (a b c d : List Bool) (h : a.length = c.length) : setDist (a ++ b) (c ++ d) = setDist a c + setDist b d := by
  induction a generalizing c with
  | nil => cases c with
    | nil => simp [setDist]
    | cons => simp at h
  | cons x a ih => cases c with
    | nil => simp at h
    | cons y c => simp only [List.cons_append, setDist, ih c (by simpa using h)]; omega

theorem setDist_self (a : List Bool) : setDist a a = 0 := by
  induction a with
  | nil => rfl
  | cons x a ih => simp [setDist, ih]

theorem ean13_scratched (d0 : Nat) (ls rs : List Nat) (d0' : Nat) (ls' rs' : List Nat) (h0 : d0 < 10) (h0' : d0' < 10)
    (hls : Digits ls) (hrs : Digits rs) (hls' : Digits ls') (hrs' : Digits rs') (ll : ls.length = 6) (lr : rs.length = 6)
    (ll' : ls'.length = 6) (lr' : rs'.length = 6)
    (hv : Gs1Valid (d0 :: (ls ++ rs))) (hv' : Gs1Valid (d0' :: (ls' ++ rs')))
    (h : Scratched 3 (paint (ean13Widths d0 ls rs)) (paint (ean13Widths d0' ls' rs'))) :
    d0 :: (ls ++ rs) = d0' :: (ls' ++ rs') := by
  refine Classical.byContradiction fun hne => ?_
  have hs := (parity_spec d0 h0).2.2.2.2.2
  have hs' := (parity_spec d0' h0').2.2.2.2.2
  rw [ean13Widths, ean13Widths, wA_wAB, wA_wAB] at h
  have dig : ∀ (d : Nat) (l r : List Nat), Digits l → Digits r →
      ∀ p ∈ (setsOf d).zip l ++ r.map (fun d => (false, d)), p.2 < 10 := by
    intro d l r hl hr p hp
    simp only [List.mem_append, List.mem_map] at hp
    rcases hp with hp | ⟨d, hd, rfl⟩
    · exact zip_snd_lt _ _ hl p hp
    · exact hr d hd
  have D := dig d0 ls rs hls hrs
  have D' := dig d0' ls' rs' hls' hrs'
  have back2 : ∀ (d : Nat) (l r : List Nat), (setsOf d).length = 6 → l.length = 6 →
      ((setsOf d).zip l ++ r.map (fun d => (false, d))).map Prod.snd = l ++ r := by
    intro d l r h1 h2
    rw [List.map_append, List.map_snd_zip (by omega)]
    simp [Function.comp_def]
  have back1 : ∀ (d : Nat) (l r : List Nat), (setsOf d).length = 6 → l.length = 6 → r.length = 6 →
      ((setsOf d).zip l ++ r.map (fun d => (false, d))).map Prod.fst = setsOf d ++ List.replicate 6 false := by
    intro d l r h1 h2 h3
    rw [List.map_append, List.map_fst_zip (by omega)]
    simp [Function.comp_def, List.map_const', h3]
  have b1 := back1 d0 ls rs hs ll lr
  have b1' := back1 d0' ls' rs' hs' ll' lr'
  have b2 := back2 d0 ls rs hs ll
  have b2' := back2 d0' ls' rs' hs' ll'
  obtain ⟨P, a, a', Q, e1, e2, hne'⟩ := ean_one_letter 2 3 (by omega) _ _ _ _ D D'
    (by simp [ll, ll', hs, hs']) (by simp [lr, lr']) (by intro h; have := congrArg List.length h; simp [hs, ll] at this)
    (fun t ht a ha a' ha' hne => (eanCell_far t ht a.1 a'.1 a.2 (D a ha) a'.2 (D' a' ha') hne).2.2) h
    (by
      intro h
      have q1 := congrArg (List.map Prod.snd) h
      have q2 := congrArg (List.map Prod.fst) h
      rw [b2, b2'] at q1
      rw [b1, b1', List.append_left_inj] at q2
      have : d0 = d0' := by
        refine Classical.byContradiction fun hd => ?_
        have := setsOf_dist d0 h0 d0' h0' hd
        rw [q2, setDist_self] at this
        omega
      exact hne (by rw [this, q1]))
  have A := D a (by rw [e1]; simp)
  have A' := D' a' (by rw [e2]; simp)
  rw [e1] at b1 b2
  rw [e2] at b1' b2'
  have hd : d0 = d0' := by
    refine Classical.byContradiction fun hd => ?_
    have h2 := setsOf_dist d0 h0 d0' h0' hd
    have h3 := setDist_append (setsOf d0) (List.replicate 6 false) (setsOf d0') (List.replicate 6 false) (by omega)
    rw [← b1, ← b1', setDist_self, List.map_append, List.map_append, setDist_append _ _ _ _ rfl, setDist_self,
      List.map_cons, List.map_cons, setDist, setDist_self] at h3
    split at h3 <;> omega
  subst hd
  have hset : a.1 = a'.1 := by
    have := b1.trans b1'.symm
    rw [List.map_append, List.map_append, List.append_cancel_left_eq, List.map_cons, List.map_cons, List.cons.injEq] at this
    exact this.1
  rw [← b2] at hv
  rw [← b2'] at hv'
  simp only [List.map_append, List.map_cons, ← List.cons_append] at hv hv'
  exact hne' (Prod.ext hset (gs1Valid_one _ _ _ _ hv hv' A A'))

theorem gs1Valid_complete (ds es : List Nat) (h : es = ds ++ [gs1Digit ds]) : Gs1Valid es := by
  rw [h]
  exact (gs1Valid_append _ _ (by unfold gs1Digit; omega)).mpr rfl

/-- C90. Overwriting a stretch of at most three modules of an EAN-13 symbol leaves it as it was or unreadable. -/
theorem C90_ean13 (b : Build) (s : List Char) (x : Ean13.EAN13) (hx : Ean13.new b s = .ok x) (ms ms' : List Nat)
    (he : Ean13.encode b x = .ok ms) (hs : Scratched 3 ms ms') (hne : ms' ≠ ms) : scanEan13 ms' = none := by
  cases h : scanEan13 ms' with
  | none => rfl
  | some ds =>
    obtain ⟨s', -, -, y, hy, he'⟩ := (C75_ean13 b ms' ds).mp h
    obtain ⟨d0, ls, rs, h0, hls, hrs, ll, lr, hd, e1⟩ := ean13_symbol b s x hx
    obtain ⟨d0', ls', rs', h0', hls', hrs', ll', lr', hd', e2⟩ := ean13_symbol b s' y hy
    rw [e1, Outcome.ok.injEq] at he
    change Ean13.encode b y = .ok ms' at he'
    rw [e2, Outcome.ok.injEq] at he'
    subst he he'
    have := ean13_scratched d0 ls rs d0' ls' rs' h0 h0' hls hrs hls' hrs' ll lr ll' lr' (gs1Valid_complete _ _ hd)
      (gs1Valid_complete _ _ hd') hs
    obtain ⟨rfl, rfl, rfl⟩ := cons_append_inj d0 d0' ls rs ls' rs' (by omega) this
    exact absurd rfl hne

example : ∃ ms, (Ean13.new .debug "123456123456".toList >>= Ean13.encode .debug) = .ok ms ∧ Scratched 3 ms (whitened 19 3 ms) ∧
    whitened 19 3 ms ≠ ms ∧ scanEan13 (whitened 19 3 ms) = none :=
  ⟨_, rfl, scratched_at 19 3 _ _ (by decide +kernel) (by decide +kernel) (by decide +kernel), by decide +kernel, by decide +kernel⟩

/-- C90. The same for EAN-8 and stretches of at most five modules. -/
theorem C90_ean8 (b : Build) (s : List Char) (x : Ean8.EAN8) (hx : Ean8.new b s = .ok x) (ms ms' : List Nat)
    (he : Ean8.encode b x = .ok ms) (hs : Scratched 5 ms ms') (hne : ms' ≠ ms) : scanEan8 ms' = none := by
  cases h : scanEan8 ms' with
  | none => rfl
  | some ds =>
    obtain ⟨s', -, -, y, hy, he'⟩ := (C75_ean8 b ms' ds).mp h
    obtain ⟨ls, rs, hls, hrs, ll, lr, hd, e1⟩ := ean8_symbol b s x hx
    obtain ⟨ls', rs', hls', hrs', ll', lr', hd', e2⟩ := ean8_symbol b s' y hy
    rw [e1, Outcome.ok.injEq] at he
    change Ean8.encode b y = .ok ms' at he'
    rw [e2, Outcome.ok.injEq] at he'
    subst he he'
    have := halves_scratched 4 (by omega) ls rs ls' rs' hls hrs hls' hrs' ll lr ll' lr' (gs1Valid_complete _ _ hd)
      (gs1Valid_complete _ _ hd') hs
    obtain ⟨rfl, rfl⟩ := List.append_inj this (by omega)
    exact absurd rfl hne

example : ∃ ms, (Ean8.new .debug "5512345".toList >>= Ean8.encode .debug) = .ok ms ∧ Scratched 5 ms (whitened 12 5 ms) ∧
    whitened 12 5 ms ≠ ms ∧ scanEan8 (whitened 12 5 ms) = none :=
  ⟨_, rfl, scratched_at 12 5 _ _ (by decide +kernel) (by decide +kernel) (by decide +kernel), by decide +kernel, by decide +kernel⟩

/-- C90. The same for UPC-A. -/
theorem C90_upca (b : Build) (s : List Char) (x : Upca.UPCA) (hx : Upca.new b s = .ok x) (ms ms' : List Nat)
    (he : Upca.encode b x = .ok ms) (hs : Scratched 5 ms ms') (hne : ms' ≠ ms) : scanUpca ms' = none := by
  cases h : scanUpca ms' with
  | none => rfl
  | some ds =>
    obtain ⟨s', -, -, y, hy, he'⟩ := (C75_upca b ms' ds).mp h
    obtain ⟨ls, rs, hls, hrs, ll, lr, hd, e1⟩ := upca_symbol b s x hx
    obtain ⟨ls', rs', hls', hrs', ll', lr', hd', e2⟩ := upca_symbol b s' y hy
    rw [e1, Outcome.ok.injEq] at he
    change Upca.encode b y = .ok ms' at he'
    rw [e2, Outcome.ok.injEq] at he'
    subst he he'
    have := halves_scratched 6 (by omega) ls rs ls' rs' hls hrs hls' hrs' ll lr ll' lr' (gs1Valid_complete _ _ hd)
      (gs1Valid_complete _ _ hd') hs
    obtain ⟨rfl, rfl⟩ := List.append_inj this (by omega)
    exact absurd rfl hne

example : ∃ ms, (Upca.new .debug "01234567890".toList >>= Upca.encode .debug) = .ok ms ∧ Scratched 5 ms (whitened 15 5 ms) ∧
    whitened 15 5 ms ≠ ms ∧ scanUpca (whitened 15 5 ms) = none :=
  ⟨_, rfl, scratched_at 15 5 _ _ (by decide +kernel) (by decide +kernel) (by decide +kernel), by decide +kernel, by decide +kernel⟩

/-! ## Add-ons of five digits -/

/-- A character of an add-on after the first, with its separator. -/
def addOnCell : Bool × Bool × Nat → List Nat
  | (first, p) => (if first then [] else [0, 1]) ++ paintFrom 0 (wAB p)

def addOnLetters : List (Bool × Nat) → List (Bool × Bool × Nat)
  | [] => []
  | p :: ps => (true, p) :: ps.map (fun p => (false, p))

theorem addOn_row (ps : List (Bool × Nat)) (hp : ∀ p ∈ ps, p.2 < 10) (h0 : ps ≠ []) :
    paint (suppWidths ps) = [1, 0, 1, 1] ++ (addOnLetters ps).flatMap addOnCell ++ [] := by
  match ps, h0 with
  | p :: ps, _ =>
    rw [suppWidths, paint, paintFrom_append_odd 1 (by omega) _ _ (by decide),
      paintFrom_append_even _ (by omega) _ _ (by rw [(wAB_spec p.2 (hp p (by simp)) p.1).1]), paintFrom_flatMap _ (by omega)]
    · simp [paintFrom, addOnLetters, addOnCell, List.flatMap_map]
    · intro q hq
      rw [List.length_append, (wAB_spec q.2 (hp q (by simp [hq])) q.1).1]
      rfl

theorem addOnLetters_snd (ps : List (Bool × Nat)) : (addOnLetters ps).map Prod.snd = ps := by
  cases ps <;> simp [addOnLetters, Function.comp_def]

theorem addOnLetters_fst (ps qs : List (Bool × Nat)) (h : ps.length = qs.length) :
    (addOnLetters ps).map Prod.fst = (addOnLetters qs).map Prod.fst := by
  cases ps with
  | nil => cases qs with
    | nil => rfl
    | cons => simp at h
  | cons p ps => cases qs with
    | nil => simp at h
    | cons q qs =>
      simp only [List.length_cons, Nat.add_right_cancel_iff] at h
      simp [addOnLetters, Function.comp_def, List.map_const', h]

def addOnFar (p q : Bool × Nat) : Bool :=
  let a := paintFrom 0 (wAB p)
  let c := paintFrom 0 (wAB q)
  a != c && a.length == 7 && c.length == 7 && decide (lead a c ≤ 5) && decide (lead a.reverse c.reverse ≤ 5)

theorem addOnCell_far (s s' : Bool) : ∀ d < 10, ∀ e < 10, (s, d) ≠ (s', e) → addOnFar (s, d) (s', e) = true := by
  cases s <;> cases s' <;> decide +kernel

theorem lead_le (a c : List Nat) : lead a c ≤ a.length := by
  induction a generalizing c with
  | nil => cases c <;> simp [lead]
  | cons x a ih => cases c with
    | nil => simp [lead]
    | cons y c =>
      have := ih c
      simp only [lead, List.length_cons]
      split <;> omega

theorem addOnCharacters_paint (ps : List (Bool × Nat)) (h : ∀ p ∈ ps, p.2 < 10) (h0 : ps ≠ []) :
    addOnCharacters (paint (suppWidths ps)) = some ps := by
  match ps, h0 with
  | p :: ps, _ =>
    rw [addOnCharacters, elements_paint _ (fun w hw => (suppWidths_pos _ h w hw).1) (by simp [suppWidths])]
    simp only [Option.bind_eq_bind, Option.bind_some, suppWidths]
    have h1 := readN_append 4 readAB wAB id [p] (ps.flatMap (fun q => [1, 1] ++ wAB q))
      (by intro q hq; rw [List.mem_singleton] at hq; subst hq; exact wAB_spec q.2 (h q (by simp)) q.1)
    have h2 := readAll_flatMap 6 (by omega) readAddOnDigit (fun q => [1, 1] ++ wAB q) id ps
      (by
        intro q hq
        have := wAB_spec q.2 (h q (by simp [hq])) q.1
        refine ⟨by rw [List.length_append, this.1]; rfl, ?_⟩
        rw [readAddOnDigit, expect_append, Option.bind_some, this.2]; rfl)
    simp only [List.length_singleton, List.flatMap_cons, List.flatMap_nil, List.append_nil, List.map_id] at h1 h2
    simp only [expect_append, Option.bind_some, h1, h2, List.singleton_append]

theorem addOnLetters_tail (ps : List (Bool × Nat)) (P B Q : List (Bool × Bool × Nat)) (a c : Bool × Bool × Nat)
    (h : addOnLetters ps = P ++ a :: (B ++ c :: Q)) : c.1 = false := by
  have key : ∀ y ∈ (addOnLetters ps).tail, y.1 = false := by
    cases ps with
    | nil => simp [addOnLetters]
    | cons p ps => simp [addOnLetters]
  apply key
  rw [h]
  cases P <;> simp

theorem addOnCell_length (a : Bool × Bool × Nat) (h : a.2.2 < 10) : (addOnCell a).length = if a.1 then 7 else 9 := by
  obtain ⟨f, p⟩ := a
  cases f <;> simp [addOnCell, wAB_module_length 0 p h]

theorem addOnCells_length (B B' : List (Bool × Bool × Nat)) (h : B.map Prod.fst = B'.map Prod.fst)
    (hB : ∀ a ∈ B, a.2.2 < 10) (hB' : ∀ a ∈ B', a.2.2 < 10) :
    (B.flatMap addOnCell).length = (B'.flatMap addOnCell).length := by
  induction B generalizing B' with
  | nil => cases B' with
    | nil => rfl
    | cons => simp at h
  | cons a B ih => cases B' with
    | nil => simp at h
    | cons a' B' =>
      simp only [List.map_cons, List.cons.injEq] at h
      rw [List.flatMap_cons, List.flatMap_cons, List.length_append, List.length_append, addOnCell_length a (hB a (by simp)),
        addOnCell_length a' (hB' a' (by simp)), h.1, ih B' h.2 (fun x hx => hB x (by simp [hx])) (fun x hx => hB' x (by simp [hx]))]

theorem addOnCell_apart (f : Bool) (p q : Bool × Nat) (hp : p.2 < 10) (hq : q.2 < 10) (hne : p ≠ q) :
    addOnCell (f, p) ≠ addOnCell (f, q) ∧ (addOnCell (f, p)).length = (addOnCell (f, q)).length ∧
    lead (addOnCell (f, p)) (addOnCell (f, q)) + 2 ≤ (addOnCell (f, p)).length ∧
    lead (addOnCell (f, p)).reverse (addOnCell (f, q)).reverse ≤ 5 := by
  have h := addOnCell_far p.1 q.1 p.2 hp q.2 hq hne
  simp only [addOnFar, Bool.and_eq_true, bne_iff_ne, ne_eq, beq_iff_eq, decide_eq_true_eq] at h
  obtain ⟨⟨⟨⟨h1, h2⟩, h3⟩, h4⟩, h5⟩ := h
  simp only [Prod.eta] at *
  unfold addOnCell
  simp only
  refine ⟨by simpa using h1, by simp [h2, h3], ?_, ?_⟩
  · rw [lead_append_same, List.length_append]; omega
  · rw [List.reverse_append, List.reverse_append, lead_append_ne _ _ _ _ (by simp [h2, h3]) (by simpa using h1)]
    exact h5

/-- C90. Overwriting a stretch of at most five modules of a five-digit add-on leaves it as it was or unreadable. -/
theorem C90_ean5 (b : Build) (s : List Char) (x : EanSupp.EANSUPP) (hx : EanSupp.new s = .ok x) (h5 : s.length = 5)
    (ms ms' : List Nat) (he : EanSupp.encode b x = .ok ms) (hs : Scratched 5 ms ms') (hne : ms' ≠ ms) :
    scanAddOn ms' = none := by
  cases h : scanAddOn ms' with
  | none => rfl
  | some ds =>
    exfalso
    obtain ⟨s', -, y, hy, he'⟩ := (C75_supp b ms' ds).mp h
    change EanSupp.encode b y = .ok ms' at he'
    have r := (C32_supp_row b s x ms hx he).length
    have r' := (C32_supp_row b s' y ms' hy he').length
    have hlen := (scratched_lead _ _ _ hs).1
    obtain ⟨ws, e1, k1, l1, d1, -⟩ := supp_symbol_sets s x hx
    obtain ⟨ws', e2, k2, l2, d2, -⟩ := supp_symbol_sets s' y hy
    have hl : ws.length = ws'.length := by
      rw [r, r'] at hlen
      split at hlen <;> split at hlen <;> omega
    have n1 : ws ≠ [] := by rintro rfl; simp at l1; omega
    have n2 : ws' ≠ [] := by rintro rfl; simp at hl; exact n1 hl
    have he0 := he
    rw [e1, Outcome.ok.injEq] at he
    rw [e2, Outcome.ok.injEq] at he'
    subst he'
    subst he
    have c1 := addOnCharacters_paint ws d1 n1
    have c2 := addOnCharacters_paint ws' d2 n2
    have hwne : ws ≠ ws' := by rintro rfl; exact hne rfl
    have one : ∀ P a a' Q, ws = P ++ a :: Q → ws' = P ++ a' :: Q → a ≠ a' → False := by
      intro P a a' Q q1 q2 q3
      rw [q1] at c1
      rw [q2] at c2
      have := C74_ean5_single_error b s x _ _ hx he0 h5 P Q a a' (by rw [← q1] at c1 ⊢; exact c1) (by rw [← q2] at c2 ⊢; exact c2) q3
      rw [h] at this
      cases this
    have hf := addOnLetters_fst ws ws' hl
    have s1 := addOnLetters_snd ws
    have s2 := addOnLetters_snd ws'
    rw [addOn_row ws d1 n1, addOn_row ws' d2 n2] at hs
    rcases diff_cases (addOnLetters ws) (addOnLetters ws') (by have := congrArg List.length hf; simpa using this)
      (by intro h; rw [← s1, ← s2, h] at hwne; exact hwne rfl) with
      ⟨P, a, a', Q, q1, q2, hne'⟩ | ⟨P, a, a', B, B', c, c', Q, q1, q2, ha, hc, hB⟩
    · have ht := same_place Prod.fst _ _ _ _ _ _ a a' hf q1 q2 rfl
      refine one (P.map Prod.snd) a.2 a'.2 (Q.map Prod.snd) ?_ ?_ (fun h => hne' (Prod.ext ht h))
      · rw [← s1, q1]; simp
      · rw [← s2, q2]; simp
    · have q1' : addOnLetters ws = (P ++ a :: B) ++ c :: Q := by rw [q1]; simp
      have q2' : addOnLetters ws' = (P ++ a' :: B') ++ c' :: Q := by rw [q2]; simp
      have ta := same_place Prod.fst _ _ _ _ _ _ a a' hf q1 q2 rfl
      have tc := same_place Prod.fst _ _ _ _ _ _ c c' hf q1' q2' (by simp [hB])
      have fc := addOnLetters_tail ws P B Q a c q1
      have hBf : B.map Prod.fst = B'.map Prod.fst := by
        rw [q1, q2, List.map_append, List.map_append, List.append_cancel_left_eq, List.map_cons, List.map_cons,
          List.cons.injEq, List.map_append, List.map_append] at hf
        exact (List.append_inj hf.2 (by simpa using hB)).1
      have M1 : ∀ z, z ∈ P ++ a :: (B ++ c :: Q) → z.2.2 < 10 := fun z hz =>
        d1 z.2 (by rw [← s1]; exact List.mem_map_of_mem (by rw [q1]; exact hz))
      have M2 : ∀ z, z ∈ P ++ a' :: (B' ++ c' :: Q) → z.2.2 < 10 := fun z hz =>
        d2 z.2 (by rw [← s2]; exact List.mem_map_of_mem (by rw [q2]; exact hz))
      rw [q1, q2] at hs
      have ea' : a' = (a.1, a'.2) := Prod.ext ta.symm rfl
      have ec' : c' = (c.1, c'.2) := Prod.ext tc.symm rfl
      have ga := addOnCell_apart a.1 a.2 a'.2 (M1 a (by simp)) (M2 a' (by simp)) (fun h => ha (Prod.ext ta h))
      have gc := addOnCell_apart c.1 c.2 c'.2 (M1 c (by simp)) (M2 c' (by simp)) (fun h => hc (Prod.ext tc h))
      rw [← ea'] at ga
      rw [← ec'] at gc
      simp only [Prod.eta] at ga gc
      have := scratched_span addOnCell _ _ P B B' Q a a' c c' 5 ga.1 gc.1 ga.2.1 gc.2.1
        (addOnCells_length B B' hBf (fun z hz => M1 z (by simp [hz])) (fun z hz => M2 z (by simp [hz]))) hs
      have lc := addOnCell_length c (M1 c (by simp))
      rw [fc, if_neg (by simp)] at lc
      omega

example : ∃ ms, (EanSupp.new "51234".toList >>= EanSupp.encode .debug) = .ok ms ∧ Scratched 5 ms (whitened 10 5 ms) ∧
    whitened 10 5 ms ≠ ms ∧ scanAddOn (whitened 10 5 ms) = none :=
  ⟨_, rfl, scratched_at 10 5 _ _ (by decide +kernel) (by decide +kernel) (by decide +kernel), by decide +kernel, by decide +kernel⟩

/-! ## Characters of equal length -/

theorem lead_self (a : List Nat) : lead a a = a.length := by
  induction a with
  | nil => rfl
  | cons x a ih => simp [lead, ih]

/-- Two rows of characters of `k` modules that differ by a short scratch differ in one character or in two adjacent ones. -/
theorem fixed_cases {α : Type} [DecidableEq α] (k n t e : Nat) (g : α → List Nat) (X Y : List Nat) (l m : List α)
    (hl : ∀ a ∈ l, (g a).length = k) (hm : ∀ a ∈ m, (g a).length = k) (hlen : l.length = m.length) (hne : l ≠ m)
    (hfar : ∀ a ∈ l, ∀ c ∈ m, a ≠ c → lead (g a) (g c) + t ≤ k ∧ lead (g a).reverse (g c).reverse + e ≤ k) (ht : 0 < t)
    (hn : n < k + t + e) (h : Scratched n (X ++ l.flatMap g ++ Y) (X ++ m.flatMap g ++ Y)) :
    (∃ P a a' Q, l = P ++ a :: Q ∧ m = P ++ a' :: Q ∧ a ≠ a') ∨
    ∃ P a a' c c' Q, l = P ++ a :: c :: Q ∧ m = P ++ a' :: c' :: Q ∧ a ≠ a' ∧ c ≠ c' ∧
      k + k ≤ n + lead (g a) (g a') + lead (g c).reverse (g c').reverse := by
  have inj : ∀ a ∈ l, ∀ c ∈ m, a ≠ c → g a ≠ g c := by
    intro a ha c hc hac he
    have := (hfar a ha c hc hac).1
    rw [← he, lead_self, hl a ha] at this
    omega
  rcases diff_cases l m hlen hne with h1 | ⟨P, a, a', B, B', c, c', Q, rfl, rfl, ha, hc, hB⟩
  · exact Or.inl h1
  · right
    have la := hl a (by simp)
    have la' := hm a' (by simp)
    have lc := hl c (by simp)
    have lc' := hm c' (by simp)
    have lB := flatMap_length k g B (fun x hx => hl x (by simp [hx]))
    have lB' := flatMap_length k g B' (fun x hx => hm x (by simp [hx]))
    have := scratched_span g X Y P B B' Q a a' c c' n (inj a (by simp) a' (by simp) ha) (inj c (by simp) c' (by simp) hc)
      (by omega) (by omega) (by rw [lB, lB', hB]) h
    have f1 := (hfar a (by simp) a' (by simp) ha).1
    have f2 := (hfar c (by simp) c' (by simp) hc).2
    match B, B', hB with
    | [], [], _ =>
      refine ⟨P, a, a', c, c', Q, rfl, rfl, ha, hc, ?_⟩
      simp only [List.flatMap_nil, List.length_nil] at this
      omega
    | x :: B, x' :: B', _ =>
      rw [lB, List.length_cons, Nat.mul_succ] at this
      omega

/-! ## Code 39 with check character -/

theorem m39_far : ∀ c ∈ '*' :: code39Alphabet, ∀ d ∈ '*' :: code39Alphabet, c ≠ d →
    lead (paintFrom 1 (w39 c ++ [1])) (paintFrom 1 (w39 d ++ [1])) + 4 ≤ 13 ∧
    lead (paintFrom 1 (w39 c ++ [1])).reverse (paintFrom 1 (w39 d ++ [1])).reverse + 3 ≤ 13 := by decide +kernel

/-- Only few pairs of characters agree in the first nine or in the last ten modules. -/
theorem m39_values : ∀ c ∈ code39Alphabet, ∀ d ∈ code39Alphabet, c ≠ d →
    (lead (paintFrom 1 (w39 c ++ [1])) (paintFrom 1 (w39 d ++ [1])) = 9 →
      (code39Value d + 43 - code39Value c) % 43 ∈ [4, 6, 7, 36, 37, 39]) ∧
    (lead (paintFrom 1 (w39 c ++ [1])).reverse (paintFrom 1 (w39 d ++ [1])).reverse = 10 →
      (code39Value d + 43 - code39Value c) % 43 ∈ [1, 42]) := by decide +kernel

theorem cons_ne_split {α : Type} (f x y : α) (l m P Q R : List α) (h1 : f :: l = P ++ x :: Q) (h2 : f :: m = P ++ y :: R)
    (hne : x ≠ y) : ∃ P', l = P' ++ x :: Q ∧ m = P' ++ y :: R := by
  cases P with
  | nil =>
    simp only [List.nil_append, List.cons.injEq] at h1 h2
    exact absurd (h1.1.symm.trans h2.1) hne
  | cons p P =>
    simp only [List.cons_append, List.cons.injEq] at h1 h2
    exact ⟨P, h1.2, h2.2⟩

/-- The check equation of a text with its check character. -/
theorem code39_equation (s : List Char) (P : List Char) (c : Char) (h : s ++ [code39Check s] = P ++ [c]) :
    (P.map code39Value).sum % 43 = code39Value c := by
  obtain ⟨rfl, h2⟩ := List.append_inj' h rfl
  simp only [List.cons.injEq, and_true] at h2
  rw [← h2, code39Value_check]

/-- C90. Overwriting a stretch of at most seven modules of a Code 39 symbol with check character leaves it as it was or
unreadable. -/
theorem C90_code39 (s : List Char) (x : Code39.Code39) (hx : Code39.withChecksum s = .ok x) (ms ms' : List Nat)
    (he : Code39.encode x = .ok ms) (hs : Scratched 7 ms ms') (hne : ms' ≠ ms) : scanCode39Checked ms' = none := by
  cases h : scanCode39Checked ms' with
  | none => rfl
  | some t =>
    exfalso
    have h1 := scanCode39Checked_inv ms' t h
    have hA' := scanCode39_chars ms' _ h1
    have e' := scanCode39_inj ms' _ _ h1 (scanCode39_paint _ hA')
    obtain ⟨hA, e⟩ := code39_symbol s true x hx
    rw [e, Outcome.ok.injEq] at he
    simp only [if_true] at hA he
    have hn1 := (code39_row _ hA).length
    have hn2 := (code39_row _ hA').length
    have hlen := (scratched_lead _ _ _ hs).1
    rw [← he, e', hn1, hn2] at hlen
    have hl : (s ++ [code39Check s]).length = (t ++ [code39Check t]).length := by omega
    have hne' : s ++ [code39Check s] ≠ t ++ [code39Check t] := by
      intro hh; rw [hh, ← e'] at he; exact hne he
    have hT := star_cons_mem _ _ hA
    have hT' := star_cons_mem _ _ hA'
    have len : ∀ v : List Char, (∀ c ∈ v, c ∈ code39Alphabet) → ∀ c ∈ '*' :: v,
        (paintFrom 1 (w39 c ++ [1])).length = 13 := by
      intro v hv c hc
      rw [paintFrom_length, List.sum_append, w39_sum c (star_cons_mem _ _ hv c hc)]
      rfl
    rw [← he, e', paint39 _ hA, paint39 _ hA'] at hs
    rcases fixed_cases 13 7 4 3 (fun c => paintFrom 1 (w39 c ++ [1])) [] _ _ _ (len _ hA) (len _ hA') (by simpa using hl)
      (by simpa using hne') (fun a ha c hc => m39_far a (hT a ha) c (hT' c hc)) (by omega) (by omega)
      (by simpa using hs) with ⟨P, a, a', Q, q1, q2, hd⟩ | ⟨P, a, a', c, c', Q, q1, q2, ha, hc, hk⟩
    · obtain ⟨P', r1, r2⟩ := cons_ne_split '*' a a' _ _ P Q Q q1 q2 hd
      have := C15_code39_single_error s x hx ms (by rw [e]; simp [he]) P' Q a a'
        (by rw [← he, scanCode39_paint _ hA, r1]) (hA' a' (by rw [r2]; simp)) (fun hh => hd hh.symm) ms' (by rw [h1, r2])
      rw [h] at this
      cases this
    · obtain ⟨P', r1, r2⟩ := cons_ne_split '*' a a' _ _ P (c :: Q) (c' :: Q) q1 q2 ha
      have ma := hA a (by rw [r1]; simp)
      have ma' := hA' a' (by rw [r2]; simp)
      have mc := hA c (by rw [r1]; simp)
      have mc' := hA' c' (by rw [r2]; simp)
      have f1 := (m39_far a (by simp [ma]) a' (by simp [ma']) ha).1
      have f2 := (m39_far c (by simp [mc]) c' (by simp [mc']) hc).2
      have g1 := (m39_values a ma a' ma' ha).1 (by omega)
      have g2 := (m39_values c mc c' mc' hc).2 (by omega)
      have l1 := code39Value_lt a ma
      have l2 := code39Value_lt a' ma'
      have l3 := code39Value_lt c mc
      have l4 := code39Value_lt c' mc'
      simp only [List.mem_cons, List.not_mem_nil, or_false] at g1 g2
      rcases List.eq_nil_or_concat Q with rfl | ⟨Q, z, rfl⟩
      · have k1 := code39_equation s (P' ++ [a]) c (by rw [r1]; simp)
        have k2 := code39_equation t (P' ++ [a']) c' (by rw [r2]; simp)
        simp only [List.map_append, List.map_cons, List.map_nil, List.sum_append, List.sum_cons, List.sum_nil] at k1 k2
        omega
      · have k1 := code39_equation s (P' ++ a :: c :: Q) z (by rw [r1]; simp)
        have k2 := code39_equation t (P' ++ a' :: c' :: Q) z (by rw [r2]; simp)
        simp only [List.map_append, List.map_cons, List.sum_append, List.sum_cons] at k1 k2
        omega

example : ∃ ms, (Code39.withChecksum "A1B2".toList >>= Code39.encode) = .ok ms ∧ Scratched 7 ms (whitened 20 7 ms) ∧
    whitened 20 7 ms ≠ ms ∧ scanCode39Checked (whitened 20 7 ms) = none :=
  ⟨_, rfl, scratched_at 20 7 _ _ (by decide +kernel) (by decide +kernel) (by decide +kernel), by decide +kernel, by decide +kernel⟩

/-! ## Code 93 -/

theorem m93_far : ∀ c ∈ '*' :: code93Alphabet, ∀ d ∈ '*' :: code93Alphabet, c ≠ d →
    lead (paintFrom 1 (w93 c)) (paintFrom 1 (w93 d)) + 2 ≤ 9 ∧
    lead (paintFrom 1 (w93 c)).reverse (paintFrom 1 (w93 d)).reverse + 2 ≤ 9 := by decide +kernel

theorem det_adjacent : ∀ i < 30, ∃ v < 47, ((v : Nat) * (eqC i * eqK (i + 1) - eqC (i + 1) * eqK i) : Int) % 47 = 1 := by
  decide +kernel

theorem code93_adjacent (s s' p q : List Char) (a c a' c' : Char) (hA : ∀ c ∈ s, c ∈ code93Alphabet)
    (hl : s.length ≤ 29)
    (h1 : code93Text s = p ++ a :: c :: q) (h2 : code93Text s' = p ++ a' :: c' :: q)
    (ha' : a' ∈ code93Alphabet) (hc' : c' ∈ code93Alphabet) : c' = c ∧ a' = a := by
  have hT := code93_text_mem s hA
  have ha : a ∈ code93Alphabet := hT a (by rw [h1]; simp)
  have hc : c ∈ code93Alphabet := hT c (by rw [h1]; simp)
  have hlen : p.length + q.length ≤ 29 := by
    have := congrArg List.length h1
    simp [code93Text] at this
    omega
  obtain ⟨e1, e2⟩ := code93_equations s
  obtain ⟨e3, e4⟩ := code93_equations s'
  rw [h1] at e1 e2
  rw [h2] at e3 e4
  simp only [List.map_append, List.map_cons, List.reverse_append, List.reverse_cons, List.append_assoc,
    List.cons_append, List.nil_append, isum_append, isum, List.length_reverse, List.length_map, Nat.zero_add] at e1 e2 e3 e4
  obtain ⟨v, -, hv⟩ := det_adjacent q.length (by omega)
  generalize q.length = i at *
  have l1 := code93Value_lt a ha
  have l2 := code93Value_lt c hc
  have l3 := code93Value_lt a' ha'
  have l4 := code93Value_lt c' hc'
  have k1 : (eqC i * ((code93Value c' : Int) - code93Value c) + eqC (i + 1) * ((code93Value a' : Int) - code93Value a)) % 47 = 0 := by
    rw [Int.mul_sub, Int.mul_sub]
    omega
  have k2 : (eqK i * ((code93Value c' : Int) - code93Value c) + eqK (i + 1) * ((code93Value a' : Int) - code93Value a)) % 47 = 0 := by
    rw [Int.mul_sub, Int.mul_sub]
    omega
  have hX := two_unknowns eqC eqK i (i + 1) _ _ v hv k1 k2 (by omega)
  have hY : (code93Value a' : Int) - code93Value a = 0 := by
    have hv' : (((v : Nat) * (eqK (i + 1) * eqC i - eqK i * eqC (i + 1))) : Int) % 47 = 1 := by
      rw [Int.mul_comm (eqK (i + 1)), Int.mul_comm (eqK i)]; exact hv
    exact two_unknowns eqK eqC (i + 1) i _ _ v hv' (by rw [Int.add_comm]; exact k2) (by rw [Int.add_comm]; exact k1) (by omega)
  exact ⟨code93Value_inj c' c hc' hc (by omega), code93Value_inj a' a ha' ha (by omega)⟩

theorem scanCode93_paint (t : List Char) (h : ∀ c ∈ t, c ∈ code93Alphabet) :
    scanCode93 (paint (code93SymWidths (code93Text t))) = some t := by
  rw [scanCode93, readCode93_paint _ (code93_text_mem t h), Option.bind_some]
  exact (verifyCode93_iff _ _).mpr rfl

/-- C90. Overwriting a stretch of at most twelve modules of a Code 93 symbol of at most 29 characters leaves it as it was or
unreadable. -/
theorem C90_code93 (s : List Char) (x : Code93.Code93) (hx : Code93.new s = .ok x) (hl29 : s.length ≤ 29) (ms ms' : List Nat)
    (he : Code93.encode x = .ok ms) (hs : Scratched 12 ms ms') (hne : ms' ≠ ms) : scanCode93 ms' = none := by
  cases h : scanCode93 ms' with
  | none => rfl
  | some t =>
    exfalso
    have as : ∀ c ∈ s, c ∈ code93Alphabet := (code93_new_ok s x hx).2
    have as' := scanCode93_chars ms' _ h
    have e' := scanCode93_inj ms' _ _ h (scanCode93_paint _ as')
    obtain ⟨hA, e⟩ := code93_symbol s x hx
    have hA' := code93_text_mem t as'
    rw [e, Outcome.ok.injEq] at he
    have hn1 := (code93_row _ hA).length
    have hn2 := (code93_row _ hA').length
    have hlen := (scratched_lead _ _ _ hs).1
    rw [← he, e', hn1, hn2] at hlen
    have hl : (code93Text s).length = (code93Text t).length := by omega
    have hne' : code93Text s ≠ code93Text t := by
      intro hh; rw [hh, ← e'] at he; exact hne he
    have hT := star_text_mem _ _ hA
    have hT' := star_text_mem _ _ hA'
    have len : ∀ v : List Char, (∀ c ∈ v, c ∈ code93Alphabet) → ∀ c ∈ '*' :: (v ++ ['*']),
        (paintFrom 1 (w93 c)).length = 9 := by
      intro v hv c hc
      rw [paintFrom_length, w93_sum c (star_text_mem _ _ hv c hc)]
    rw [← he, e', paint93 _ hA, paint93 _ hA'] at hs
    rcases fixed_cases 9 12 2 2 (fun c => paintFrom 1 (w93 c)) [] _ _ _ (len _ hA) (len _ hA') (by simp [hl])
      (by simpa using hne') (fun a ha c hc => m93_far a (hT a ha) c (hT' c hc)) (by omega) (by omega)
      (by simpa using hs) with ⟨P, a, a', Q, q1, q2, hd⟩ | ⟨P, a, a', c, c', Q, q1, q2, ha, hc, -⟩
    · obtain ⟨P', Q', r1, r2⟩ := framed_one_off _ _ P Q a a' (by simpa using q1) (by simpa using q2) hd
      exact hd (code93_replace s t P' Q' a a' as r1 r2 (hA' a' (by rw [r2]; simp))).symm
    · obtain ⟨P', r1, r2⟩ := cons_ne_split '*' a a' _ _ P (c :: Q) (c' :: Q) q1 q2 ha
      rcases List.eq_nil_or_concat Q with rfl | ⟨Q, z, rfl⟩
      · have k1 : code93Text s ++ ['*'] = (P' ++ [a]) ++ [c] := by rw [r1]; simp
        have k2 : code93Text t ++ ['*'] = (P' ++ [a']) ++ [c'] := by rw [r2]; simp
        have k3 := (List.append_inj' k1 rfl).2
        have k4 := (List.append_inj' k2 rfl).2
        simp only [List.cons.injEq, and_true] at k3 k4
        exact hc (k3.symm.trans k4)
      · have k1 : code93Text s ++ ['*'] = (P' ++ a :: c :: Q) ++ [z] := by rw [r1]; simp
        have k2 : code93Text t ++ ['*'] = (P' ++ a' :: c' :: Q) ++ [z] := by rw [r2]; simp
        have k3 := (List.append_inj' k1 rfl).1
        have k4 := (List.append_inj' k2 rfl).1
        exact ha (code93_adjacent s t P' Q a c a' c' as hl29 k3 k4 (hA' a' (by rw [k4]; simp)) (hA' c' (by rw [k4]; simp))).2.symm

example : ∃ ms, (Code93.new "TEST93".toList >>= Code93.encode) = .ok ms ∧ Scratched 12 ms (whitened 20 12 ms) ∧
    whitened 20 12 ms ≠ ms ∧ scanCode93 (whitened 20 12 ms) = none :=
  ⟨_, rfl, scratched_at 20 12 _ _ (by decide +kernel) (by decide +kernel) (by decide +kernel), by decide +kernel, by decide +kernel⟩

/-! ## Code 128 -/

theorem m128_far : ∀ v < 106, ∀ w < 106, v ≠ w → lead (paintFrom 1 (w128 v)) (paintFrom 1 (w128 w)) + 3 ≤ 11 ∧
    lead (paintFrom 1 (w128 v)).reverse (paintFrom 1 (w128 w)).reverse + 3 ≤ 11 := by decide +kernel

theorem paint128 (l : List Nat) (h : ∀ v ∈ l, v < 106) :
    paint (code128Widths l) = l.flatMap (fun v => paintFrom 1 (w128 v)) ++ paintFrom 1 code128Stop := by
  rw [code128Widths, paint, paintFrom_append_even 1 (by omega) _ _ (by rw [w128_length l h]; omega),
    paintFrom_flatMap 1 (by omega)]
  intro v hv
  rw [(w128_spec v (h v hv)).1]

/-- What the scanner reads was painted. -/
theorem scanCode128_paint (ms : List Nat) (t : List Char) (h : scanCode128 ms = some t) :
    ∃ set data, (∀ v ∈ data, v < 103) ∧
      ms = paint (code128Widths (CodeSet.start set :: (data ++ [code128Sum set.start data % 103]))) := by
  obtain ⟨es, set, data, r, a1, a2, a3, -⟩ := scanCode128_inv ms t h
  have hd := decode_lt set data r a3
  refine ⟨set, data, hd, ?_⟩
  have hv : ∀ v ∈ CodeSet.start set :: (data ++ [code128Sum set.start data % 103]), v < 106 := by
    intro v hv
    simp only [List.mem_cons, List.mem_append, List.not_mem_nil, or_false] at hv
    rcases hv with rfl | hv | rfl
    · exact start_lt set
    · exact Nat.lt_trans (hd v hv) (by omega)
    · omega
  have h2 := readCode128_paint _ hv
  unfold readCode128 at h2
  simp only [Option.bind_eq_bind, Option.bind_eq_some_iff] at h2
  obtain ⟨es2, c1, es3, c2, c3⟩ := h2
  have c2' := expectEnd_inv _ _ _ c2
  rw [c2'] at c1
  rw [elements_inv _ _ a1, elements_inv _ _ c1,
    readAll_inj 6 (by omega) _ (fun w w' v _ _ h h' => idxOf_inj _ w w' v h h') _ _ _ a2 c3]

theorem code128_one_symbol (set set' : CodeSet) (data data' : List Nat) (hd : ∀ v ∈ data, v < 103) (hd' : ∀ v ∈ data', v < 103)
    (hl : data.length ≤ 102) (P Q : List Nat) (a a' : Nat)
    (h1 : CodeSet.start set :: (data ++ [code128Sum set.start data % 103]) = P ++ a :: Q)
    (h2 : CodeSet.start set' :: (data' ++ [code128Sum set'.start data' % 103]) = P ++ a' :: Q) : a = a' := by
  have st : ∀ u : CodeSet, 103 ≤ u.start ∧ u.start < 106 := by intro u; cases u <;> decide
  have b1 := st set
  have b2 := st set'
  cases P with
  | nil =>
    simp only [List.nil_append, List.cons.injEq] at h1 h2
    obtain ⟨rfl, h1⟩ := h1
    obtain ⟨rfl, h2⟩ := h2
    obtain ⟨rfl, h3⟩ := List.append_inj' (h1.trans h2.symm) rfl
    simp only [List.cons.injEq, and_true, code128Sum] at h3
    omega
  | cons p P =>
    simp only [List.cons_append, List.cons.injEq] at h1 h2
    obtain ⟨hp, h1⟩ := h1
    obtain ⟨hp', h2⟩ := h2
    have hst : set.start = set'.start := hp.trans hp'.symm
    rw [← hst] at h2
    rcases List.eq_nil_or_concat Q with rfl | ⟨Q, z, rfl⟩
    · obtain ⟨rfl, h3⟩ := List.append_inj' h1 rfl
      obtain ⟨rfl, h4⟩ := List.append_inj' h2 rfl
      simp only [List.cons.injEq, and_true] at h3 h4
      exact h3.symm.trans h4
    · have k1 : data ++ [code128Sum set.start data % 103] = (P ++ a :: Q) ++ [z] := by rw [h1]; simp
      have k2 : data' ++ [code128Sum set.start data' % 103] = (P ++ a' :: Q) ++ [z] := by rw [h2]; simp
      obtain ⟨rfl, h3⟩ := List.append_inj' k1 rfl
      obtain ⟨rfl, h4⟩ := List.append_inj' k2 rfl
      simp only [List.cons.injEq, and_true] at h3 h4
      have e := h3.trans h4.symm
      have hP : P.length + 1 ≤ 102 := by
        simp only [List.length_append, List.length_cons] at hl
        omega
      have expand : ∀ u, code128Sum set.start (P ++ u :: Q) =
          (set.start + positionSum 1 P + positionSum (1 + P.length + 1) Q) + (P.length + 1) * u := by
        intro u
        rw [code128Sum, positionSum_append, positionSum, Nat.add_comm 1 P.length]
        omega
      rw [expand, expand] at e
      apply mul_cancel_103 (P.length + 1) a a' (by omega) (hd a (by simp)) (hd' a' (by simp))
      generalize (P.length + 1) * a = A at *
      generalize (P.length + 1) * a' = C at *
      omega

theorem code128_scratched (ms ms' : List Nat) (t t' : List Char) (h : scanCode128 ms = some t) (h' : scanCode128 ms' = some t')
    (hl : ms.length ≤ 1157) (hs : Scratched 5 ms ms') : ms = ms' := by
  obtain ⟨set, data, hd, e1⟩ := scanCode128_paint ms t h
  obtain ⟨set', data', hd', e2⟩ := scanCode128_paint ms' t' h'
  have small : ∀ (set : CodeSet) (data : List Nat), (∀ v ∈ data, v < 103) →
      ∀ v ∈ CodeSet.start set :: (data ++ [code128Sum set.start data % 103]), v < 106 := by
    intro set data hd v hv
    simp only [List.mem_cons, List.mem_append, List.not_mem_nil, or_false] at hv
    rcases hv with rfl | hv | rfl
    · exact start_lt set
    · exact Nat.lt_trans (hd v hv) (by omega)
    · omega
  have H := small set data hd
  have H' := small set' data' hd'
  have len : ∀ l : List Nat, (∀ v ∈ l, v < 106) → ∀ v ∈ l, (paintFrom 1 (w128 v)).length = 11 := by
    intro l h v hv
    rw [paintFrom_length, w128_sum v (h v hv)]
  have hn1 := (code128_row _ H).length
  have hn2 := (code128_row _ H').length
  have hlen := (scratched_lead _ _ _ hs).1
  rw [← e1] at hn1
  rw [← e2] at hn2
  have hL : (CodeSet.start set :: (data ++ [code128Sum set.start data % 103])).length =
      (CodeSet.start set' :: (data' ++ [code128Sum set'.start data' % 103])).length := by omega
  have hdl : data.length ≤ 102 := by
    simp only [List.length_cons, List.length_append, List.length_nil] at hn1
    omega
  refine Classical.byContradiction fun hne => ?_
  rw [e1, e2, paint128 _ H, paint128 _ H'] at hs
  rcases fixed_cases 11 5 3 3 (fun v => paintFrom 1 (w128 v)) [] _ _ _ (len _ H) (len _ H') hL
    (by intro hh; rw [hh, ← e2] at e1; exact hne e1) (fun a ha c hc => m128_far a (H a ha) c (H' c hc)) (by omega) (by omega)
    (by simpa using hs) with ⟨P, a, a', Q, q1, q2, hd⟩ | ⟨P, a, a', c, c', Q, q1, q2, ha, hc, hk⟩
  · exact hd (code128_one_symbol set set' data data' (by assumption) hd' hdl P Q a a' q1 q2)
  · have f1 := (m128_far a (H a (by rw [q1]; simp)) a' (H' a' (by rw [q2]; simp)) ha).1
    have f2 := (m128_far c (H c (by rw [q1]; simp)) c' (H' c' (by rw [q2]; simp)) hc).2
    omega

theorem setCDigits_le (set : CodeSet) (s : List Char) : setCDigits set s ≤ s.length := by
  induction s generalizing set with
  | nil => simp [setCDigits]
  | cons c s ih =>
    have h1 := ih .A
    have h2 := ih .B
    have h3 := ih .C
    have h4 := ih set
    rw [setCDigits]
    simp only [List.length_cons]
    (repeat' split) <;> omega

/-- C90. Overwriting a stretch of at most five modules of a Code 128 symbol of at most 1157 modules (102 data characters)
leaves it as it was or unreadable. -/
theorem C90_code128 (b : Build) (s : List Char) (x : Code128.Code128) (hx : Code128.new s = .ok x) (ms ms' : List Nat)
    (he : Code128.encode b x = .ok ms) (hl : ms.length ≤ 1157) (hs : Scratched 5 ms ms') (hne : ms' ≠ ms) :
    scanCode128 ms' = none := by
  cases h : scanCode128 ms' with
  | none => rfl
  | some t =>
    exfalso
    obtain ⟨n, vs, h1, -, -, hr⟩ := C32_code128_row b s x ms hx he
    have h2 := setCDigits_le .A s
    have h3 := hr.length
    obtain ⟨ms2, e2, h4⟩ := C28_code128_scan_regrouped_partial b s x hx (by omega)
    rw [he, Outcome.ok.injEq] at e2
    subst e2
    exact hne (code128_scratched ms ms' _ t h4 h hl hs).symm

example : ∃ ms, (Code128.new "ƁHi5".toList >>= Code128.encode .debug) = .ok ms ∧ Scratched 5 ms (whitened 15 5 ms) ∧
    whitened 15 5 ms ≠ ms ∧ scanCode128 (whitened 15 5 ms) = none :=
  ⟨_, rfl, scratched_at 15 5 _ _ (by decide +kernel) (by decide +kernel) (by decide +kernel), by decide +kernel, by decide +kernel⟩

/-! ## Longer scratches -/

/-- C90. The lengths are the largest possible: one module more, and some symbol turns into another valid one. In Code 11,
for all its check characters, two modules are enough. -/
theorem C90_longer_scratches :
    (∃ s s' ms ms', (Ean13.new .release s >>= Ean13.encode .release) = .ok ms ∧
      (Ean13.new .release s' >>= Ean13.encode .release) = .ok ms' ∧ ms' ≠ ms ∧ Scratched 4 ms ms') ∧
    (∃ s s' ms ms', (Ean8.new .release s >>= Ean8.encode .release) = .ok ms ∧
      (Ean8.new .release s' >>= Ean8.encode .release) = .ok ms' ∧ ms' ≠ ms ∧ Scratched 6 ms ms') ∧
    (∃ s s' ms ms', (Upca.new .release s >>= Upca.encode .release) = .ok ms ∧
      (Upca.new .release s' >>= Upca.encode .release) = .ok ms' ∧ ms' ≠ ms ∧ Scratched 6 ms ms') ∧
    (∃ s s' ms ms', s.length = 5 ∧ (EanSupp.new s >>= EanSupp.encode .release) = .ok ms ∧
      (EanSupp.new s' >>= EanSupp.encode .release) = .ok ms' ∧ ms' ≠ ms ∧ Scratched 6 ms ms') ∧
    (∃ s s' ms ms', (Code39.withChecksum s >>= Code39.encode) = .ok ms ∧
      (Code39.withChecksum s' >>= Code39.encode) = .ok ms' ∧ ms' ≠ ms ∧ Scratched 8 ms ms') ∧
    (∃ s s' ms ms', s.length ≤ 29 ∧ (Code93.new s >>= Code93.encode) = .ok ms ∧
      (Code93.new s' >>= Code93.encode) = .ok ms' ∧ ms' ≠ ms ∧ Scratched 13 ms ms') ∧
    (∃ s s' ms ms', (Code128.new s >>= Code128.encode .release) = .ok ms ∧ ms.length ≤ 1157 ∧
      (Code128.new s' >>= Code128.encode .release) = .ok ms' ∧ ms' ≠ ms ∧ Scratched 6 ms ms') ∧
    (∃ s s' ms ms', (Code11.new s >>= Code11.encode) = .ok ms ∧
      (Code11.new s' >>= Code11.encode) = .ok ms' ∧ ms' ≠ ms ∧ Scratched 2 ms ms') :=
  ⟨⟨"100015000000".toList, "200021000000".toList, _, _, rfl, rfl, by decide, scratched_at 29 4 _ _ (by decide) (by decide) (by decide)⟩,
   ⟨"0030000".toList, "0900000".toList, _, _, rfl, rfl, by decide, scratched_at 14 6 _ _ (by decide) (by decide) (by decide)⟩,
   ⟨"00300000000".toList, "09000000000".toList, _, _, rfl, rfl, by decide, scratched_at 14 6 _ _ (by decide) (by decide) (by decide)⟩,
   ⟨"12000".toList, "51000".toList, _, _, rfl, rfl, rfl, by decide, scratched_at 9 6 _ _ (by decide) (by decide) (by decide)⟩,
   ⟨"$2".toList, "/1".toList, _, _, rfl, rfl, by decide, scratched_at 21 8 _ _ (by decide) (by decide) (by decide)⟩,
   ⟨"00K000000000000".toList, "PAV000000000000".toList, _, _, by decide +kernel, rfl, rfl, by decide +kernel, scratched_at 16 13 _ _ (by decide +kernel) (by decide +kernel) (by decide +kernel)⟩,
   ⟨"Ɓ'%".toList, "Ɓh8".toList, _, _, rfl, by decide, rfl, by decide, scratched_at 19 6 _ _ (by decide) (by decide) (by decide)⟩,
   ⟨"3-".toList, "34".toList, _, _, rfl, rfl, by decide, scratched_at 22 2 _ _ (by decide) (by decide) (by decide)⟩⟩

end Barcoders
