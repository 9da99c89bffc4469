import Verif.Props.Cross

/-!
# C47: no single misread module turns one symbol into another
-/

set_option autoImplicit false

namespace Barcoders

open Spec

/-- Number of places in which two rows of equal length differ. -/
def dist (a c : List Nat) : Nat := (a.zip c).countP (fun p => p.1 != p.2)

theorem dist_append (a c a' c' : List Nat) (h : a.length = c.length) :
    dist (a ++ a') (c ++ c') = dist a c + dist a' c' := by
  unfold dist
  rw [List.zip_append h, List.countP_append]

theorem dist_self (a : List Nat) : dist a a = 0 := by
  unfold dist
  induction a with
  | nil => rfl
  | cons x a ih => simpa using ih

theorem dist_zero (a c : List Nat) (hl : a.length = c.length) (h : dist a c = 0) : a = c := by
  induction a generalizing c with
  | nil => cases c with
    | nil => rfl
    | cons => simp at hl
  | cons x a ih => cases c with
    | nil => simp at hl
    | cons y c =>
      unfold dist at h ih
      rw [List.zip_cons_cons, List.countP_cons] at h
      have h2 : List.countP (fun p => p.1 != p.2) (a.zip c) = 0 := by omega
      have h3 : x = y := by
        by_cases hxy : x = y
        · exact hxy
        · simp [hxy] at h
      rw [h3, ih c (by simpa using hl) h2]

/-- Rows of equally many codewords of the same length: the distances add up. -/
theorem dist_flatMap {α : Type} (k : Nat) (f : α → List Nat) (l m : List α) (hl : ∀ a ∈ l, (f a).length = k)
    (hm : ∀ a ∈ m, (f a).length = k) (hlen : l.length = m.length) :
    dist (l.flatMap f) (m.flatMap f) = ((l.zip m).map (fun p => dist (f p.1) (f p.2))).sum := by
  induction l generalizing m with
  | nil => cases m with
    | nil => rfl
    | cons => simp at hlen
  | cons a l ih => cases m with
    | nil => simp at hlen
    | cons c m =>
      rw [List.flatMap_cons, List.flatMap_cons, dist_append _ _ _ _ (by rw [hl a (by simp), hm c (by simp)]),
        ih m (fun x hx => hl x (by simp [hx])) (fun x hx => hm x (by simp [hx])) (by simpa using hlen)]
      rfl

/-- Different rows of codewords at pairwise distance at least two have distance at least two. -/
theorem dist_codes {α : Type} [DecidableEq α] (k : Nat) (f : α → List Nat) (l m : List α)
    (hl : ∀ a ∈ l, (f a).length = k) (hm : ∀ a ∈ m, (f a).length = k) (hlen : l.length = m.length)
    (hd : ∀ a ∈ l, ∀ c ∈ m, a ≠ c → 2 ≤ dist (f a) (f c)) (hne : l ≠ m) : 2 ≤ dist (l.flatMap f) (m.flatMap f) := by
  induction l generalizing m with
  | nil => cases m with
    | nil => exact absurd rfl hne
    | cons => simp at hlen
  | cons a l ih => cases m with
    | nil => simp at hlen
    | cons c m =>
      rw [List.flatMap_cons, List.flatMap_cons, dist_append _ _ _ _ (by rw [hl a (by simp), hm c (by simp)])]
      by_cases hac : a = c
      · have := ih m (fun x hx => hl x (by simp [hx])) (fun x hx => hm x (by simp [hx])) (by simpa using hlen)
          (fun x hx y hy => hd x (by simp [hx]) y (by simp [hy])) (by rintro rfl; exact hne (by rw [hac]))
        omega
      · have := hd a (by simp) c (by simp) hac
        omega

theorem not_differ_one (ms ms' : List Nat) (h : ms ≠ ms' → ms.length = ms'.length → dist ms ms' ≠ 1) :
    ¬ DifferIn 1 ms ms' := by
  rintro ⟨hl, hd⟩
  refine h ?_ hl hd
  rintro rfl
  have := dist_self ms
  unfold dist at this
  omega

/-! ## EAN and UPC -/

theorem mA_dist : ∀ d < 10, ∀ e < 10, d ≠ e → 2 ≤ dist (paintFrom 0 (wA d)) (paintFrom 0 (wA e)) := by decide

theorem mR_dist : ∀ d < 10, ∀ e < 10, d ≠ e → 2 ≤ dist (paintFrom 1 (wA d)) (paintFrom 1 (wA e)) := by decide

theorem mAB_dist : ∀ s s' : Bool, ∀ d < 10, ∀ e < 10, (s, d) ≠ (s', e) →
    1 ≤ dist (paintFrom 0 (wAB (s, d))) (paintFrom 0 (wAB (s', e))) ∧
    (s = s' → 2 ≤ dist (paintFrom 0 (wAB (s, d))) (paintFrom 0 (wAB (s', e)))) := by decide

theorem wA_module_length (c : Nat) (d : Nat) (h : d < 10) : (paintFrom c (wA d)).length = 7 := by
  rw [paintFrom_length, wA_sum d h]

theorem wAB_module_length (c : Nat) (p : Bool × Nat) (h : p.2 < 10) : (paintFrom c (wAB p)).length = 7 := by
  rw [paintFrom_length, wAB_sum p.2 h p.1]

theorem paint_halves_dist (l r l' r' : List Nat) (hl : l.length % 2 = 0) (hr : r.length % 2 = 0) (hl' : l'.length % 2 = 0)
    (hr' : r'.length % 2 = 0) (sl : l.sum = l'.sum) (sr : r.sum = r'.sum) :
    dist (paint (halvesWidths l r)) (paint (halvesWidths l' r')) =
      dist (paintFrom 0 l) (paintFrom 0 l') + dist (paintFrom 1 r) (paintFrom 1 r') := by
  rw [paint_halves l r hl hr, paint_halves l' r' hl' hr']
  have e1 : (paintFrom 0 l).length = (paintFrom 0 l').length := by rw [paintFrom_length, paintFrom_length, sl]
  have e2 : (paintFrom 1 r).length = (paintFrom 1 r').length := by rw [paintFrom_length, paintFrom_length, sr]
  rw [dist_append _ _ _ _ (by simp [e1, e2]), dist_append _ _ _ _ (by simp [e1]), dist_append _ _ _ _ (by simp [e1]),
    dist_append _ _ _ _ (by simp)]
  simp only [dist_self]
  omega

theorem wA_dist (ds es : List Nat) (c : Nat) (hc : c < 2) (hd : Digits ds) (he : Digits es) (hl : ds.length = es.length)
    (hne : ds ≠ es) : 2 ≤ dist (paintFrom c (ds.flatMap wA)) (paintFrom c (es.flatMap wA)) := by
  have even : ∀ l : List Nat, Digits l → ∀ a ∈ l, (wA a).length % 2 = 0 := fun l h a ha => by
    rw [(wA_spec a (h a ha)).1]
  rw [paintFrom_flatMap c hc wA ds (even ds hd), paintFrom_flatMap c hc wA es (even es he)]
  refine dist_codes 7 _ ds es (fun d h => wA_module_length c d (hd d h)) (fun d h => wA_module_length c d (he d h)) hl ?_ hne
  intro a ha b hb hab
  have : c = 0 ∨ c = 1 := by omega
  rcases this with rfl | rfl
  · exact mA_dist a (hd a ha) b (he b hb) hab
  · exact mR_dist a (hd a ha) b (he b hb) hab

theorem halvesA_dist (ls rs ls' rs' : List Nat) (hls : Digits ls) (hrs : Digits rs) (hls' : Digits ls') (hrs' : Digits rs')
    (hl : ls.length = ls'.length) (hr : rs.length = rs'.length) (hne : ¬ (ls = ls' ∧ rs = rs')) :
    2 ≤ dist (paint (halvesWidths (ls.flatMap wA) (rs.flatMap wA)))
      (paint (halvesWidths (ls'.flatMap wA) (rs'.flatMap wA))) := by
  rw [paint_halves_dist _ _ _ _ (by rw [wA_length_of _ hls]; omega) (by rw [wA_length_of _ hrs]; omega)
    (by rw [wA_length_of _ hls']; omega) (by rw [wA_length_of _ hrs']; omega)
    (by rw [wA_flatMap_sum _ hls, wA_flatMap_sum _ hls', hl]) (by rw [wA_flatMap_sum _ hrs, wA_flatMap_sum _ hrs', hr])]
  by_cases h : ls = ls'
  · have := wA_dist rs rs' 1 (by omega) hrs hrs' hr (fun h' => hne ⟨h, h'⟩)
    omega
  · have := wA_dist ls ls' 0 (by omega) hls hls' hl h
    omega

/-- Number of positions in which two lists of sets differ. -/
def setDist : List Bool → List Bool → Nat
  | s :: ss, t :: ts => (if s = t then 0 else 1) + setDist ss ts
  | _, _ => 0

theorem setsOf_dist : ∀ d < 10, ∀ e < 10, d ≠ e → 2 ≤ setDist (setsOf d) (setsOf e) := by decide

/-- Left halves with different sets differ at least once per differing set. -/
theorem wAB_setDist (ss ts : List Bool) (ls ls' : List Nat) (hls : Digits ls) (hls' : Digits ls')
    (h1 : ss.length = ls.length) (h2 : ts.length = ls'.length) (h3 : ls.length = ls'.length) :
    setDist ss ts ≤ dist ((ss.zip ls).flatMap (fun p => paintFrom 0 (wAB p))) ((ts.zip ls').flatMap (fun p => paintFrom 0 (wAB p))) := by
  induction ss generalizing ts ls ls' with
  | nil => simp [setDist]
  | cons s ss ih =>
    match ts, ls, ls', h1, h2, h3 with
    | [], _, _, _, _, _ => simp [setDist]
    | t :: ts, l :: ls, l' :: ls', h1, h2, h3 =>
      have hl := digits_head hls
      have hl' := digits_head hls'
      rw [List.zip_cons_cons, List.zip_cons_cons, List.flatMap_cons, List.flatMap_cons, setDist,
        dist_append _ _ _ _ (by rw [wAB_module_length _ _ hl, wAB_module_length _ _ hl'])]
      have := ih ts ls ls' (digits_tail hls) (digits_tail hls') (by simpa using h1) (by simpa using h2) (by simpa using h3)
      by_cases hst : s = t
      · simp only [hst, if_true]; omega
      · have := (mAB_dist s t l hl l' hl' (by simp [hst])).1
        simp only [hst, if_false]; omega

/-- Left halves with the same sets and different digits. -/
theorem wAB_sameSets (ss : List Bool) (ls ls' : List Nat) (hls : Digits ls) (hls' : Digits ls')
    (h1 : ss.length = ls.length) (h2 : ss.length = ls'.length) (hne : ls ≠ ls') :
    2 ≤ dist ((ss.zip ls).flatMap (fun p => paintFrom 0 (wAB p))) ((ss.zip ls').flatMap (fun p => paintFrom 0 (wAB p))) := by
  induction ss generalizing ls ls' with
  | nil =>
    cases ls with
    | nil => cases ls' with
      | nil => exact absurd rfl hne
      | cons => simp at h2
    | cons => simp at h1
  | cons s ss ih =>
    match ls, ls', h1, h2 with
    | l :: ls, l' :: ls', h1, h2 =>
      have hl := digits_head hls
      have hl' := digits_head hls'
      rw [List.zip_cons_cons, List.zip_cons_cons, List.flatMap_cons, List.flatMap_cons,
        dist_append _ _ _ _ (by rw [wAB_module_length _ _ hl, wAB_module_length _ _ hl'])]
      by_cases h : l = l'
      · have := ih ls ls' (digits_tail hls) (digits_tail hls') (by simpa using h1) (by simpa using h2)
          (fun h' => hne (by rw [h, h']))
        omega
      · have := (mAB_dist s s l hl l' hl' (by simp [h])).2 rfl
        omega

theorem ean13_dist (d0 : Nat) (ls rs : List Nat) (d0' : Nat) (ls' rs' : List Nat) (h0 : d0 < 10) (h0' : d0' < 10)
    (hls : Digits ls) (hrs : Digits rs) (hls' : Digits ls') (hrs' : Digits rs') (ll : ls.length = 6) (lr : rs.length = 6)
    (ll' : ls'.length = 6) (lr' : rs'.length = 6) (hne : ¬ (d0 = d0' ∧ ls = ls' ∧ rs = rs')) :
    2 ≤ dist (paint (ean13Widths d0 ls rs)) (paint (ean13Widths d0' ls' rs')) := by
  have hs := (parity_spec d0 h0).2.2.2.2.2
  have hs' := (parity_spec d0' h0').2.2.2.2.2
  have hz := zip_snd_lt (setsOf d0) ls hls
  have hz' := zip_snd_lt (setsOf d0') ls' hls'
  have lz : ((setsOf d0).zip ls).length = 6 := by simp [hs, ll]
  have lz' : ((setsOf d0').zip ls').length = 6 := by simp [hs', ll']
  rw [ean13Widths, ean13Widths, paint_halves_dist _ _ _ _ (by rw [wAB_length_of _ hz]; omega)
    (by rw [wA_length_of _ hrs]; omega) (by rw [wAB_length_of _ hz']; omega) (by rw [wA_length_of _ hrs']; omega)
    (by rw [wAB_flatMap_sum _ hz, wAB_flatMap_sum _ hz', lz, lz'])
    (by rw [wA_flatMap_sum _ hrs, wA_flatMap_sum _ hrs', lr, lr'])]
  have even : ∀ l : List (Bool × Nat), (∀ p ∈ l, p.2 < 10) → ∀ a ∈ l, (wAB a).length % 2 = 0 := fun l h a ha => by
    rw [(wAB_spec a.2 (h a ha) a.1).1]
  rw [paintFrom_flatMap 0 (by omega) wAB _ (even _ hz), paintFrom_flatMap 0 (by omega) wAB _ (even _ hz')]
  by_cases h : d0 = d0'
  · subst h
    by_cases hr : rs = rs'
    · have hl : ls ≠ ls' := fun hl => hne ⟨rfl, hl, hr⟩
      have := wAB_sameSets (setsOf d0) ls ls' hls hls' (by omega) (by omega) hl
      omega
    · have := wA_dist rs rs' 1 (by omega) hrs hrs' (by omega) hr
      omega
  · have := wAB_setDist (setsOf d0) (setsOf d0') ls ls' hls hls' (by omega) (by omega) (by omega)
    have := setsOf_dist d0 h0 d0' h0' h
    omega

theorem cons_append_inj (d d' : Nat) (ls rs ls' rs' : List Nat) (hl : ls.length = ls'.length)
    (h : d :: (ls ++ rs) = d' :: (ls' ++ rs')) : d = d' ∧ ls = ls' ∧ rs = rs' := by
  rw [List.cons.injEq] at h
  obtain ⟨h1, h2⟩ := h
  obtain ⟨h3, h4⟩ := List.append_inj h2 hl
  exact ⟨h1, h3, h4⟩

/-- C47. Two EAN-13 (EAN-8, UPC-A) symbols never differ in exactly one module. -/
theorem C47_ean_distance (b b' : Build) (s t : List Char) (ms ms' : List Nat) :
    (∀ x y, Ean13.new b s = .ok x → Ean13.new b' t = .ok y → Ean13.encode b x = .ok ms → Ean13.encode b' y = .ok ms' →
      ¬ DifferIn 1 ms ms') ∧
    (∀ x y, Ean8.new b s = .ok x → Ean8.new b' t = .ok y → Ean8.encode b x = .ok ms → Ean8.encode b' y = .ok ms' →
      ¬ DifferIn 1 ms ms') ∧
    (∀ x y, Upca.new b s = .ok x → Upca.new b' t = .ok y → Upca.encode b x = .ok ms → Upca.encode b' y = .ok ms' →
      ¬ DifferIn 1 ms ms') := by
  refine ⟨fun x y hx hy ex ey => not_differ_one _ _ fun hne _ => ?_, fun x y hx hy ex ey => not_differ_one _ _ fun hne _ => ?_,
    fun x y hx hy ex ey => not_differ_one _ _ fun hne _ => ?_⟩
  · obtain ⟨d0, ls, rs, h0, hls, hrs, ll, lr, -, e1⟩ := ean13_symbol b s x hx
    obtain ⟨d0', ls', rs', h0', hls', hrs', ll', lr', -, e2⟩ := ean13_symbol b' t y hy
    rw [e1, Outcome.ok.injEq] at ex
    rw [e2, Outcome.ok.injEq] at ey
    subst ex ey
    have := ean13_dist d0 ls rs d0' ls' rs' h0 h0' hls hrs hls' hrs' ll lr ll' lr' (by
      rintro ⟨rfl, rfl, rfl⟩; exact hne rfl)
    omega
  · obtain ⟨ls, rs, hls, hrs, ll, lr, -, e1⟩ := ean8_symbol b s x hx
    obtain ⟨ls', rs', hls', hrs', ll', lr', -, e2⟩ := ean8_symbol b' t y hy
    rw [e1, Outcome.ok.injEq] at ex
    rw [e2, Outcome.ok.injEq] at ey
    subst ex ey
    have := halvesA_dist ls rs ls' rs' hls hrs hls' hrs' (by omega) (by omega) (by rintro ⟨rfl, rfl⟩; exact hne rfl)
    omega
  · obtain ⟨ls, rs, hls, hrs, ll, lr, -, e1⟩ := upca_symbol b s x hx
    obtain ⟨ls', rs', hls', hrs', ll', lr', -, e2⟩ := upca_symbol b' t y hy
    rw [e1, Outcome.ok.injEq] at ex
    rw [e2, Outcome.ok.injEq] at ey
    subst ex ey
    have := halvesA_dist ls rs ls' rs' hls hrs hls' hrs' (by omega) (by omega) (by rintro ⟨rfl, rfl⟩; exact hne rfl)
    omega

example : ∃ ms ms', (Ean8.new .debug "5512345".toList >>= Ean8.encode .debug) = .ok ms ∧
    (Ean8.new .debug "5512346".toList >>= Ean8.encode .debug) = .ok ms' ∧ DifferIn 6 ms ms' :=
  ⟨_, _, rfl, rfl, by decide, by decide⟩

/-! ## Code 39 -/

theorem m39_dist : ∀ c ∈ '*' :: code39Alphabet, ∀ d ∈ '*' :: code39Alphabet, c ≠ d →
    2 ≤ dist (paintFrom 1 (w39 c ++ [1])) (paintFrom 1 (w39 d ++ [1])) := by decide +kernel

theorem paint39 (t : List Char) (h : ∀ c ∈ t, c ∈ code39Alphabet) :
    paint (code39Widths t) = ('*' :: t).flatMap (fun c => paintFrom 1 (w39 c ++ [1])) ++ paintFrom 1 (w39 '*') := by
  have hm := star_cons_mem _ _ h
  have hl := flatMap_length 10 (fun c => w39 c ++ [1]) ('*' :: t) (fun c hc => by
    rw [List.length_append, (w39_spec c (hm c hc)).1]; rfl)
  rw [code39Widths, paint, paintFrom_append_even 1 (by omega) _ _ (by rw [hl]; omega), paintFrom_flatMap 1 (by omega)]
  intro c hc
  rw [List.length_append, (w39_spec c (hm c hc)).1]; rfl

theorem code39_dist (t u : List Char) (ht : ∀ c ∈ t, c ∈ code39Alphabet) (hu : ∀ c ∈ u, c ∈ code39Alphabet)
    (hl : t.length = u.length) (hne : t ≠ u) : 2 ≤ dist (paint (code39Widths t)) (paint (code39Widths u)) := by
  have len : ∀ v : List Char, (∀ c ∈ v, c ∈ code39Alphabet) → ∀ c ∈ '*' :: v,
      (paintFrom 1 (w39 c ++ [1])).length = 13 := by
    intro v hv c hc
    rw [paintFrom_length, List.sum_append, w39_sum c (star_cons_mem _ _ hv c hc)]
    rfl
  rw [paint39 t ht, paint39 u hu, dist_append]
  · have := dist_codes 13 (fun c => paintFrom 1 (w39 c ++ [1])) ('*' :: t) ('*' :: u) (len t ht) (len u hu)
      (by simp [hl]) (fun a ha c hc => m39_dist a (star_cons_mem _ _ ht a ha) c (star_cons_mem _ _ hu c hc)) (by simpa using hne)
    omega
  · rw [flatMap_length 13 _ _ (len t ht), flatMap_length 13 _ _ (len u hu)]
    simp [hl]

/-- C47. Two Code 39 symbols, with or without check character, never differ in exactly one module. -/
theorem C47_code39_distance (s t : List Char) (x y : Code39.Code39) (ms ms' : List Nat)
    (hx : Code39.new s = .ok x ∨ Code39.withChecksum s = .ok x) (hy : Code39.new t = .ok y ∨ Code39.withChecksum t = .ok y)
    (ex : Code39.encode x = .ok ms) (ey : Code39.encode y = .ok ms') : ¬ DifferIn 1 ms ms' := by
  have sym : ∀ (s : List Char) (x : Code39.Code39) (ms : List Nat), (Code39.new s = .ok x ∨ Code39.withChecksum s = .ok x) →
      Code39.encode x = .ok ms → ∃ t, (∀ c ∈ t, c ∈ code39Alphabet) ∧ ms = paint (code39Widths t) := by
    intro s x ms h e
    rcases h with h | h
    · obtain ⟨h1, h2⟩ := code39_symbol s false x h
      rw [h2, Outcome.ok.injEq] at e
      exact ⟨_, h1, e.symm⟩
    · obtain ⟨h1, h2⟩ := code39_symbol s true x h
      rw [h2, Outcome.ok.injEq] at e
      exact ⟨_, h1, e.symm⟩
  obtain ⟨u, hu, rfl⟩ := sym s x ms hx ex
  obtain ⟨v, hv, rfl⟩ := sym t y ms' hy ey
  refine not_differ_one _ _ fun hne hl => ?_
  rw [(code39_row u hu).length, (code39_row v hv).length] at hl
  have := code39_dist u v hu hv (by omega) (by rintro rfl; exact hne rfl)
  omega

/-! ## Code 93: single characters can be one module apart, but the check characters differ too -/

theorem m93_inj : ∀ c ∈ '*' :: code93Alphabet, ∀ d ∈ '*' :: code93Alphabet, c ≠ d →
    1 ≤ dist (paintFrom 1 (w93 c)) (paintFrom 1 (w93 d)) := by decide +kernel

-- Single Code 93 characters can be one module apart: '0' and 'D'.
example : dist (paintFrom 1 (w93 '0')) (paintFrom 1 (w93 'D')) = 1 := by decide

theorem paint93 (t : List Char) (h : ∀ c ∈ t, c ∈ code93Alphabet) :
    paint (code93SymWidths t) = ('*' :: (t ++ ['*'])).flatMap (fun c => paintFrom 1 (w93 c)) ++ [1] := by
  have hm := star_text_mem _ _ h
  have hl := flatMap_length 6 w93 ('*' :: (t ++ ['*'])) (fun c hc => (w93_spec c (hm c hc)).1)
  rw [code93SymWidths, paint, paintFrom_append_even 1 (by omega) _ _ (by rw [hl]; omega), paintFrom_flatMap 1 (by omega)]
  · rfl
  · intro c hc
    rw [(w93_spec c (hm c hc)).1]

/-- If two rows of codewords differ in at most one place, at most one codeword differs. -/
theorem dist_codes_one {α : Type} [DecidableEq α] (k : Nat) (f : α → List Nat) (l m : List α)
    (hl : ∀ a ∈ l, (f a).length = k) (hm : ∀ a ∈ m, (f a).length = k) (hlen : l.length = m.length)
    (hd : ∀ a ∈ l, ∀ c ∈ m, a ≠ c → 1 ≤ dist (f a) (f c)) (hne : l ≠ m)
    (h : dist (l.flatMap f) (m.flatMap f) ≤ 1) : ∃ p a c q, l = p ++ a :: q ∧ m = p ++ c :: q ∧ a ≠ c := by
  induction l generalizing m with
  | nil => cases m with
    | nil => exact absurd rfl hne
    | cons => simp at hlen
  | cons a l ih => cases m with
    | nil => simp at hlen
    | cons c m =>
      rw [List.flatMap_cons, List.flatMap_cons, dist_append _ _ _ _ (by rw [hl a (by simp), hm c (by simp)])] at h
      have hl' : ∀ x ∈ l, (f x).length = k := fun x hx => hl x (by simp [hx])
      have hm' : ∀ x ∈ m, (f x).length = k := fun x hx => hm x (by simp [hx])
      by_cases hac : a = c
      · obtain ⟨p, a', c', q, h1, h2, h3⟩ := ih m hl' hm' (by simpa using hlen)
          (fun x hx y hy => hd x (by simp [hx]) y (by simp [hy])) (by rintro rfl; exact hne (by rw [hac])) (by omega)
        exact ⟨a :: p, a', c', q, by rw [h1]; rfl, by rw [h2, hac]; rfl, h3⟩
      · have h1 := hd a (by simp) c (by simp) hac
        refine ⟨[], a, c, l, rfl, ?_, hac⟩
        have h0 : dist (l.flatMap f) (m.flatMap f) = 0 := by omega
        have he := dist_zero _ _ (by
          rw [flatMap_length k f l hl', flatMap_length k f m hm', show l.length = m.length by simpa using hlen]) h0
        by_cases hlm : l = m
        · rw [hlm]; rfl
        · exfalso
          refine hlm ?_
          by_cases hk : k = 0
          · subst hk
            have ha := hl a (by simp)
            have hc := hm c (by simp)
            rw [List.length_eq_zero_iff] at ha hc
            rw [ha, hc] at h1
            simp [dist] at h1
          · refine flatMap_codes_inj k (by omega) f l m hl' hm' ?_ he
            intro x hx y hy hxy
            by_cases hxy' : x = y
            · exact hxy'
            · have := hd x (by simp [hx]) y (by simp [hy]) hxy'
              rw [hxy, dist_self] at this
              omega

/-- C47. Two Code 93 symbols never differ in exactly one module. -/
theorem C47_code93_distance (s t : List Char) (x y : Code93.Code93) (ms ms' : List Nat) (hx : Code93.new s = .ok x)
    (hy : Code93.new t = .ok y) (ex : Code93.encode x = .ok ms) (ey : Code93.encode y = .ok ms') :
    ¬ DifferIn 1 ms ms' := by
  have as : ∀ c ∈ s, c ∈ code93Alphabet := (code93_new_ok s x hx).2
  obtain ⟨hu, e1⟩ := code93_symbol s x hx
  obtain ⟨hv, e2⟩ := code93_symbol t y hy
  rw [e1, Outcome.ok.injEq] at ex
  rw [e2, Outcome.ok.injEq] at ey
  subst ex ey
  refine not_differ_one _ _ fun hne hl h1 => ?_
  rw [(code93_row _ hu).length, (code93_row _ hv).length] at hl
  have len : ∀ v : List Char, (∀ c ∈ v, c ∈ code93Alphabet) → ∀ c ∈ '*' :: (v ++ ['*']),
      (paintFrom 1 (w93 c)).length = 9 := by
    intro v hv c hc
    rw [paintFrom_length, w93_sum c (star_text_mem _ _ hv c hc)]
  rw [paint93 _ hu, paint93 _ hv, dist_append, dist_self] at h1
  · have hlen : (code93Text s).length = (code93Text t).length := by omega
    have hstar : '*' :: (code93Text s ++ ['*']) ≠ '*' :: (code93Text t ++ ['*']) := by
      intro h
      rw [List.cons.injEq, List.append_left_inj] at h
      rw [h.2] at hne
      exact hne rfl
    obtain ⟨p, a, c, q, hp, hq, hac⟩ := dist_codes_one 9 (fun c => paintFrom 1 (w93 c)) _ _ (len _ hu) (len _ hv)
      (by simp [hlen]) (fun a ha c hc => m93_inj a (star_text_mem _ _ hu a ha) c (star_text_mem _ _ hv c hc)) hstar (by omega)
    -- strip the guards
    cases p with
    | nil =>
      simp only [List.nil_append, List.cons.injEq] at hp hq
      exact hac (hp.1.symm.trans hq.1)
    | cons f p =>
      simp only [List.cons_append, List.cons.injEq] at hp hq
      rcases List.eq_nil_or_concat q with rfl | ⟨q', g, rfl⟩
      · have h3 := List.append_inj_right' hp.2 rfl
        have h4 := List.append_inj_right' hq.2 rfl
        simp only [List.cons.injEq, and_true] at h3 h4
        exact hac (h3.symm.trans h4)
      · simp only [List.concat_eq_append, ← List.cons_append, ← List.append_assoc] at hp hq
        have h3 := List.append_inj_left' hp.2 rfl
        have h4 := List.append_inj_left' hq.2 rfl
        have hc : c ∈ code93Alphabet := hv c (by rw [h4]; simp)
        exact hac (code93_replace s t p q' a c as h3 h4 hc).symm
  · rw [flatMap_length 9 _ _ (len _ hu), flatMap_length 9 _ _ (len _ hv)]
    simp only [List.length_cons, List.length_append, List.length_nil]
    omega

example : ∃ ms ms', (Code93.new "A1".toList >>= Code93.encode) = .ok ms ∧ (Code93.new "A2".toList >>= Code93.encode) = .ok ms' ∧
    DifferIn 6 ms ms' := ⟨_, _, rfl, rfl, by decide, by decide⟩

/-! ## Code 128 and 2 of 5 -/

theorem m128_dist : ∀ v < 106, ∀ w < 106, v ≠ w → 2 ≤ dist (paintFrom 1 (w128 v)) (paintFrom 1 (w128 w)) := by
  decide +kernel

theorem code128_dist (vs ws : List Nat) (hv : ∀ v ∈ vs, v < 106) (hw : ∀ v ∈ ws, v < 106) (hl : vs.length = ws.length)
    (hne : vs ≠ ws) : 2 ≤ dist (paint (code128Widths vs)) (paint (code128Widths ws)) := by
  have p : ∀ l : List Nat, (∀ v ∈ l, v < 106) →
      paint (code128Widths l) = l.flatMap (fun v => paintFrom 1 (w128 v)) ++ paintFrom 1 code128Stop := by
    intro l h
    rw [code128Widths, paint, paintFrom_append_even 1 (by omega) _ _ (by rw [w128_length l h]; omega),
      paintFrom_flatMap 1 (by omega)]
    intro v hv
    rw [(w128_spec v (h v hv)).1]
  have len : ∀ l : List Nat, (∀ v ∈ l, v < 106) → ∀ v ∈ l, (paintFrom 1 (w128 v)).length = 11 := by
    intro l h v hv
    rw [paintFrom_length, w128_sum v (h v hv)]
  rw [p vs hv, p ws hw, dist_append]
  · have := dist_codes 11 (fun v => paintFrom 1 (w128 v)) vs ws (len vs hv) (len ws hw) hl
      (fun a ha c hc => m128_dist a (hv a ha) c (hw c hc)) hne
    omega
  · rw [flatMap_length 11 _ _ (len vs hv), flatMap_length 11 _ _ (len ws hw), hl]

/-- C47. Two Code 128 symbols that the library produces never differ in exactly one module. -/
theorem C47_code128_distance (b b' : Build) (s t : List Char) (x y : Code128.Code128) (ms ms' : List Nat)
    (hx : Code128.new s = .ok x) (hy : Code128.new t = .ok y) (ex : Code128.encode b x = .ok ms)
    (ey : Code128.encode b' y = .ok ms') : ¬ DifferIn 1 ms ms' := by
  obtain ⟨set, data, c, -, -, h1, rfl⟩ := code128_symbol b s x ms hx ex
  obtain ⟨set', data', c', -, -, h2, rfl⟩ := code128_symbol b' t y ms' hy ey
  refine not_differ_one _ _ fun hne hl => ?_
  rw [(code128_row _ h1).length, (code128_row _ h2).length] at hl
  have := code128_dist _ _ h1 h2 (by omega) (by intro h; rw [h] at hne; exact hne rfl)
  omega

example : ∃ ms ms', (Code128.new "ÀA1".toList >>= Code128.encode .debug) = .ok ms ∧
    (Code128.new "ÀA2".toList >>= Code128.encode .debug) = .ok ms' ∧ DifferIn 10 ms ms' :=
  ⟨_, _, rfl, rfl, by decide +kernel, by decide +kernel⟩

theorem mStf_dist : ∀ d < 10, ∀ e < 10, d ≠ e → 2 ≤ dist (paintFrom 1 (wStf d)) (paintFrom 1 (wStf e)) := by decide +kernel

theorem mItf_dist_num : ∀ n < 100, ∀ m < 100, n ≠ m →
    2 ≤ dist (paintFrom 1 (wItf (n / 10, n % 10))) (paintFrom 1 (wItf (m / 10, m % 10))) := by decide +kernel

theorem mItf_dist (a : Nat) (ha : a < 10) (b : Nat) (hb : b < 10) (c : Nat) (hc : c < 10) (d : Nat) (hd : d < 10)
    (h : (a, b) ≠ (c, d)) : 2 ≤ dist (paintFrom 1 (wItf (a, b))) (paintFrom 1 (wItf (c, d))) := by
  have := mItf_dist_num (10 * a + b) (by omega) (10 * c + d) (by omega) (by
    intro h'
    exact h (by rw [show a = c by omega, show b = d by omega]))
  rwa [show (10 * a + b) / 10 = a by omega, show (10 * a + b) % 10 = b by omega, show (10 * c + d) / 10 = c by omega,
    show (10 * c + d) % 10 = d by omega] at this

theorem stf_dist (ds es : List Nat) (hd : Digits ds) (he : Digits es) (hl : ds.length = es.length) (hne : ds ≠ es) :
    2 ≤ dist (paint (stfWidths ds)) (paint (stfWidths es)) := by
  have p : ∀ l : List Nat, Digits l → paint (stfWidths l) =
      paintFrom 1 [2, 1, 2, 1, 1, 1] ++ (l.flatMap (fun v => paintFrom 1 (wStf v)) ++ paintFrom 1 [2, 1, 1, 1, 2, 1]) := by
    intro l h
    have hl := flatMap_length 10 wStf l (fun d hd => (wStf_spec d (h d hd)).1)
    rw [stfWidths, paint, paintFrom_append_even 1 (by omega) _ _ (by decide),
      paintFrom_append_even 1 (by omega) _ _ (by rw [hl]; omega), paintFrom_flatMap 1 (by omega)]
    intro v hv
    rw [(wStf_spec v (h v hv)).1]
  have len : ∀ l : List Nat, Digits l → ∀ v ∈ l, (paintFrom 1 (wStf v)).length = 14 := by
    intro l h v hv
    rw [paintFrom_length, wStf_sum v (h v hv)]
  rw [p ds hd, p es he, dist_append _ _ _ _ rfl, dist_append]
  · have := dist_codes 14 (fun v => paintFrom 1 (wStf v)) ds es (len ds hd) (len es he) hl
      (fun a ha c hc => mStf_dist a (hd a ha) c (he c hc)) hne
    omega
  · rw [flatMap_length 14 _ _ (len ds hd), flatMap_length 14 _ _ (len es he), hl]

theorem itf_dist (ds es : List Nat) (hd : Digits ds) (he : Digits es) (hl : ds.length = es.length)
    (hev : ds.length % 2 = 0) (hne : ds ≠ es) : 2 ≤ dist (paint (itfWidths ds)) (paint (itfWidths es)) := by
  have p : ∀ l : List Nat, Digits l → paint (itfWidths l) =
      paintFrom 1 [1, 1, 1, 1] ++ ((pairs l).flatMap (fun v => paintFrom 1 (wItf v)) ++ paintFrom 1 [2, 1, 1]) := by
    intro l h
    have hl := flatMap_length 10 wItf (pairs l) (fun p hp =>
      (wItf_spec p.1 (pairs_lt l h p hp).1 p.2 (pairs_lt l h p hp).2).1)
    rw [itfWidths, paint, paintFrom_append_even 1 (by omega) _ _ (by decide),
      paintFrom_append_even 1 (by omega) _ _ (by rw [hl]; omega), paintFrom_flatMap 1 (by omega)]
    intro v hv
    rw [(wItf_spec v.1 (pairs_lt l h v hv).1 v.2 (pairs_lt l h v hv).2).1]
  have len : ∀ l : List Nat, Digits l → ∀ v ∈ pairs l, (paintFrom 1 (wItf v)).length = 18 := by
    intro l h v hv
    rw [paintFrom_length, wItf_sum v.1 (pairs_lt l h v hv).1 v.2 (pairs_lt l h v hv).2]
  have hp : pairs ds ≠ pairs es := by
    intro h
    have h1 := pairs_flatten ds hev
    rw [h, pairs_flatten es (by omega)] at h1
    exact hne h1.symm
  have hpl : (pairs ds).length = (pairs es).length := by rw [pairs_length, pairs_length, hl]
  rw [p ds hd, p es he, dist_append _ _ _ _ rfl, dist_append]
  · have := dist_codes 18 (fun v => paintFrom 1 (wItf v)) (pairs ds) (pairs es) (len ds hd) (len es he) hpl
      (fun a ha c hc => mItf_dist a.1 (pairs_lt ds hd a ha).1 a.2 (pairs_lt ds hd a ha).2 c.1 (pairs_lt es he c hc).1
        c.2 (pairs_lt es he c hc).2) hp
    omega
  · rw [flatMap_length 18 _ _ (len ds hd), flatMap_length 18 _ _ (len es he), hpl]

/-- C47. Two 2 of 5 symbols of the same kind never differ in exactly one module. -/
theorem C47_tf_distance (b b' : Build) (s t : List Char) (x y : TF.TF) (ms ms' : List Nat) (ex : TF.encode x = .ok ms)
    (ey : TF.encode y = .ok ms') :
    (TF.standard s = .ok x → TF.standard t = .ok y → ¬ DifferIn 1 ms ms') ∧
    (TF.interleaved b s = .ok x → TF.interleaved b' t = .ok y → ¬ DifferIn 1 ms ms') := by
  constructor <;> intro hx hy <;> refine not_differ_one _ _ fun hne hl => ?_
  · obtain ⟨d1, e1⟩ := stf_symbol s x hx
    obtain ⟨d2, e2⟩ := stf_symbol t y hy
    have r1 := stf_row _ (digits_lt s d1)
    have r2 := stf_row _ (digits_lt t d2)
    rw [e1, Outcome.ok.injEq] at ex
    rw [e2, Outcome.ok.injEq] at ey
    subst ex ey
    rw [r1.length, r2.length] at hl
    have := stf_dist _ _ (digits_lt s d1) (digits_lt t d2) (by omega) (by intro h; rw [h] at hne; exact hne rfl)
    omega
  · obtain ⟨ds, d1, v1, -, -, -, e1⟩ := itf_symbol b s x hx
    obtain ⟨es, d2, v2, -, -, -, e2⟩ := itf_symbol b' t y hy
    rw [e1, Outcome.ok.injEq] at ex
    rw [e2, Outcome.ok.injEq] at ey
    subst ex ey
    rw [(itf_row ds d1 v1).length, (itf_row es d2 v2).length] at hl
    have := itf_dist ds es d1 d2 (by omega) v1 (by rintro rfl; exact hne rfl)
    omega

-- Symbols that differ in exactly two modules exist, so the bound is sharp.
example : ∃ ms ms', (Code39.new "A1".toList >>= Code39.encode) = .ok ms ∧ (Code39.new "A2".toList >>= Code39.encode) = .ok ms' ∧
    DifferIn 2 ms ms' := ⟨_, _, rfl, rfl, by decide, by decide⟩

end Barcoders
