import Verif.Spec.Speed
import Verif.Props.Measure
import Verif.Props.InkSpread
import Verif.Spec.CodabarOwn

/-!
# C98: a beam of changing speed
-/

set_option autoImplicit false

namespace Barcoders
open Spec

theorem alternating_eq_paintFrom (c : Nat) (ws : List Nat) : alternating c ws = paintFrom c ws := by
  induction ws generalizing c with
  | nil => rfl
  | cons w ws ih => rw [alternating, paintFrom, ih]

theorem close_length (x d : Nat) : ∀ (ws ps : List Nat), Close x d ws ps → ps.length = ws.length
  | [], [], _ => rfl
  | [], _ :: _, h => by simp [Close] at h
  | _ :: _, [], h => by simp [Close] at h
  | w :: ws, p :: ps, h => by
    rw [Close] at h
    rw [List.length_cons, List.length_cons, close_length x d ws ps h.2]

theorem close_sum (x d : Nat) : ∀ (ws ps : List Nat), Close x d ws ps →
    ws.sum * x ≤ ps.sum + ws.length * d ∧ ps.sum ≤ ws.sum * x + ws.length * d
  | [], [], _ => by simp
  | [], _ :: _, h => by simp [Close] at h
  | _ :: _, [], h => by simp [Close] at h
  | w :: ws, p :: ps, h => by
    rw [Close] at h
    have ih := close_sum x d ws ps h.2
    have := h.1
    rw [List.sum_cons, List.sum_cons, List.length_cons, Nat.add_mul, Nat.add_mul]
    omega

/-- What makes a part readable: as many elements and modules as the layout says, none of them too wide. -/
def GoodPart (k n : Nat) (g : List Nat) : Prop :=
  g.length = k ∧ g.sum = n ∧ 0 < n ∧ ∀ w ∈ g, (2 * w + 1) * k ≤ 6 * n

theorem round_part (n k x d w p T : Nat) (hn : 0 < n) (hd : 8 * d < x) (hw : (2 * w + 1) * k ≤ 6 * n)
    (h1 : w * x ≤ p + d) (h2 : p ≤ w * x + d) (h3 : n * x ≤ T + k * d) (h4 : T ≤ n * x + k * d) :
    (2 * p * n + T) / (2 * T) = w := by
  have e1 : n * (w * x) ≤ n * p + n * d := by rw [← Nat.mul_add]; exact Nat.mul_le_mul_left _ h1
  have e2 : n * p ≤ n * (w * x) + n * d := by rw [← Nat.mul_add]; exact Nat.mul_le_mul_left _ h2
  have e3 : w * (n * x) ≤ w * T + w * (k * d) := by rw [← Nat.mul_add]; exact Nat.mul_le_mul_left _ h3
  have e4 : w * T ≤ w * (n * x) + w * (k * d) := by rw [← Nat.mul_add]; exact Nat.mul_le_mul_left _ h4
  have e5 : (2 * w + 1) * k * d ≤ 6 * n * d := Nat.mul_le_mul_right _ hw
  have e6 : n * (8 * d) < n * x := Nat.mul_lt_mul_of_pos_left hd hn
  have c1 : n * (w * x) = w * (n * x) := by rw [← Nat.mul_assoc, ← Nat.mul_assoc, Nat.mul_comm n w]
  have c2 : (2 * w + 1) * k * d = 2 * (w * (k * d)) + k * d := by
    rw [Nat.mul_assoc, Nat.add_mul, Nat.one_mul, Nat.mul_assoc]
  have c3 : 6 * n * d = 6 * (n * d) := Nat.mul_assoc _ _ _
  have c4 : n * (8 * d) = 8 * (n * d) := by rw [← Nat.mul_assoc, Nat.mul_comm n 8, Nat.mul_assoc]
  have c5 : 2 * p * n = 2 * (n * p) := by rw [Nat.mul_assoc, Nat.mul_comm p n]
  have c6 : w * (2 * T) = 2 * (w * T) := by rw [← Nat.mul_assoc, Nat.mul_comm w 2, Nat.mul_assoc]
  have c7 : (w + 1) * (2 * T) = 2 * (w * T) + 2 * T := by rw [Nat.add_mul, c6, Nat.one_mul]
  rw [c1] at e1 e2
  rw [c2, c3] at e5
  rw [c4] at e6
  generalize w * (n * x) = a at *
  generalize w * T = b at *
  generalize w * (k * d) = c at *
  generalize n * p = f at *
  generalize n * d = g at *
  generalize n * x = i at *
  generalize k * d = j at *
  apply Nat.div_eq_of_lt_le
  · rw [c6, c5]; omega
  · rw [c7, c5]; omega

theorem inModules_close (k n x d : Nat) (g g' : List Nat) (hg : GoodPart k n g) (hd : 8 * d < x) (h : Close x d g g') :
    inModules n g' = g := by
  obtain ⟨hk, hs, hn, hw⟩ := hg
  have h34 := close_sum x d g g' h
  rw [hs, hk] at h34
  unfold inModules
  generalize g'.sum = T at h34 ⊢
  clear hs hk
  induction g generalizing g' with
  | nil => cases g' with
    | nil => rfl
    | cons _ _ => simp [Close] at h
  | cons w ws ih => cases g' with
    | nil => simp [Close] at h
    | cons p ps =>
      rw [Close] at h
      rw [List.map_cons, ih ps h.2 (fun v hv => hw v (by simp [hv])),
        round_part n k x d w p T hn hd (hw w (by simp)) h.1.1 h.1.2 h34.1 h34.2]

/-- A layout fits some widths: every part is of the kind `G`. -/
def FitsBy (G : Nat → Nat → List Nat → Prop) : Layout → List Nat → Prop
  | [], es => es = []
  | (k, n) :: st, es => G k n (es.take k) ∧ FitsBy G st (es.drop k)

abbrev Fits := FitsBy GoodPart

theorem readSteady_unsteady (G : Nat → Nat → List Nat → Prop) (f : Nat → List Nat → List Nat)
    (hG : ∀ k n x d g g', G k n g → 8 * d < x → Close x d g g' → f n g' = g)
    (st : Layout) (es es' : List Nat) (hf : FitsBy G st es) (h : Unsteady st es es') :
    readSteady f st es' = es ∧ es'.length = es.length := by
  induction st generalizing es es' with
  | nil => rw [Unsteady] at h; rw [h.1, h.2]; exact ⟨rfl, rfl⟩
  | cons p st ih =>
    obtain ⟨k, n⟩ := p
    obtain ⟨⟨x, d, hd, hc⟩, h⟩ := h
    obtain ⟨hg, hf⟩ := hf
    have h1 := ih _ _ hf h
    have h2 := close_length _ _ _ _ hc
    rw [readSteady, hG k n x d _ _ hg hd hc, h1.1, List.take_append_drop]
    refine ⟨rfl, ?_⟩
    have e1 := congrArg List.length (List.take_append_drop k es)
    have e2 := congrArg List.length (List.take_append_drop k es')
    rw [List.length_append] at e1 e2
    omega

theorem reads_of_fits (layout : Nat → Layout) (ws : List Nat) (hp : ∀ w ∈ ws, 0 < w) (hne : ws ≠ [])
    (hf : Fits (layout ws.length) ws) : ReadsUnsteady layout (paint ws) := by
  intro es line es' he hl hu α scan
  rw [elements_paint ws hp hne, Option.some.injEq] at he
  subst he
  obtain ⟨h1, h2⟩ := readSteady_unsteady GoodPart inModules inModules_close _ _ _ hf hu
  rw [steadyScan, hl, Option.bind_some, h2, h1, alternating_eq_paintFrom, paint]

theorem fitsBy_cons (G : Nat → Nat → List Nat → Prop) (hG : ∀ k n g, G k n g → g.length = k)
    (k n : Nat) (st : Layout) (g es : List Nat) (hg : G k n g) (hf : FitsBy G st es) :
    FitsBy G ((k, n) :: st) (g ++ es) := by
  have hk := hG _ _ _ hg
  rw [FitsBy, ← hk, List.take_left, List.drop_left, hk]
  exact ⟨hg, hf⟩

theorem fitsBy_flatMap (G : Nat → Nat → List Nat → Prop) (hG : ∀ k n g, G k n g → g.length = k) {β : Type} (k n m : Nat) (f : β → List Nat) (xs : List β) (st : Layout) (es : List Nat)
    (hm : xs.length = m) (hx : ∀ x ∈ xs, G k n (f x)) (hf : FitsBy G st es) :
    FitsBy G (List.replicate m (k, n) ++ st) (xs.flatMap f ++ es) := by
  induction xs generalizing m with
  | nil => subst hm; exact hf
  | cons a xs ih =>
    subst hm
    rw [List.length_cons, List.replicate_succ, List.cons_append, List.flatMap_cons, List.append_assoc]
    exact fitsBy_cons G hG _ _ _ _ _ (hx a (by simp)) (ih _ rfl (fun x h => hx x (by simp [h])))

theorem fitsBy_last (G : Nat → Nat → List Nat → Prop) (hG : ∀ k n g, G k n g → g.length = k)
    (k n : Nat) (g : List Nat) (hg : G k n g) : FitsBy G [(k, n)] g := by
  have := fitsBy_cons G hG k n [] g [] hg rfl
  rwa [List.append_nil] at this

theorem fits_cons (k n : Nat) (st : Layout) (g es : List Nat) (hg : GoodPart k n g) (hf : Fits st es) :
    Fits ((k, n) :: st) (g ++ es) := fitsBy_cons _ (fun _ _ _ h => h.1) k n st g es hg hf

theorem fits_flatMap {β : Type} (k n m : Nat) (f : β → List Nat) (xs : List β) (st : Layout) (es : List Nat)
    (hm : xs.length = m) (hx : ∀ x ∈ xs, GoodPart k n (f x)) (hf : Fits st es) :
    Fits (List.replicate m (k, n) ++ st) (xs.flatMap f ++ es) :=
  fitsBy_flatMap _ (fun _ _ _ h => h.1) k n m f xs st es hm hx hf

theorem fits_last (k n : Nat) (g : List Nat) (hg : GoodPart k n g) : Fits [(k, n)] g :=
  fitsBy_last _ (fun _ _ _ h => h.1) k n g hg

/-! ## Two widths -/

/-- A part of a code of two widths. -/
def TwoWidths (k n : Nat) (g : List Nat) : Prop :=
  g.length = k ∧ n = 0 ∧ 1 ∈ g ∧ 2 ∈ g ∧ ∀ w ∈ g, w = 1 ∨ w = 2

instance (k n : Nat) (g : List Nat) : Decidable (TwoWidths k n g) := by unfold TwoWidths; infer_instance

theorem le_broadest (ws : List Nat) (w : Nat) (h : w ∈ ws) : w ≤ broadest ws := by
  induction ws with
  | nil => cases h
  | cons v vs ih =>
    rw [broadest, List.foldr_cons]
    rcases List.mem_cons.mp h with rfl | h
    · exact Nat.le_max_left _ _
    · exact Nat.le_trans (ih h) (Nat.le_max_right _ _)

theorem broadest_le (ws : List Nat) (n : Nat) (h : ∀ w ∈ ws, w ≤ n) : broadest ws ≤ n := by
  induction ws with
  | nil => exact Nat.zero_le _
  | cons v vs ih =>
    rw [broadest, List.foldr_cons]
    exact Nat.max_le.mpr ⟨h v (by simp), ih (fun w hw => h w (by simp [hw]))⟩

theorem close_mem (x d : Nat) : ∀ (ws ps : List Nat), Close x d ws ps → ∀ w ∈ ws, ∃ p ∈ ps, w * x ≤ p + d ∧ p ≤ w * x + d
  | [], [], _, _, hw => by cases hw
  | [], _ :: _, h, _, _ => by simp [Close] at h
  | _ :: _, [], h, _, _ => by simp [Close] at h
  | v :: ws, p :: ps, h, w, hw => by
    rw [Close] at h
    rcases List.mem_cons.mp hw with rfl | hw
    · exact ⟨p, by simp, h.1⟩
    · obtain ⟨q, hq, e⟩ := close_mem x d ws ps h.2 w hw
      exact ⟨q, by simp [hq], e⟩

theorem mem_close (x d : Nat) : ∀ (ws ps : List Nat), Close x d ws ps → ∀ p ∈ ps, ∃ w ∈ ws, w * x ≤ p + d ∧ p ≤ w * x + d
  | [], [], _, _, hw => by cases hw
  | [], _ :: _, h, _, _ => by simp [Close] at h
  | _ :: _, [], h, _, _ => by simp [Close] at h
  | v :: ws, q :: ps, h, p, hp => by
    rw [Close] at h
    rcases List.mem_cons.mp hp with rfl | hp
    · exact ⟨v, by simp, h.1⟩
    · obtain ⟨w, hw, e⟩ := mem_close x d ws ps h.2 p hp
      exact ⟨w, by simp [hw], e⟩

theorem inTwoWidths_close (k n x d : Nat) (g g' : List Nat) (hg : TwoWidths k n g) (hd : 8 * d < x) (h : Close x d g g') :
    inTwoWidths g' = g := by
  obtain ⟨-, -, h1, h2, hw⟩ := hg
  have hlo : ∀ p ∈ g', x - d ≤ p ∧ p ≤ 2 * x + d := by
    intro p hp
    obtain ⟨w, hwm, e⟩ := mem_close x d g g' h p hp
    rcases hw w hwm with rfl | rfl <;> omega
  obtain ⟨p1, m1, e1⟩ := close_mem x d g g' h 1 h1
  obtain ⟨p2, m2, e2⟩ := close_mem x d g g' h 2 h2
  have n1 := narrowest_le g' p1 m1
  have n2 := le_narrowest g' (x - d) (List.ne_nil_of_mem m1) (fun p hp => (hlo p hp).1)
  have n3 := le_broadest g' p2 m2
  have n4 := broadest_le g' (2 * x + d) (fun p hp => (hlo p hp).2)
  unfold inTwoWidths
  generalize narrowest g' = lo at n1 n2 ⊢
  generalize broadest g' = hi at n3 n4 ⊢
  clear h1 h2 m1 m2 hlo
  induction g generalizing g' with
  | nil => cases g' with
    | nil => rfl
    | cons _ _ => simp [Close] at h
  | cons w ws ih => cases g' with
    | nil => simp [Close] at h
    | cons p ps =>
      rw [Close] at h
      rw [List.map_cons, ih ps h.2 (fun v hv => hw v (by simp [hv]))]
      rcases hw w (by simp) with rfl | rfl
      · rw [if_pos (by omega)]
      · rw [if_neg (by omega)]

theorem reads_of_twoWidths (layout : Nat → Layout) (ws : List Nat) (hp : ∀ w ∈ ws, 0 < w) (hne : ws ≠ [])
    (hf : FitsBy TwoWidths (layout ws.length) ws) : ReadsTwoWidths layout (paint ws) := by
  intro es line es' he hl hu α scan
  rw [elements_paint ws hp hne, Option.some.injEq] at he
  subst he
  obtain ⟨h1, h2⟩ := readSteady_unsteady TwoWidths (fun _ => inTwoWidths) inTwoWidths_close _ _ _ hf hu
  rw [twoWidthScan, hl, Option.bind_some, h2, h1, alternating_eq_paintFrom, paint]

theorem two_w11 : ∀ c ∈ '*' :: code11Alphabet, TwoWidths 6 0 (w11 c ++ [1]) := by decide
theorem two_wU (u : Codabar.Unit) : TwoWidths 8 0 (wU u ++ [1]) ∧ TwoWidths 7 0 (wU u) := by cases u <;> decide

/-! ## The kinds -/

instance (k n : Nat) (g : List Nat) : Decidable (GoodPart k n g) := by unfold GoodPart; infer_instance

theorem good_wA : ∀ d < 10, GoodPart 4 7 (wA d) := by decide
theorem good_wAB : ∀ s : Bool, ∀ d < 10, GoodPart 4 7 (wAB (s, d)) := by decide
theorem good_supp : ∀ s : Bool, ∀ d < 10, GoodPart 6 9 ([1, 1] ++ wAB (s, d)) := by decide
theorem good_w39 : ∀ c ∈ '*' :: code39Alphabet, GoodPart 10 13 (w39 c ++ [1]) := by decide
theorem good_w93 : ∀ c ∈ '*' :: code93Alphabet, GoodPart 6 9 (w93 c) := by decide
theorem good_w128 : ∀ v < 106, GoodPart 6 11 (w128 v) := by decide
theorem good_wStf : ∀ d < 10, GoodPart 10 14 (wStf d) := by decide
theorem good_wItf : ∀ a < 10, ∀ b < 10, GoodPart 10 18 (wItf (a, b)) := by decide

theorem fits_halves {β : Type} (d n : Nat) (f : β → List Nat) (xs : List β) (ys : List Nat) (hx : xs.length = d)
    (hy : ys.length = d) (gx : ∀ x ∈ xs, GoodPart 4 7 (f x)) (gy : ∀ y ∈ ys, GoodPart 4 7 (wA y)) :
    Fits (retailLayout d n) (halvesWidths (xs.flatMap f) (ys.flatMap wA)) :=
  fits_cons 3 3 _ [1, 1, 1] _ (by decide)
    (fits_flatMap 4 7 d f xs _ _ hx gx (fits_cons 5 5 _ [1, 1, 1, 1, 1] _ (by decide)
      (fits_flatMap 4 7 d wA ys _ _ hy gy (fits_last 3 3 [1, 1, 1] (by decide)))))

/-- C98, EAN-13. -/
theorem C98_ean13 (b : Build) (s : List Char) (ms : List Nat) (h : Drawn b .ean13 s ms) :
    ReadsUnsteady (retailLayout 6) ms := by
  obtain ⟨x, hx, he⟩ := h
  obtain ⟨d0, ls, rs, h0, hls, hrs, ll, lr, -, e⟩ := ean13_symbol b s x hx
  rw [e, Outcome.ok.injEq] at he
  subst he
  refine reads_of_fits _ _ (fun w hw => (ean13Widths_pos d0 ls rs hls hrs w hw).1) (halves_ne_nil _ _) ?_
  refine fits_halves 6 _ wAB _ _ ?_ lr ?_ (fun y hy => good_wA y (hrs y hy))
  · rw [List.length_zip, (parity_spec d0 h0).2.2.2.2.2, ll]; rfl
  · rintro ⟨t, v⟩ hp
    exact good_wAB t v (zip_snd_lt _ _ hls _ hp)

-- the first digits at four cells to the module, the rest at seven
example : ∃ ms, Drawn .debug .ean13 "750103131130".toList ms ∧ steadyScan (retailLayout 6) scanEan13 (alternating 1
    (((elements ms).getD []).mapIdx fun i w => w * if i < 15 then 4 else 7)) = some [7, 5, 0, 1, 0, 3, 1, 3, 1, 1, 3, 0, 9] :=
  ⟨_, ⟨_, rfl, rfl⟩, by decide +kernel⟩

theorem good_halves (d : Nat) (ls rs : List Nat) (hls : Digits ls) (hrs : Digits rs) (ll : ls.length = d) (lr : rs.length = d) :
    ReadsUnsteady (retailLayout d) (paint (halvesWidths (ls.flatMap wA) (rs.flatMap wA))) :=
  reads_of_fits _ _ (fun w hw => (halves_pos _ _ (flatMap_wA_pos _ hls) (flatMap_wA_pos _ hrs) w hw).1) (halves_ne_nil _ _)
    (fits_halves d _ wA _ _ ll lr (fun y hy => good_wA y (hls y hy)) (fun y hy => good_wA y (hrs y hy)))

/-- C98, EAN-8. -/
theorem C98_ean8 (b : Build) (s : List Char) (ms : List Nat) (h : Drawn b .ean8 s ms) :
    ReadsUnsteady (retailLayout 4) ms := by
  obtain ⟨x, hx, he⟩ := h
  obtain ⟨ls, rs, hls, hrs, ll, lr, -, e⟩ := ean8_symbol b s x hx
  rw [e, Outcome.ok.injEq] at he
  subst he
  exact good_halves 4 ls rs hls hrs ll lr

example : ∃ ms, Drawn .debug .ean8 "5512345".toList ms ∧ steadyScan (retailLayout 4) scanEan8 (alternating 1
    (((elements ms).getD []).mapIdx fun i w => w * if i < 11 then 4 else 7)) = some [5, 5, 1, 2, 3, 4, 5, 7] :=
  ⟨_, ⟨_, rfl, rfl⟩, by decide +kernel⟩

/-- C98, UPC-A. -/
theorem C98_upca (b : Build) (s : List Char) (ms : List Nat) (h : Drawn b .upca s ms) :
    ReadsUnsteady (retailLayout 6) ms := by
  obtain ⟨x, hx, he⟩ := h
  obtain ⟨ls, rs, hls, hrs, ll, lr, -, e⟩ := upca_symbol b s x hx
  rw [e, Outcome.ok.injEq] at he
  subst he
  exact good_halves 6 ls rs hls hrs ll lr

example : ∃ ms, Drawn .debug .upca "61234567890".toList ms ∧ steadyScan (retailLayout 6) scanUpca (alternating 1
    (((elements ms).getD []).mapIdx fun i w => w * if i < 11 then 4 else 7)) = some [6, 1, 2, 3, 4, 5, 6, 7, 8, 9, 0, 7] :=
  ⟨_, ⟨_, rfl, rfl⟩, by decide +kernel⟩

/-- C98, Code 39, with and without a check character. -/
theorem C98_code39 (b : Build) (s : List Char) (ms : List Nat) (h : Drawn b .code39 s ms) :
    ReadsUnsteady code39Layout ms := by
  obtain ⟨x, hx, he⟩ := h
  have : ∃ t, (∀ c ∈ t, c ∈ code39Alphabet) ∧ Code39.encode x = .ok (paint (code39Widths t)) := by
    rcases hx with hx | hx
    · exact ⟨_, code39_symbol s false x hx⟩
    · exact ⟨_, code39_symbol s true x hx⟩
  obtain ⟨t, ht, e⟩ := this
  rw [e, Outcome.ok.injEq] at he
  subst he
  have hm := star_cons_mem _ _ ht
  have hl := flatMap_length 10 (fun c => w39 c ++ [1]) ('*' :: t) (fun c hc => (good_w39 c (hm c hc)).1)
  have h9 : (w39 '*').length = 9 := by decide
  refine reads_of_fits _ _ (fun w hw => (code39_widths_pos t ht w hw).1) (by rw [code39Widths, List.flatMap_cons]; simp) ?_
  refine fits_flatMap 10 13 _ _ _ _ _ ?_ (fun c hc => good_w39 c (hm c hc)) (fits_last 9 12 _ (by decide))
  rw [code39Widths, List.length_append, hl, h9]; omega

example : ∃ ms, Drawn .debug .code39 "A1".toList ms ∧ steadyScan code39Layout scanCode39 (alternating 1
    (((elements ms).getD []).mapIdx fun i w => w * if i < 20 then 4 else 7)) = some "A1".toList :=
  ⟨_, ⟨_, Or.inl rfl, rfl⟩, by decide +kernel⟩

/-- C98, Code 93. -/
theorem C98_code93 (b : Build) (s : List Char) (ms : List Nat) (h : Drawn b .code93 s ms) :
    ReadsUnsteady code93Layout ms := by
  obtain ⟨x, hx, he⟩ := h
  obtain ⟨hA, e⟩ := code93_symbol s x hx
  rw [e, Outcome.ok.injEq] at he
  subst he
  have hm := star_text_mem _ _ hA
  have hl := flatMap_length 6 w93 _ (fun c hc => (good_w93 c (hm c hc)).1)
  refine reads_of_fits _ _ (fun w hw => (code93_widths_pos _ hA w hw).1) (by simp [code93SymWidths]) ?_
  refine fits_flatMap 6 9 _ _ _ _ _ ?_ (fun c hc => good_w93 c (hm c hc)) (fits_last 1 1 [1] (by decide))
  rw [code93SymWidths, List.length_append, hl]
  simp only [List.length_singleton]
  omega

example : ∃ ms, Drawn .debug .code93 "A1".toList ms ∧ steadyScan code93Layout scanCode93 (alternating 1
    (((elements ms).getD []).mapIdx fun i w => w * if i < 12 then 4 else 7)) = some "A1".toList :=
  ⟨_, ⟨_, rfl, rfl⟩, by decide +kernel⟩

/-- C98, Code 128. -/
theorem C98_code128 (b : Build) (s : List Char) (ms : List Nat) (h : Drawn b .code128 s ms) :
    ReadsUnsteady code128Layout ms := by
  obtain ⟨x, hx, he⟩ := h
  obtain ⟨set, data, c, -, -, hv, e⟩ := code128_symbol b s x ms hx he
  subst e
  have h7 : code128Stop.length = 7 := by decide
  refine reads_of_fits _ _ (fun w hw => (code128_widths_pos _ hv w hw).1) (by simp [code128Widths, code128Stop]) ?_
  refine fits_flatMap 6 11 _ _ _ _ _ ?_ (fun v h => good_w128 v (hv v h)) (fits_last 7 13 _ (by decide))
  have hl := w128_length _ hv
  rw [code128Widths, List.length_append (as := List.flatMap _ _), hl, h7]; omega

example : ∃ ms, Drawn .debug .code128 "ÀA1".toList ms ∧ steadyScan code128Layout scanCode128 (alternating 1
    (((elements ms).getD []).mapIdx fun i w => w * if i < 12 then 4 else 7)) = some "ÀA1".toList :=
  ⟨_, ⟨_, rfl, rfl⟩, by decide +kernel⟩

/-- C98, standard two of five. -/
theorem C98_stf (b : Build) (s : List Char) (ms : List Nat) (h : Drawn b .stf s ms) : ReadsUnsteady stfLayout ms := by
  obtain ⟨x, hx, he⟩ := h
  obtain ⟨hD, e⟩ := stf_symbol s x hx
  rw [e, Outcome.ok.injEq] at he
  subst he
  have hd := digits_lt s hD
  have hl := flatMap_length 10 wStf _ (fun d h => (good_wStf d (hd d h)).1)
  refine reads_of_fits _ _ (fun w hw => (stf_pos _ hd w hw).1) (by simp [stfWidths]) ?_
  refine fits_cons 6 8 _ [2, 1, 2, 1, 1, 1] _ (by decide) (fits_flatMap 10 14 _ _ _ _ _ ?_ (fun d h => good_wStf d (hd d h))
    (fits_last 6 8 [2, 1, 1, 1, 2, 1] (by decide)))
  rw [stfWidths, List.length_append, List.length_append, hl]
  simp only [List.length_cons, List.length_nil]
  omega

example : ∃ ms, Drawn .debug .stf "12".toList ms ∧ steadyScan stfLayout scanStf (alternating 1
    (((elements ms).getD []).mapIdx fun i w => w * if i < 16 then 4 else 7)) = some [1, 2] :=
  ⟨_, ⟨_, rfl, rfl⟩, by decide +kernel⟩

/-- C98, interleaved two of five. -/
theorem C98_itf (b : Build) (s : List Char) (ms : List Nat) (h : Drawn b .itf s ms) : ReadsUnsteady itfLayout ms := by
  obtain ⟨x, hx, he⟩ := h
  obtain ⟨ds, hd, hev, hlen, hD, hc, e⟩ := itf_symbol b s x hx
  rw [e, Outcome.ok.injEq] at he
  subst he
  have hg : ∀ p ∈ pairs ds, GoodPart 10 18 (wItf p) := fun p h => good_wItf p.1 (pairs_lt ds hd p h).1 p.2 (pairs_lt ds hd p h).2
  have hl := flatMap_length 10 wItf (pairs ds) (fun p h => (hg p h).1)
  refine reads_of_fits _ _ (fun w hw => (itf_pos ds hd w hw).1) (by simp [itfWidths]) ?_
  refine fits_cons 4 4 _ [1, 1, 1, 1] _ (by decide) (fits_flatMap 10 18 _ _ _ _ _ ?_ hg (fits_last 3 4 [2, 1, 1] (by decide)))
  rw [itfWidths, List.length_append, List.length_append, hl]
  simp only [List.length_cons, List.length_nil]
  omega

example : ∃ ms, Drawn .debug .itf "1234".toList ms ∧ steadyScan itfLayout scanItf (alternating 1
    (((elements ms).getD []).mapIdx fun i w => w * if i < 14 then 4 else 7)) = some [1, 2, 3, 4] :=
  ⟨_, ⟨_, rfl, rfl⟩, by decide +kernel⟩

/-- C98, add-ons. -/
theorem C98_supp (b : Build) (s : List Char) (ms : List Nat) (h : Drawn b .supp s ms) : ReadsUnsteady addOnLayout ms := by
  obtain ⟨x, hx, he⟩ := h
  obtain ⟨ws, e, hl, hd, -, -, h25⟩ := supp_symbol s x hx
  rw [e, Outcome.ok.injEq] at he
  subst he
  obtain ⟨p, ps, rfl⟩ := List.exists_cons_of_ne_nil (l := ws) (by rintro rfl; simp at hl; omega)
  have hg : ∀ q ∈ ps, GoodPart 6 9 ([1, 1] ++ wAB q) := fun q hq => good_supp q.1 q.2 (hd q (by simp [hq]))
  have hp := good_wAB p.1 p.2 (hd p (by simp))
  have hf := flatMap_length 6 (fun q => [1, 1] ++ wAB q) ps (fun q h => (hg q h).1)
  refine reads_of_fits _ _ (fun w hw => (suppWidths_pos _ hd w hw).1) (by simp [suppWidths]) ?_
  refine fits_cons 3 4 _ [1, 1, 2] _ (by decide) (fits_cons 4 7 _ _ _ hp ?_)
  have := fits_flatMap 6 9 (((suppWidths (p :: ps)).length - 7) / 6) (fun q => [1, 1] ++ wAB q) ps [] [] ?_ hg rfl
  · rwa [List.append_nil, List.append_nil] at this
  · rw [suppWidths, List.length_append, List.length_append, hf, hp.1]
    simp only [List.length_cons, List.length_nil]
    omega

example : ∃ ms, Drawn .debug .supp "05".toList ms ∧ steadyScan addOnLayout scanAddOn (alternating 1
    (((elements ms).getD []).mapIdx fun i w => w * if i < 7 then 4 else 7)) = some [0, 5] :=
  ⟨_, ⟨_, rfl, rfl⟩, by decide +kernel⟩

/-- C98, Code 11. -/
theorem C98_code11 (b : Build) (s : List Char) (ms : List Nat) (h : Drawn b .code11 s ms) : ReadsTwoWidths code11Layout ms := by
  obtain ⟨x, hx, he⟩ := h
  obtain ⟨hA, e⟩ := code11_symbol s x hx
  rw [e, Outcome.ok.injEq] at he
  subst he
  have hm := star_cons_mem _ _ hA
  have hl := flatMap_length 6 (fun c => w11 c ++ [1]) ('*' :: code11Text s) (fun c hc => (two_w11 c (hm c hc)).1)
  have h5 : (w11 '*').length = 5 := by decide
  refine reads_of_twoWidths _ _ ?_ (by rw [code11SymWidths, List.flatMap_cons]; simp) ?_
  · intro w hw
    rw [code11SymWidths, List.mem_append, List.mem_flatMap] at hw
    rcases hw with ⟨c, hc, hw⟩ | hw
    · rcases (two_w11 c (hm c hc)).2.2.2.2 w hw with rfl | rfl <;> decide
    · exact ((w11_spec '*' (by simp)).2.2 w hw).1
  · refine fitsBy_flatMap TwoWidths (fun _ _ _ h => h.1) 6 0 _ _ _ _ _ ?_ (fun c hc => two_w11 c (hm c hc))
      (fitsBy_last TwoWidths (fun _ _ _ h => h.1) 5 0 _ (by decide))
    rw [code11SymWidths, List.length_append, hl, h5]; omega

example : ∃ ms, Drawn .debug .code11 "1-".toList ms ∧ twoWidthScan code11Layout scanCode11 (alternating 1
    (((elements ms).getD []).mapIdx fun i w => w * if i < 12 then 4 else 7)) = some "1-".toList :=
  ⟨_, ⟨_, rfl, rfl⟩, by decide +kernel⟩

/-- C98, Codabar. -/
theorem C98_codabar (b : Build) (s : List Char) (ms : List Nat) (h : Drawn b .codabar s ms) :
    ReadsTwoWidths codabarLayout ms := by
  obtain ⟨x, hx, he⟩ := h
  obtain ⟨cs, c, -, -, e⟩ := codabar_symbol s x hx
  rw [e] at he
  subst he
  have hl := flatMap_length 8 (fun u => wU u ++ [1]) (cs.map unitOf) (fun u _ => (two_wU u).1.1)
  have h7 := (two_wU (unitOf c)).2.1
  refine reads_of_twoWidths _ _ ?_ ?_ ?_
  · intro w hw
    rw [codabarSymWidths, List.mem_append, List.mem_flatMap] at hw
    rcases hw with ⟨u, hu, hw⟩ | hw
    · rcases (two_wU u).1.2.2.2.2 w hw with rfl | rfl <;> decide
    · exact ((wU_spec _).2.2 w hw).1
  · intro h0
    rw [codabarSymWidths, List.append_eq_nil_iff] at h0
    rw [h0.2] at h7
    cases h7
  · refine fitsBy_flatMap TwoWidths (fun _ _ _ h => h.1) 8 0 _ _ _ _ _ ?_ (fun u _ => (two_wU u).1)
      (fitsBy_last TwoWidths (fun _ _ _ h => h.1) 7 0 _ (two_wU _).2)
    rw [codabarSymWidths, List.length_append, hl, h7]; omega

/-! ## A pen that slows down and comes back to speed -/

/-- What a pen may measure of the Code 39 symbol of `A`: ten cells for a module of the first character, forty in the second,
twenty in the third, and few widths exact. -/
def penWidths : List Nat :=
  [11, 19, 10, 9, 20, 10, 21, 10, 11, 9, 84, 36, 40, 41, 38, 83, 40, 40, 77, 44, 20, 42, 18, 20, 39, 20, 40, 22, 20]

example : ∃ x ms es, Code39.new "A".toList = .ok x ∧ Code39.encode x = .ok ms ∧ elements ms = some es ∧
    Unsteady (code39Layout es.length) es penWidths ∧ elements (alternating 1 penWidths) = some penWidths ∧
    steadyScan code39Layout scanCode39 (alternating 1 penWidths) = some "A".toList := by
  refine ⟨_, _, [1, 2, 1, 1, 2, 1, 2, 1, 1, 1, 2, 1, 1, 1, 1, 2, 1, 1, 2, 1, 1, 2, 1, 1, 2, 1, 2, 1, 1], rfl, rfl,
    by decide +kernel, ?_, by decide +kernel, by decide +kernel⟩
  show (_ ∧ _ ∧ _ ∧ _)
  refine ⟨⟨10, 1, by decide, ?_⟩, ⟨40, 4, by decide, ?_⟩, ⟨20, 2, by decide, ?_⟩, rfl, rfl⟩ <;>
    simp [penWidths, Close, List.take, List.drop]

/-- What a pen may measure of the Codabar symbol of `A1B`: a slow start, a fast end. -/
def codabarPen : List Nat :=
  [42, 40, 81, 82, 38, 79, 43, 40, 20, 21, 20, 19, 39, 41, 20, 20, 10, 11, 10, 20, 9, 19, 20]

example : ∃ x es, Codabar.new "A1B".toList = .ok x ∧ elements (Codabar.encode x) = some es ∧
    Unsteady (codabarLayout es.length) es codabarPen ∧ elements (alternating 1 codabarPen) = some codabarPen ∧
    twoWidthScan codabarLayout scanOwnCodabar (alternating 1 codabarPen) = some "A1B".toList := by
  refine ⟨_, [1, 1, 2, 2, 1, 2, 1, 1, 1, 1, 1, 1, 2, 2, 1, 1, 1, 1, 1, 2, 1, 2, 2], rfl, by decide +kernel, ?_,
    by decide +kernel, by decide +kernel⟩
  show (_ ∧ _ ∧ _ ∧ _)
  refine ⟨⟨40, 4, by decide, ?_⟩, ⟨20, 2, by decide, ?_⟩, ⟨10, 1, by decide, ?_⟩, rfl, rfl⟩ <;>
    simp [codabarPen, Close, List.take, List.drop]

/-- The tolerance cannot be much larger: with every element wrong by a quarter of its module, the start character of Code 93 is
not recognised. -/
example : Close 4 1 [1, 1, 1, 1, 4, 1] [5, 5, 5, 5, 15, 5] ∧ readCode93Char [1, 1, 1, 1, 4, 1] = some '*' ∧
    readCode93Char (inModules 9 [5, 5, 5, 5, 15, 5]) = none :=
  ⟨by simp [Close], by decide, by decide⟩

end Barcoders
