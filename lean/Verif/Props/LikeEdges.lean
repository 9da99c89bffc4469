import Verif.Spec.LikeEdges
import Verif.Props.Speed
import Verif.Props.Bookland

/-!
# C100: reading by the distances between like edges
-/

set_option autoImplicit false

namespace Barcoders
open Spec

theorem inked_length (x d : Nat) (t : Int) : ∀ (ws ps : List Nat), Inked x d t ws ps → ps.length = ws.length
  | [], [], _ => rfl
  | [], _ :: _, h => by simp [Inked] at h
  | _ :: _, [], h => by simp [Inked] at h
  | w :: ws, p :: ps, h => by
    rw [Inked] at h
    rw [List.length_cons, List.length_cons, inked_length x d (-t) ws ps h.2]

theorem readSteady_inked (ok : Nat → Int → Prop) (G : Nat → Nat → List Nat → Prop) (f : Nat → List Nat → List Nat)
    (hG : ∀ k n x d t g g', G k n g → 16 * d < x → ok x t → Inked x d t g g' → f n g' = g)
    (st : Layout) (es es' : List Nat) (hf : FitsBy G st es) (h : UnevenInk ok st es es') :
    readSteady f st es' = es ∧ es'.length = es.length := by
  induction st generalizing es es' with
  | nil => rw [UnevenInk] at h; rw [h.1, h.2]; exact ⟨rfl, rfl⟩
  | cons p st ih =>
    obtain ⟨k, n⟩ := p
    obtain ⟨⟨x, d, t, hd, ho, hc⟩, h⟩ := h
    obtain ⟨hg, hf⟩ := hf
    have h1 := ih _ _ hf h
    have h2 := inked_length _ _ _ _ _ hc
    rw [readSteady, hG k n x d t _ _ hg hd ho hc, h1.1, List.take_append_drop]
    refine ⟨rfl, ?_⟩
    have e1 := congrArg List.length (List.take_append_drop k es)
    have e2 := congrArg List.length (List.take_append_drop k es')
    rw [List.length_append] at e1 e2
    omega

theorem edges_of_fits (ok : Nat → Int → Prop) (G : Nat → Nat → List Nat → Prop) (f : Nat → List Nat → List Nat)
    (hG : ∀ k n x d t g g', G k n g → 16 * d < x → ok x t → Inked x d t g g' → f n g' = g)
    (layout : Nat → Layout) (ws : List Nat) (hp : ∀ w ∈ ws, 0 < w) (hne : ws ≠ [])
    (hf : FitsBy G (layout ws.length) ws) : ReadsByEdges ok f layout (paint ws) := by
  intro es line es' he hl hu α scan
  rw [elements_paint ws hp hne, Option.some.injEq] at he
  subst he
  obtain ⟨h1, h2⟩ := readSteady_inked ok G f hG _ _ _ hf hu
  rw [hl, Option.bind_some, h2, h1, alternating_eq_paintFrom, paint]

/-- Pairs of neighbours are free of ink. -/
theorem inked_pairs (x d : Nat) (t : Int) : ∀ (ws ps : List Nat), Inked x d t ws ps →
    Close x (2 * d) (likeEdges ws) (likeEdges ps)
  | [], [], _ => by simp [likeEdges, Close]
  | [], _ :: _, h => by simp [Inked] at h
  | _ :: _, [], h => by simp [Inked] at h
  | [_], [_], _ => by simp [likeEdges, Close]
  | [_], _ :: _ :: _, h => by simp [Inked] at h
  | _ :: _ :: _, [_], h => by simp [Inked] at h
  | w :: v :: ws, p :: q :: ps, h => by
    have h2 := h
    rw [Inked] at h2
    have ih := inked_pairs x d (-t) (v :: ws) (q :: ps) h2.2
    obtain ⟨a, b⟩ := h2
    rw [Inked] at b
    have e : ∀ (a b : Nat) (l : List Nat), likeEdges (a :: b :: l) = (a + b) :: likeEdges (b :: l) := fun _ _ _ => rfl
    rw [e, e, Close, Nat.add_mul]
    refine ⟨?_, ih⟩
    have b1 := b.1
    generalize w * x = m1 at *
    generalize v * x = m2 at *
    omega

theorem round_close (n k x d T : Nat) (g g' : List Nat) (hn : 0 < n) (hd : 8 * d < x) (hw : ∀ w ∈ g, (2 * w + 1) * k ≤ 6 * n)
    (h : Close x d g g') (h3 : n * x ≤ T + k * d) (h4 : T ≤ n * x + k * d) :
    g'.map (fun p => (2 * p * n + T) / (2 * T)) = g := by
  induction g generalizing g' with
  | nil => cases g' with
    | nil => rfl
    | cons _ _ => simp [Close] at h
  | cons w ws ih => cases g' with
    | nil => simp [Close] at h
    | cons p ps =>
      rw [Close] at h
      rw [List.map_cons, ih ps (fun v hv => hw v (by simp [hv])) h.2,
        round_part n k x d w p T hn hd (hw w (by simp)) h.1.1 h.1.2 h3 h4]

/-- Two elements at a time, the ink cancels. -/
theorem inked_sum (x d : Nat) (t : Int) : ∀ (ws ps : List Nat), Inked x d t ws ps → ws.length % 2 = 0 →
    ws.sum * x ≤ ps.sum + ws.length * d ∧ ps.sum ≤ ws.sum * x + ws.length * d
  | [], [], _, _ => by simp
  | [], _ :: _, h, _ => by simp [Inked] at h
  | _ :: _, [], h, _ => by simp [Inked] at h
  | [_], _, _, h => by simp at h
  | _ :: _ :: _, [_], h, _ => by simp [Inked] at h
  | w :: v :: ws, p :: q :: ps, h, hl => by
    rw [Inked, Inked, Int.neg_neg] at h
    obtain ⟨a, b, c⟩ := h
    have ih := inked_sum x d t ws ps c (by simp at hl; omega)
    simp only [List.sum_cons, List.length_cons, Nat.add_mul, Nat.one_mul]
    generalize w * x = m1 at *
    generalize v * x = m2 at *
    generalize ws.sum * x = m3 at *
    generalize ws.length * d = m4 at *
    omega

/-- The distances of a part come out right. -/
theorem likeEdgesIn_inked (n k x d : Nat) (t : Int) (g g' : List Nat) (hl : g.length = 2 * k) (hs : g.sum = n) (hn : 0 < n)
    (hw : ∀ e ∈ likeEdges g, (2 * e + 1) * k ≤ 6 * n) (hd : 16 * d < x) (h : Inked x d t g g') :
    likeEdgesIn n g' = likeEdges g := by
  have h34 := inked_sum x d t g g' h (by omega)
  rw [hs, hl] at h34
  have e : 2 * k * d = k * (2 * d) := by rw [Nat.mul_comm 2 k, Nat.mul_assoc]
  rw [e] at h34
  exact round_close n k x (2 * d) g'.sum _ _ hn (by omega) hw (inked_pairs x d t g g' h) h34.1 h34.2

/-! ## Characters of six elements -/

/-- A part of the symbol: a character of the chart, or the last bar. -/
def SixPart (chart : List (List Nat)) (last n0 : Nat) (k n : Nat) (g : List Nat) : Prop :=
  g.length = k ∧ ((n = n0 ∧ g ∈ chart) ∨ g = [last])

/-- What the reading relies on: the distances tell the characters apart. -/
def GoodChart (chart : List (List Nat)) (n0 : Nat) : Prop :=
  ∀ g ∈ chart, g.length = 6 ∧ g.sum = n0 ∧ 0 < n0 ∧ (∀ e ∈ likeEdges g, (2 * e + 1) * 3 ≤ 6 * n0) ∧
    chart.find? (fun ws => likeEdges ws == likeEdges g) = some g

theorem six_inked (chart : List (List Nat)) (last n0 : Nat) (hc : GoodChart chart n0) (k n x d : Nat) (t : Int) (g g' : List Nat)
    (hg : SixPart chart last n0 k n g) (hd : 16 * d < x) (_ : anyInk x t) (h : Inked x d t g g') :
    sixByEdges chart last n g' = g := by
  have hlen := inked_length x d t g g' h
  rcases hg with ⟨hk, ⟨rfl, hm⟩ | rfl⟩
  · obtain ⟨h6, hs, hn, hw, hf⟩ := hc g hm
    rw [sixByEdges, if_pos (by omega), likeEdgesIn_inked n 3 x d t g g' (by omega) hs hn hw hd h, hf, Option.getD_some]
  · rw [sixByEdges, if_neg (by rw [hlen]; simp)]

theorem good_chart93 : GoodChart (code93Chart.map Prod.snd) 9 := by unfold GoodChart; decide +kernel
theorem good_chart128 : GoodChart (code128Chart ++ [code128Stop.take 6]) 11 := by unfold GoodChart; decide +kernel

theorem w93_mem : ∀ c ∈ '*' :: code93Alphabet, w93 c ∈ code93Chart.map Prod.snd := by decide +kernel

/-- C100, Code 93. -/
theorem C100_code93 (b : Build) (s : List Char) (ms : List Nat) (h : Drawn b .code93 s ms) :
    ReadsByEdges anyInk code93Edges code93Layout ms := by
  obtain ⟨x, hx, he⟩ := h
  obtain ⟨hA, e⟩ := code93_symbol s x hx
  rw [e, Outcome.ok.injEq] at he
  subst he
  have hm := star_text_mem _ _ hA
  have hl := flatMap_length 6 w93 _ (fun c hc => (good_w93 c (hm c hc)).1)
  refine edges_of_fits _ _ _ (six_inked _ 1 9 good_chart93) _ _ (fun w hw => (code93_widths_pos _ hA w hw).1)
    (by simp [code93SymWidths]) ?_
  refine fitsBy_flatMap _ (fun _ _ _ h => h.1) 6 9 _ _ _ _ _ ?_
    (fun c hc => ⟨(good_w93 c (hm c hc)).1, .inl ⟨rfl, w93_mem c (hm c hc)⟩⟩)
    (fitsBy_last _ (fun _ _ _ h => h.1) 1 1 [1] ⟨rfl, .inr rfl⟩)
  rw [code93SymWidths, List.length_append, hl]
  simp only [List.length_singleton]
  omega

-- every bar three cells too wide, every space three cells too narrow
example : ∃ ms, Drawn .debug .code93 "A1".toList ms ∧ scanCode93 (alternating 1 (readSteady code93Edges
    (code93Layout ((elements ms).getD []).length) (((elements ms).getD []).mapIdx fun i w =>
      if i % 2 = 0 then 4 * w + 3 else 4 * w - 3))) = some "A1".toList := ⟨_, ⟨_, rfl, rfl⟩, by decide +kernel⟩

theorem w128_mem (v : Nat) (h : v < 106) : w128 v ∈ code128Chart ++ [code128Stop.take 6] := by
  have : code128Chart.length = 106 := by decide
  rw [w128, List.getD_eq_getElem?_getD, List.getElem?_eq_getElem (by omega), Option.getD_some]
  exact List.mem_append_left _ (List.getElem_mem _)

/-- C100, Code 128. -/
theorem C100_code128 (b : Build) (s : List Char) (ms : List Nat) (h : Drawn b .code128 s ms) :
    ReadsByEdges anyInk code128Edges code128Parts ms := by
  obtain ⟨x, hx, he⟩ := h
  obtain ⟨set, data, c, -, -, hv, e⟩ := code128_symbol b s x ms hx he
  subst e
  have hl := w128_length _ hv
  have h7 : code128Stop.length = 7 := by decide
  refine edges_of_fits _ _ _ (six_inked _ 2 11 good_chart128) _ _ (fun w hw => (code128_widths_pos _ hv w hw).1)
    (by simp [code128Widths, code128Stop]) ?_
  generalize hvs : set.start :: data ++ [c] = vs at *
  have hn : ((code128Widths vs).length - 1) / 6 = vs.length + 1 := by
    rw [code128Widths, List.length_append, hl, h7]; omega
  rw [code128Parts, hn, List.replicate_succ', List.append_assoc, code128Widths]
  refine fitsBy_flatMap _ (fun _ _ _ h => h.1) 6 11 _ _ _ _ _ rfl
    (fun v hm => ⟨(good_w128 v (hv v hm)).1, .inl ⟨rfl, w128_mem v (hv v hm)⟩⟩) ?_
  exact fitsBy_cons _ (fun _ _ _ h => h.1) 6 11 _ (code128Stop.take 6) [2] ⟨rfl, .inl ⟨rfl, by simp⟩⟩
    (fitsBy_last _ (fun _ _ _ h => h.1) 1 2 [2] ⟨rfl, .inr rfl⟩)

example : ∃ ms, Drawn .debug .code128 "Ć42".toList ms ∧ scanCode128 (alternating 1 (readSteady code128Edges
    (code128Parts ((elements ms).getD []).length) (((elements ms).getD []).mapIdx fun i w =>
      if i % 2 = 0 then 4 * w + 3 else 4 * w - 3))) = some "Ć42".toList := ⟨_, ⟨_, rfl, rfl⟩, by decide +kernel⟩

/-! ## EAN and UPC -/

/-- A digit or a guard. -/
def DigitPart (k n : Nat) (g : List Nat) : Prop :=
  g.length = k ∧ ((n = 7 ∧ g ∈ eanWidths ++ eanWidths.map List.reverse) ∨ (k ≠ 4 ∧ g = List.replicate k 1))

theorem digit_chart : ∀ g ∈ eanWidths ++ eanWidths.map List.reverse, g.length = 4 ∧ g.sum = 7 ∧
    (∀ e ∈ likeEdges g, (2 * e + 1) * 2 ≤ 6 * 7) ∧ g.getD 0 0 + g.getD 2 0 ≤ 5 := by decide

theorem digit_apart : ∀ g ∈ eanWidths ++ eanWidths.map List.reverse, ∀ u ∈ eanWidths ++ eanWidths.map List.reverse,
    likeEdges u = likeEdges g → u = g ∨ u.getD 0 0 + u.getD 2 0 + 2 ≤ g.getD 0 0 + g.getD 2 0 ∨
      g.getD 0 0 + g.getD 2 0 + 2 ≤ u.getD 0 0 + u.getD 2 0 := by decide +kernel

/-- The first and third element, with not too much ink, are less than a module off. -/
theorem first_third (x d : Nat) (t : Int) (g g' : List Nat) (h4 : g.length = 4) (hs : g.sum = 7) (hf : g.getD 0 0 + g.getD 2 0 ≤ 5)
    (hd : 16 * d < x) (ht : quarterInk x t) (h : Inked x d t g g') :
    7 * (g'.getD 0 0 + g'.getD 2 0) < (g.getD 0 0 + g.getD 2 0 + 1) * g'.sum ∧
      (g.getD 0 0 + g.getD 2 0) * g'.sum < 7 * (g'.getD 0 0 + g'.getD 2 0) + g'.sum := by
  have h5 := inked_sum x d t g g' h (by omega)
  rw [hs, h4] at h5
  match g, h4 with
  | [a, c, e, f], _ =>
    match g', h with
    | [a', c', e', f'], h =>
      simp only [Inked, Int.neg_neg] at h
      simp only [List.getD_cons_zero, List.getD_cons_succ] at hf ⊢
      obtain ⟨h1, -, h3, -, -⟩ := h
      generalize [a', c', e', f'].sum = T at *
      unfold quarterInk at ht
      have e1 : (a + e) * x = a * x + e * x := Nat.add_mul _ _ _
      have hz : ∃ z, z = a + e ∧ z ≤ 5 := ⟨_, rfl, hf⟩
      obtain ⟨z, hz, hz5⟩ := hz
      rw [← hz] at e1 ⊢
      generalize a * x = m1 at *
      generalize e * x = m2 at *
      have : z = 0 ∨ z = 1 ∨ z = 2 ∨ z = 3 ∨ z = 4 ∨ z = 5 := by omega
      rcases this with rfl | rfl | rfl | rfl | rfl | rfl <;> omega

theorem digit_inked (k n x d : Nat) (t : Int) (g g' : List Nat) (hg : DigitPart k n g) (hd : 16 * d < x) (ht : quarterInk x t)
    (h : Inked x d t g g') : digitByEdges n g' = g := by
  have hlen := inked_length x d t g g' h
  rcases hg with ⟨hk, ⟨rfl, hm⟩ | ⟨h4, rfl⟩⟩
  · obtain ⟨h4, hs, hw, hf⟩ := digit_chart g hm
    have hft := first_third x d t g g' h4 hs hf hd ht h
    rw [digitByEdges, if_pos (by omega), likeEdgesIn_inked 7 2 x d t g g' (by omega) hs (by omega) hw hd h,
      find_unique _ _ g hm ?_ ?_, Option.getD_some]
    · rw [Bool.and_eq_true, decide_eq_true_eq, beq_self_eq_true]
      exact ⟨rfl, hft⟩
    · intro u hu hp
      rw [Bool.and_eq_true, decide_eq_true_eq, beq_iff_eq] at hp
      obtain ⟨he, h1, h2⟩ := hp
      rcases digit_apart g hm u hu he with h | h | h
      · exact h
      · exfalso
        have := Nat.mul_le_mul_right g'.sum h
        have e := Nat.add_mul (u.getD 0 0 + u.getD 2 0) 2 g'.sum
        have e' := Nat.add_mul (u.getD 0 0 + u.getD 2 0) 1 g'.sum
        omega
      · exfalso
        have := Nat.mul_le_mul_right g'.sum h
        have e := Nat.add_mul (g.getD 0 0 + g.getD 2 0) 2 g'.sum
        have e' := Nat.add_mul (g.getD 0 0 + g.getD 2 0) 1 g'.sum
        omega
  · rw [List.length_replicate] at hk
    rw [digitByEdges, if_neg (by rw [hlen, List.length_replicate]; omega), hlen, List.length_replicate]

theorem digit_wAB : ∀ s : Bool, ∀ d < 10, DigitPart 4 7 (wAB (s, d)) :=
  fun s d h => ⟨(good_wAB s d h).1, .inl ⟨rfl, by
    have : ∀ s : Bool, ∀ d < 10, wAB (s, d) ∈ eanWidths ++ eanWidths.map List.reverse := by decide
    exact this s d h⟩⟩

theorem edges_halves {β : Type} (d n : Nat) (f : β → List Nat) (xs : List β) (ys : List Nat) (hx : xs.length = d)
    (hy : ys.length = d) (gx : ∀ x ∈ xs, DigitPart 4 7 (f x)) (gy : ∀ y ∈ ys, y < 10) :
    FitsBy DigitPart (retailLayout d n) (halvesWidths (xs.flatMap f) (ys.flatMap wA)) :=
  fitsBy_cons _ (fun _ _ _ h => h.1) 3 3 _ [1, 1, 1] _ ⟨rfl, .inr ⟨by decide, rfl⟩⟩
    (fitsBy_flatMap _ (fun _ _ _ h => h.1) 4 7 d f xs _ _ hx gx
      (fitsBy_cons _ (fun _ _ _ h => h.1) 5 5 _ [1, 1, 1, 1, 1] _ ⟨rfl, .inr ⟨by decide, rfl⟩⟩
        (fitsBy_flatMap _ (fun _ _ _ h => h.1) 4 7 d wA ys _ _ hy (fun y h => digit_wAB false y (gy y h))
          (fitsBy_last _ (fun _ _ _ h => h.1) 3 3 [1, 1, 1] ⟨rfl, .inr ⟨by decide, rfl⟩⟩))))

theorem edges_retail (d : Nat) (ls rs : List Nat) (hls : Digits ls) (hrs : Digits rs) (ll : ls.length = d) (lr : rs.length = d) :
    ReadsByEdges quarterInk digitByEdges (retailLayout d) (paint (halvesWidths (ls.flatMap wA) (rs.flatMap wA))) :=
  edges_of_fits _ _ _ digit_inked _ _ (fun w hw => (halves_pos _ _ (flatMap_wA_pos _ hls) (flatMap_wA_pos _ hrs) w hw).1)
    (halves_ne_nil _ _) (edges_halves d _ wA _ _ ll lr (fun y hy => digit_wAB false y (hls y hy)) hrs)

/-- C100, EAN-13. -/
theorem C100_ean13 (b : Build) (s : List Char) (ms : List Nat) (h : Drawn b .ean13 s ms) :
    ReadsByEdges quarterInk digitByEdges (retailLayout 6) ms := by
  obtain ⟨x, hx, he⟩ := h
  obtain ⟨d0, ls, rs, h0, hls, hrs, ll, lr, -, e⟩ := ean13_symbol b s x hx
  rw [e, Outcome.ok.injEq] at he
  subst he
  refine edges_of_fits _ _ _ digit_inked _ _ (fun w hw => (ean13Widths_pos d0 ls rs hls hrs w hw).1) (halves_ne_nil _ _) ?_
  refine edges_halves 6 _ wAB _ _ ?_ lr ?_ hrs
  · rw [List.length_zip, (parity_spec d0 h0).2.2.2.2.2, ll]; rfl
  · rintro ⟨t, v⟩ hp
    exact digit_wAB t v (zip_snd_lt _ _ hls _ hp)

-- a quarter of a module of ink at every edge
example : ∃ ms, Drawn .debug .ean13 "750103131130".toList ms ∧ scanEan13 (alternating 1 (readSteady digitByEdges
    (retailLayout 6 ((elements ms).getD []).length) (((elements ms).getD []).mapIdx fun i w =>
      if i % 2 = 0 then 8 * w + 1 else 8 * w - 1))) = some [7, 5, 0, 1, 0, 3, 1, 3, 1, 1, 3, 0, 9] :=
  ⟨_, ⟨_, rfl, rfl⟩, by decide +kernel⟩

/-- C100, EAN-8. -/
theorem C100_ean8 (b : Build) (s : List Char) (ms : List Nat) (h : Drawn b .ean8 s ms) :
    ReadsByEdges quarterInk digitByEdges (retailLayout 4) ms := by
  obtain ⟨x, hx, he⟩ := h
  obtain ⟨ls, rs, hls, hrs, ll, lr, -, e⟩ := ean8_symbol b s x hx
  rw [e, Outcome.ok.injEq] at he
  subst he
  exact edges_retail 4 ls rs hls hrs ll lr

example : ∃ ms, Drawn .debug .ean8 "5512345".toList ms ∧ scanEan8 (alternating 1 (readSteady digitByEdges
    (retailLayout 4 ((elements ms).getD []).length) (((elements ms).getD []).mapIdx fun i w =>
      if i % 2 = 0 then 8 * w + 1 else 8 * w - 1))) = some [5, 5, 1, 2, 3, 4, 5, 7] :=
  ⟨_, ⟨_, rfl, rfl⟩, by decide +kernel⟩

/-- C100, UPC-A. -/
theorem C100_upca (b : Build) (s : List Char) (ms : List Nat) (h : Drawn b .upca s ms) :
    ReadsByEdges quarterInk digitByEdges (retailLayout 6) ms := by
  obtain ⟨x, hx, he⟩ := h
  obtain ⟨ls, rs, hls, hrs, ll, lr, -, e⟩ := upca_symbol b s x hx
  rw [e, Outcome.ok.injEq] at he
  subst he
  exact edges_retail 6 ls rs hls hrs ll lr

/-! ## Ink that runs here and is missing there -/

/-- What may be measured of the Code 128 symbol of `ÀA`: bars almost a module too wide in the first character, three quarters of
a module too narrow in the second, and so on. -/
def inkyWidths : List Nat :=
  [59, 2, 38, 61, 40, 21, 10, 71, 9, 150, 51, 150, 24, 8, 24, 40, 40, 40, 69, 92, 100, 27, 38, 27, 27]

example : ∃ x ms es, Code128.new "ÀA".toList = .ok x ∧ Code128.encode .debug x = .ok ms ∧ elements ms = some es ∧
    UnevenInk anyInk (code128Parts es.length) es inkyWidths ∧ elements (alternating 1 inkyWidths) = some inkyWidths ∧
    scanCode128 (alternating 1 (readSteady code128Edges (code128Parts inkyWidths.length) inkyWidths)) = some "ÀA".toList := by
  refine ⟨_, _, [2, 1, 1, 4, 1, 2, 1, 1, 1, 3, 2, 3, 1, 1, 1, 3, 2, 3, 2, 3, 3, 1, 1, 1, 2], rfl, rfl,
    by decide +kernel, ?_, by decide +kernel, by decide +kernel⟩
  show (_ ∧ _ ∧ _ ∧ _ ∧ _ ∧ _ ∧ _)
  refine ⟨⟨20, 1, 19, by decide, trivial, ?_⟩, ⟨40, 1, -30, by decide, trivial, ?_⟩, ⟨16, 0, 8, by decide, trivial, ?_⟩,
    ⟨32, 1, 5, by decide, trivial, ?_⟩, ⟨10, 0, 7, by decide, trivial, ?_⟩, rfl, rfl⟩ <;>
    simp [inkyWidths, Inked, List.take, List.drop]

/-- C100. EAN digits do not stand as much: a whole module of ink turns a 1 into a 7. -/
theorem C100_whole_module : Inked 2 0 (-2) (wA 1) ((wA 7).map (· * 2)) ∧ Inked 2 0 0 (wA 7) ((wA 7).map (· * 2)) := by
  simp [Inked, wA, eanWidths]

/-- C100. The same in drawn symbols: one line is 1070000 with a module of ink too much in the first digit and too little in the
third, and 7010000 without any. So no reader can stand a module of ink that differs from digit to digit. -/
theorem C100_whole_module_drawn : ∃ ms ms' es es', Drawn .debug .ean8 "1070000".toList ms ∧ Drawn .debug .ean8 "7010000".toList ms' ∧
    elements ms = some es ∧ elements ms' = some es' ∧
    UnevenInk (fun x t => t.natAbs ≤ x) (retailLayout 4 es.length) es es' ∧
    UnevenInk (fun _ t => t = 0) (retailLayout 4 es'.length) es' es' := by
  refine ⟨_, _, [1, 1, 1, 2, 2, 2, 1, 3, 2, 1, 1, 1, 3, 1, 2, 3, 2, 1, 1, 1, 1, 1, 1, 1, 3, 2, 1, 1, 3, 2, 1, 1, 3, 2, 1, 1, 1, 1, 1, 4, 1, 1, 1],
    [1, 1, 1, 1, 3, 1, 2, 3, 2, 1, 1, 2, 2, 2, 1, 3, 2, 1, 1, 1, 1, 1, 1, 1, 3, 2, 1, 1, 3, 2, 1, 1, 3, 2, 1, 1, 1, 1, 1, 4, 1, 1, 1],
    ⟨_, rfl, rfl⟩, ⟨_, rfl, rfl⟩, by decide +kernel, by decide +kernel, ?_, ?_⟩
  · refine ⟨⟨1, 0, 0, by decide, by decide, ?_⟩, ⟨1, 0, -1, by decide, by decide, ?_⟩, ⟨1, 0, 0, by decide, by decide, ?_⟩,
      ⟨1, 0, 1, by decide, by decide, ?_⟩, ⟨1, 0, 0, by decide, by decide, ?_⟩, ⟨1, 0, 0, by decide, by decide, ?_⟩,
      ⟨1, 0, 0, by decide, by decide, ?_⟩, ⟨1, 0, 0, by decide, by decide, ?_⟩, ⟨1, 0, 0, by decide, by decide, ?_⟩,
      ⟨1, 0, 0, by decide, by decide, ?_⟩, ⟨1, 0, 0, by decide, by decide, ?_⟩, rfl, rfl⟩ <;> simp [Inked, List.take, List.drop]
  · refine ⟨⟨1, 0, 0, by decide, by decide, ?_⟩, ⟨1, 0, 0, by decide, by decide, ?_⟩, ⟨1, 0, 0, by decide, by decide, ?_⟩,
      ⟨1, 0, 0, by decide, by decide, ?_⟩, ⟨1, 0, 0, by decide, by decide, ?_⟩, ⟨1, 0, 0, by decide, by decide, ?_⟩,
      ⟨1, 0, 0, by decide, by decide, ?_⟩, ⟨1, 0, 0, by decide, by decide, ?_⟩, ⟨1, 0, 0, by decide, by decide, ?_⟩,
      ⟨1, 0, 0, by decide, by decide, ?_⟩, ⟨1, 0, 0, by decide, by decide, ?_⟩, rfl, rfl⟩ <;> simp [Inked, List.take, List.drop]

end Barcoders
