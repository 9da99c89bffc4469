import Verif.Spec.Coverage
import Verif.Props.Parity
import Verif.Props.Image
import Verif.Props.Svg
import Verif.Props.Ascii

/-!
# C130: how much of a picture is dark
-/

set_option autoImplicit false

namespace Barcoders

open Spec

/-! ## Counting places -/

theorem countP_places (bits : List Nat) (p : Option Nat → Bool) :
    (List.range bits.length).countP (fun i => p bits[i]?) = bits.countP (fun m => p (some m)) := by
  have h : (List.range bits.length).map (fun i => bits[i]?) = bits.map some := by
    apply List.ext_getElem
    · simp
    · intro i h1 h2
      simp at h1
      simp [h1]
  have h1 := List.countP_map (p := p) (f := fun i => bits[i]?) (l := List.range bits.length)
  have h2 := List.countP_map (p := p) (f := some) (l := bits)
  rw [h, h2] at h1
  exact h1.symm

theorem countP_const {α : Type} (l : List α) (q : α → Bool) (c : Bool) (h : ∀ a ∈ l, q a = c) :
    l.countP q = if c then l.length else 0 := by
  cases c with
  | true => rw [if_pos rfl, List.countP_eq_length]; exact h
  | false => rw [if_neg (by simp), List.countP_eq_zero]; intro a ha; rw [h a ha]; simp

theorem countP_cells (n k : Nat) (q : Nat → Bool) :
    (List.range (n * k)).countP (fun x => q (x / k)) = k * (List.range n).countP q := by
  rcases Nat.eq_zero_or_pos k with rfl | hk
  · simp
  induction n with
  | zero => simp
  | succ n ih =>
    rw [Nat.succ_mul, List.range_add, List.countP_append, ih, List.range_succ, List.countP_append, Nat.mul_add, List.countP_map]
    have hc : ∀ a ∈ List.range k, ((fun x => q (x / k)) ∘ fun x => n * k + x) a = q n := by
      intro a ha
      rw [List.mem_range] at ha
      simp only [Function.comp_apply]
      rw [Nat.add_comm, Nat.add_mul_div_right _ _ hk, Nat.div_eq_of_lt ha, Nat.zero_add]
    rw [countP_const _ _ (q n) hc, List.length_range]
    cases hq : q n <;> simp [hq]

theorem countP_turned (w : Nat) (q : Nat → Bool) : (List.range w).countP (fun x => q (w - 1 - x)) = (List.range w).countP q := by
  have h : (List.range w).map (fun x => w - 1 - x) = (List.range w).reverse := by
    apply List.ext_getElem
    · simp
    · intro i h1 h2
      simp
  have h1 := List.countP_map (p := q) (f := fun x => w - 1 - x) (l := List.range w)
  rw [h, List.countP_reverse] at h1
  exact h1.symm

theorem sum_const {α : Type} (l : List α) (f : α → Nat) (k : Nat) (h : ∀ a ∈ l, f a = k) : (l.map f).sum = l.length * k := by
  induction l with
  | nil => simp
  | cons a l ih =>
    rw [List.map_cons, List.sum_cons, ih (fun x hx => h x (by simp [hx])), h a (by simp), List.length_cons, Nat.succ_mul]
    omega

theorem dots_columns (w h n : Nat) (looks : Nat → Nat → Bool) (q : Nat → Bool) (hq : ∀ x < w, ∀ y < h, looks x y = q x)
    (hn : (List.range w).countP q = n) : dots w h looks = h * n := by
  unfold dots
  rw [sum_const _ _ n]
  · simp
  · intro y hy
    rw [← hn]
    apply List.countP_congr
    intro x hx
    rw [List.mem_range] at hx hy
    rw [hq x hx y hy]

theorem dots_rows (w h : Nat) (looks : Nat → Nat → Bool) (q : Nat → Bool) (hq : ∀ x < w, ∀ y < h, looks x y = q y) :
    dots w h looks = w * (List.range h).countP q := by
  unfold dots
  have : ∀ l : List Nat, (∀ y ∈ l, y < h) → (l.map (fun y => (List.range w).countP (fun x => looks x y))).sum = w * l.countP q := by
    intro l hl
    induction l with
    | nil => simp
    | cons y l ih =>
      have h1 := countP_const (List.range w) (fun x => looks x y) (q y) (fun x hx => by
        rw [List.mem_range] at hx
        exact hq x hx y (hl y (by simp)))
      rw [List.map_cons, List.sum_cons, ih (fun z hz => hl z (by simp [hz])), h1, List.countP_cons, Nat.mul_add]
      cases q y <;> simp <;> omega
  exact this _ (fun y hy => List.mem_range.mp hy)

/-! ## Pictures -/

/-- C130. The text generator writes a `#` for every dark module, `xdim` times in each of `height` lines. -/
theorem C130_ascii (g : Ascii.ASCII) (ms : List Nat) (out : List Char) (h : Ascii.generate g ms = .ok out)
    (hb : ∀ m ∈ ms, m = 0 ∨ m = 1) : out.count '#' = g.height * (g.xdim * darkModules ms) := by
  rw [C35_ascii_output g ms hb, Outcome.ok.injEq] at h
  rw [← h]
  have row : (asciiRow g.xdim ms).count '#' = g.xdim * darkModules ms := by
    clear h
    unfold asciiRow darkModules
    induction ms with
    | nil => simp
    | cons m ms ih =>
      have := ih (fun x hx => hb x (by simp [hx]))
      rw [List.flatMap_cons, List.count_append, this, List.count_cons]
      rcases hb m (by simp) with rfl | rfl <;> simp [List.count_replicate, Nat.mul_add] <;> omega
  cases hh : g.height with
  | zero => simp [joinLines]
  | succ n =>
    rw [joinLines_replicate, List.count_append, row]
    have : ∀ k, ((List.replicate k (asciiRow g.xdim ms ++ ['\n'])).flatten).count '#' = k * (g.xdim * darkModules ms) := by
      intro k
      induction k with
      | zero => simp
      | succ k ih =>
        rw [List.replicate_succ, List.flatten_cons, List.count_append, List.count_append, ih, row, Nat.succ_mul]
        have : ['\n'].count '#' = 0 := by decide
        omega
    rw [this, Nat.succ_mul]

example : ∃ out, Ascii.generate ⟨3, 2⟩ [1, 0, 1, 1] = .ok out ∧ out.count '#' = 18 := ⟨_, rfl, by decide +kernel⟩

theorem dark_places (ms : List Nat) (hb : ∀ m ∈ ms, m = 0 ∨ m = 1) :
    (List.range ms.length).countP (fun i => decide (ms[i]? ≠ some 0)) = darkModules ms := by
  rw [countP_places ms (fun o => decide (o ≠ some 0))]
  unfold darkModules List.count
  apply List.countP_congr
  intro m hm
  rcases hb m hm with rfl | rfl <;> simp

/-- C130. The image generators colour `xdim` by `height` pixels for every dark module, however the picture is turned. -/
theorem C130_image (b : Build) (g : Image.Image) (ms : List Nat) (buf : Image.Buffer) (h : Image.generateBuffer b g ms = .ok buf)
    (hb : ∀ m ∈ ms, m = 0 ∨ m = 1) (hh : 0 < g.height) (hc : g.foreground ≠ g.background) :
    dots buf.w buf.h (fun x y => decide (buf.px x y = g.foreground)) = g.height * (g.xdim * darkModules ms) := by
  obtain ⟨hsz, hpx⟩ := C42_image_never_wrong b g ms buf h
  have hsz := hsz hh
  have look : ∀ (i : Nat), decide ((if ms[i]? = some 0 then g.background else g.foreground) = g.foreground) = decide (ms[i]? ≠ some 0) := by
    intro i
    by_cases hi : ms[i]? = some 0
    · simp [hi, Ne.symm hc]
    · simp [hi]
  have cells := countP_cells ms.length g.xdim (fun i => decide (ms[i]? ≠ some 0))
  rw [dark_places ms hb] at cells
  cases hr : g.rotation with
  | zero =>
    rw [hr, Prod.mk.injEq] at hsz
    simp only [hr] at hpx
    rw [hsz.1, hsz.2] at hpx ⊢
    exact dots_columns _ _ _ _ (fun x => decide (ms[x / g.xdim]? ≠ some 0)) (fun x hx y hy => by rw [hpx x y hx hy, look]) cells
  | oneEighty =>
    rw [hr, Prod.mk.injEq] at hsz
    simp only [hr] at hpx
    rw [hsz.1, hsz.2] at hpx ⊢
    refine dots_columns _ _ _ _ (fun x => decide (ms[(ms.length * g.xdim - 1 - x) / g.xdim]? ≠ some 0))
      (fun x hx y hy => by rw [hpx x y hx hy, look]) ?_
    rw [countP_turned _ (fun x => decide (ms[x / g.xdim]? ≠ some 0)), cells]
  | ninety =>
    rw [hr, Prod.mk.injEq] at hsz
    simp only [hr] at hpx
    rw [hsz.1, hsz.2] at hpx ⊢
    rw [dots_rows _ _ _ (fun y => decide (ms[y / g.xdim]? ≠ some 0)) (fun x hx y hy => by rw [hpx x y hx hy, look]), cells]
  | twoSeventy =>
    rw [hr, Prod.mk.injEq] at hsz
    simp only [hr] at hpx
    rw [hsz.1, hsz.2] at hpx ⊢
    rw [dots_rows _ _ _ (fun y => decide (ms[(ms.length * g.xdim - 1 - y) / g.xdim]? ≠ some 0))
      (fun x hx y hy => by rw [hpx x y hx hy, look]), countP_turned _ (fun x => decide (ms[x / g.xdim]? ≠ some 0)), cells]

example : ∃ buf, Image.generateBuffer .debug { Image.png 2 with xdim := 3, rotation := .ninety } [1, 0, 1] = .ok buf ∧
    dots buf.w buf.h (fun x y => decide (buf.px x y = Image.Color.black)) = 12 := ⟨_, rfl, by decide +kernel⟩

/-- C130. The rectangles of an SVG document after the first have the area of the dark modules. -/
theorem C130_svg (b : Build) (s : Svg.SVG) (ms : List Nat) (hw : ms.length * s.xdim < 2 ^ 32)
    (hx : ∀ x ∈ s.xmlns, ∀ c ∈ x, xmlPlain c = true) :
    ∃ out doc, Svg.generate b s ms = .ok out ∧ readSvg out = some doc ∧
      areas doc.rects.tail = s.height * (s.xdim * darkModules ms) ∧ doc.rects.tail.length = darkModules ms := by
  obtain ⟨out, fg, bg, h1, -, -, h2⟩ := C37_svg_parses b s ms hw hx
  refine ⟨out, _, h1, h2, ?_⟩
  have hl : ((List.range ms.length).filter (fun i => decide (ms[i]? = some 1))).length = darkModules ms := by
    rw [← List.countP_eq_length_filter, countP_places ms (fun o => decide (o = some 1))]
    unfold darkModules List.count
    apply List.countP_congr
    intro m _
    simp
  simp only [List.tail_cons]
  constructor
  · unfold areas
    rw [List.map_map, sum_const _ ((fun r : SvgRect => r.width * r.height) ∘ _) (s.xdim * s.height) (fun _ _ => rfl), hl, Nat.mul_comm,
      Nat.mul_comm s.xdim, Nat.mul_assoc]
  · rw [List.length_map, hl]

example : (match Svg.generate .debug { Svg.new 8 with xdim := 2 } [1, 0, 1] with
    | .ok o => (readSvg o).map (fun d => areas d.rects.tail)
    | _ => none) = some 32 := by decide +kernel

/-! ## Symbols -/

theorem balanced_append {a c : List Nat} (ha : Balanced a) (hc : Balanced c) : Balanced (a ++ c) := by
  unfold Balanced at *
  rw [dark_append, List.length_append]
  omega

theorem balanced_nil : Balanced [] := by unfold Balanced; decide

theorem balanced_flatMap {α : Type} (f : α → List Nat) (l : List α) (h : ∀ a ∈ l, Balanced (f a)) : Balanced (l.flatMap f) := by
  induction l with
  | nil => exact balanced_nil
  | cons a l ih =>
    rw [List.flatMap_cons]
    exact balanced_append (h a (by simp)) (ih (fun x hx => h x (by simp [hx])))

instance (ms : List Nat) : Decidable (Balanced ms) := by unfold Balanced; infer_instance

theorem dark_between {α : Type} (f : α → List Nat) (lo hi : Nat) (l : List α)
    (h : ∀ a ∈ l, lo ≤ darkModules (f a) ∧ darkModules (f a) ≤ hi) :
    lo * l.length ≤ darkModules (l.flatMap f) ∧ darkModules (l.flatMap f) ≤ hi * l.length := by
  induction l with
  | nil => simp [darkModules]
  | cons a l ih =>
    have h1 := ih (fun x hx => h x (by simp [hx]))
    have h2 := h a (by simp)
    rw [List.flatMap_cons, dark_append, List.length_cons, Nat.mul_add, Nat.mul_add]
    omega

theorem wA_between : ∀ d < 10, (3 ≤ darkModules (paintFrom 0 (wA d)) ∧ darkModules (paintFrom 0 (wA d)) ≤ 5) ∧
    2 ≤ darkModules (paintFrom 1 (wA d)) ∧ darkModules (paintFrom 1 (wA d)) ≤ 4 := by decide
theorem wAB_between : ∀ d < 10, ∀ p : Bool, 3 ≤ darkModules (paintFrom 0 (wAB (p, d))) + (if p then 1 else 0) ∧
    darkModules (paintFrom 0 (wAB (p, d))) ≤ 5 := by decide

theorem wA_half_between (ds : List Nat) (h : Digits ds) :
    (3 * ds.length ≤ darkModules (paintFrom 0 (ds.flatMap wA)) ∧ darkModules (paintFrom 0 (ds.flatMap wA)) ≤ 5 * ds.length) ∧
    2 * ds.length ≤ darkModules (paintFrom 1 (ds.flatMap wA)) ∧ darkModules (paintFrom 1 (ds.flatMap wA)) ≤ 4 * ds.length := by
  have ev : ∀ d ∈ ds, (wA d).length % 2 = 0 := fun d hd => by rw [(wA_spec d (h d hd)).1]
  rw [paintFrom_flatMap 0 (by omega) wA ds ev, paintFrom_flatMap 1 (by omega) wA ds ev]
  exact ⟨dark_between _ 3 5 ds (fun d hd => (wA_between d (h d hd)).1), dark_between _ 2 4 ds (fun d hd => (wA_between d (h d hd)).2)⟩

theorem wAB_half_between (ss : List Bool) (ls : List Nat) (h : Digits ls) (hl : ss.length = ls.length) :
    3 * ls.length ≤ darkModules (paintFrom 0 ((ss.zip ls).flatMap wAB)) + ss.countP id ∧
    darkModules (paintFrom 0 ((ss.zip ls).flatMap wAB)) ≤ 5 * ls.length := by
  have hz := zip_snd_lt ss ls h
  rw [paintFrom_flatMap 0 (by omega) wAB _ (fun p hp => by rw [(wAB_spec p.2 (hz p hp) p.1).1])]
  induction ss generalizing ls with
  | nil => cases ls with
    | nil => simp [darkModules]
    | cons => simp at hl
  | cons s ss ih => cases ls with
    | nil => simp at hl
    | cons l ls =>
      have h1 := ih ls (digits_tail h) (by simpa using hl) (zip_snd_lt ss ls (digits_tail h))
      have h2 := wAB_between l (digits_head h) s
      rw [List.zip_cons_cons, List.flatMap_cons, dark_append, List.countP_cons, List.length_cons]
      cases s <;> simp at h2 ⊢ <;> omega

theorem sets_few : ∀ d < 10, (setsOf d).countP id ≤ 3 := by decide

theorem balanced39 : ∀ c ∈ '*' :: code39Alphabet, Balanced (paintFrom 1 (w39 c ++ [1])) ∧ Balanced (paintFrom 1 (w39 c)) := by decide
theorem balanced93 : ∀ c ∈ '*' :: code93Alphabet, Balanced (paintFrom 1 (w93 c)) := by decide
theorem balanced11 : ∀ c ∈ '*' :: code11Alphabet, Balanced (paintFrom 1 (w11 c ++ [1])) := by decide
theorem balancedU : ∀ c ∈ codabarAlphabet, Balanced (paintFrom 1 (wU (unitOf c) ++ [1])) ∧ Balanced (paintFrom 1 (wU (unitOf c))) := by
  decide
theorem balancedS : ∀ d < 10, Balanced (paintFrom 1 (wStf d)) := by decide
theorem balancedI : ∀ a < 10, ∀ c < 10, Balanced (paintFrom 1 (wItf (a, c))) := by decide
theorem balanced128 : ∀ v < 106, Balanced (paintFrom 1 (w128 v)) := by decide +kernel
theorem balancedAB : ∀ d < 10, ∀ p : Bool, Balanced ([1, 0, 1, 1] ++ paintFrom 0 (wAB (p, d))) ∧
    Balanced ([0, 1] ++ paintFrom 0 (wAB (p, d))) := by decide

/-- C130. Whatever is printed, at least a third of the modules of a symbol are dark and at least a quarter are light. -/
theorem C130_balanced (b : Build) (k : Kind) (s : List Char) (ms : List Nat) (h : Drawn b k s ms) : Balanced ms := by
  have halves : ∀ (n : Nat) (ls rs : List Nat), Digits ls → Digits rs → ls.length = n → rs.length = n → n ≤ 6 →
      Balanced (paint (halvesWidths (ls.flatMap wA) (rs.flatMap wA))) := by
    intro n ls rs hls hrs ll lr hn
    have h1 := (wA_half_between ls hls).1
    have h2 := (wA_half_between rs hrs).2
    unfold Balanced
    rw [(halvesA_row _ ls rs hls hrs rfl).length,
      halves_dark _ _ (by rw [wA_length_of _ hls]; omega) (by rw [wA_length_of _ hrs]; omega)]
    omega
  cases k with
  | ean13 =>
    obtain ⟨x, hx, he⟩ := h
    obtain ⟨d0, ls, rs, h0, hls, hrs, ll, lr, -, e1⟩ := ean13_symbol b s x hx
    rw [e1, Outcome.ok.injEq] at he
    have hz := zip_snd_lt (setsOf d0) ls hls
    have h1 := wAB_half_between (setsOf d0) ls hls (by rw [(parity_spec d0 h0).2.2.2.2.2, ll])
    have h2 := (wA_half_between rs hrs).2
    have h3 := sets_few d0 h0
    unfold Balanced
    rw [← he, (ean13_row d0 ls rs h0 hls hrs ll lr).length, ean13Widths,
      halves_dark _ _ (by rw [wAB_length_of _ hz]; omega) (by rw [wA_length_of _ hrs]; omega)]
    omega
  | ean8 =>
    obtain ⟨x, hx, he⟩ := h
    obtain ⟨ls, rs, hls, hrs, ll, lr, -, e1⟩ := ean8_symbol b s x hx
    rw [e1, Outcome.ok.injEq] at he
    rw [← he]
    exact halves 4 ls rs hls hrs ll lr (by omega)
  | upca =>
    obtain ⟨x, hx, he⟩ := h
    obtain ⟨ls, rs, hls, hrs, ll, lr, -, e1⟩ := upca_symbol b s x hx
    rw [e1, Outcome.ok.injEq] at he
    rw [← he]
    exact halves 6 ls rs hls hrs ll lr (by omega)
  | supp =>
    obtain ⟨x, hx, he⟩ := h
    obtain ⟨ws, h1, h2, h3, -, -, h4⟩ := supp_symbol s x hx
    have hm := h1 b
    rw [he, Outcome.ok.injEq] at hm
    rw [hm]
    match ws, h2, h3 with
    | [], h2, _ =>
      rcases h4 with h4 | h4 <;> simp [h4] at h2
    | p :: ps, _, h3 =>
      rw [paint_supp p ps h3, ← List.append_assoc]
      refine balanced_append (balancedAB p.2 (h3 p (by simp)) p.1).1 (balanced_flatMap _ _ ?_)
      intro q hq
      exact (balancedAB q.2 (h3 q (by simp [hq])) q.1).2
  | code39 =>
    obtain ⟨x, hx, he⟩ := h
    have key : ∀ kk, Code39.init s kk = .ok x → Balanced ms := by
      intro kk hk
      obtain ⟨h1, h2⟩ := code39_symbol s kk x hk
      rw [h2, Outcome.ok.injEq] at he
      have hm := star_cons_mem _ _ h1
      rw [← he, paint39 _ h1]
      exact balanced_append (balanced_flatMap _ _ (fun c hc => (balanced39 c (hm c hc)).1)) ((balanced39 '*' (by simp)).2)
    rcases hx with hx | hx
    · exact key false hx
    · exact key true hx
  | code93 =>
    obtain ⟨x, hx, he⟩ := h
    obtain ⟨h1, h2⟩ := code93_symbol s x hx
    rw [h2, Outcome.ok.injEq] at he
    have hm := star_cons_mem _ _ h1
    rw [← he, paint93 _ h1, ← List.cons_append, List.flatMap_append, List.append_assoc]
    exact balanced_append (balanced_flatMap _ _ (fun c hc => balanced93 c (hm c hc))) (by decide)
  | code11 =>
    obtain ⟨x, hx, he⟩ := h
    obtain ⟨h1, h2⟩ := code11_symbol s x hx
    rw [h2, Outcome.ok.injEq] at he
    have hm := star_cons_mem _ _ h1
    have hl : ∀ c ∈ '*' :: code11Text s, (w11 c ++ [1]).length % 2 = 0 := fun c hc => by
      rw [List.length_append, (w11_spec c (hm c hc)).1]; rfl
    have hl' : (('*' :: code11Text s).flatMap (fun c => w11 c ++ [1])).length % 2 = 0 := by
      rw [flatMap_length 6 _ _ (fun c hc => by rw [List.length_append, (w11_spec c (hm c hc)).1]; rfl)]; omega
    rw [← he, code11SymWidths, paint, paintFrom_append_even 1 (by omega) _ _ hl', paintFrom_flatMap 1 (by omega) _ _ hl]
    exact balanced_append (balanced_flatMap _ _ (fun c hc => balanced11 c (hm c hc))) (by decide)
  | codabar =>
    obtain ⟨x, hx, he⟩ := h
    obtain ⟨cs, c, rfl, hA, h2⟩ := codabar_symbol s x hx
    rw [h2] at he
    have hl : ∀ u ∈ cs.map unitOf, (wU u ++ [1]).length % 2 = 0 := fun u _ => by
      rw [List.length_append, (wU_spec u).2.1]; rfl
    have hl' : ((cs.map unitOf).flatMap (fun u => wU u ++ [1])).length % 2 = 0 := by
      rw [flatMap_length 8 _ _ (fun u _ => by rw [List.length_append, (wU_spec u).2.1]; rfl)]; omega
    rw [← he, codabarSymWidths, paint, paintFrom_append_even 1 (by omega) _ _ hl', paintFrom_flatMap 1 (by omega) _ _ hl]
    refine balanced_append (balanced_flatMap _ _ ?_) (balancedU c (hA c (by simp))).2
    intro u hu
    obtain ⟨d, hd, rfl⟩ := List.mem_map.mp hu
    exact (balancedU d (hA d (by simp [hd]))).1
  | stf =>
    obtain ⟨x, hx, he⟩ := h
    obtain ⟨h1, h2⟩ := stf_symbol s x hx
    rw [h2, Outcome.ok.injEq] at he
    have hD := digits_lt s h1
    rw [← he, stfWidths, paint, paintFrom_append_even 1 (by omega) _ _ (by decide),
      paintFrom_append_even 1 (by omega) _ _ (by rw [flatMap_length_eq 10 _ _ (fun d h => (wStf_spec d (hD d h)).1)]; omega),
      paintFrom_flatMap 1 (by omega) _ _ (fun d h => by rw [(wStf_spec d (hD d h)).1])]
    exact balanced_append (by decide) (balanced_append (balanced_flatMap _ _ (fun d hd => balancedS d (hD d hd))) (by decide))
  | itf =>
    obtain ⟨x, hx, he⟩ := h
    obtain ⟨ds, hD, hev, hlen, -, -, h2⟩ := itf_symbol b s x hx
    rw [h2, Outcome.ok.injEq] at he
    have hp := pairs_lt ds hD
    rw [← he, itfWidths, paint, paintFrom_append_even 1 (by omega) _ _ (by decide),
      paintFrom_append_even 1 (by omega) _ _
        (by rw [flatMap_length_eq 10 _ _ (fun p h => (wItf_spec p.1 (hp p h).1 p.2 (hp p h).2).1)]; omega),
      paintFrom_flatMap 1 (by omega) _ _ (fun p h => by
        have := (wItf_spec p.1 (hp p h).1 p.2 (hp p h).2).1
        rw [show wItf p = wItf (p.1, p.2) from rfl, this])]
    exact balanced_append (by decide) (balanced_append (balanced_flatMap _ _ (fun p h => balancedI p.1 (hp p h).1 p.2 (hp p h).2))
      (by decide))
  | code128 =>
    obtain ⟨x, hx, he⟩ := h
    obtain ⟨set, data, c, -, -, h3, h4⟩ := code128_symbol b s x ms hx he
    rw [h4, code128Widths, paint, paintFrom_append_even 1 (by omega) _ _ (by rw [w128_length _ h3]; omega),
      paintFrom_flatMap 1 (by omega) _ _ (fun v hv => by rw [(w128_spec v (h3 v hv)).1])]
    exact balanced_append (balanced_flatMap _ _ (fun v hv => balanced128 v (h3 v hv))) (by decide)

/-- Less than four tenths, and more than six tenths. -/
example : ∃ ms ms', Drawn .debug .code93 "00000000000000000000".toList ms ∧ Drawn .debug .code128 "ƁPPPPPPPPPPPPPPP".toList ms' ∧
    10 * darkModules ms < 4 * ms.length ∧ 10 * darkModules ms' > 6 * ms'.length :=
  ⟨_, _, ⟨_, rfl, rfl⟩, ⟨_, rfl, rfl⟩, by decide +kernel, by decide +kernel⟩

end Barcoders
