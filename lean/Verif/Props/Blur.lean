import Verif.Spec.Blur
import Verif.Props.Noise

/-!
# C109: pictures out of focus

Whatever the blur, a place where more than half of the light comes from one module shows whether that is a bar.
-/

set_option autoImplicit false

namespace Barcoders
open Spec

/-- The mean of colours that are all `bar` or `space` is nearer to `bar` exactly if more than half of them are. -/
theorem meanNearer_iff {α : Type} (col : α → Nat × Nat × Nat × Nat) (bar space : Nat × Nat × Nat × Nat) (hne : bar ≠ space)
    (dark : α → Bool) (l : List α) (hc : ∀ a ∈ l, col a = if dark a then bar else space) :
    meanNearer bar space (l.map col) = decide (l.length < 2 * l.countP dark) := by
  have hsum : ∀ l : List α, (∀ a ∈ l, col a = if dark a then bar else space) →
      sumColours (l.map col) = (l.countP dark * bar.1 + (l.length - l.countP dark) * space.1,
        l.countP dark * bar.2.1 + (l.length - l.countP dark) * space.2.1,
        l.countP dark * bar.2.2.1 + (l.length - l.countP dark) * space.2.2.1,
        l.countP dark * bar.2.2.2 + (l.length - l.countP dark) * space.2.2.2) := by
    intro l
    induction l with
    | nil => intro _; simp [sumColours]
    | cons a l ih =>
      intro hc
      have ih := ih (fun a h => hc a (List.mem_cons_of_mem _ h))
      have ha := hc a List.mem_cons_self
      have hle : l.countP dark ≤ l.length := List.countP_le_length
      rw [List.map_cons, sumColours, ih]
      cases hd : dark a
      · rw [hd] at ha
        simp only [Bool.false_eq_true, if_false] at ha
        rw [ha, List.countP_cons_of_neg (by simp [hd]), List.length_cons, Nat.succ_sub hle]
        simp only [Nat.succ_mul, Prod.mk.injEq]
        omega
      · rw [hd] at ha
        simp only [if_true] at ha
        rw [ha, List.countP_cons_of_pos (by simp [hd]), List.length_cons, Nat.add_sub_add_right]
        simp only [Nat.succ_mul, Prod.mk.injEq]
        omega
  have hle : l.countP dark ≤ l.length := List.countP_le_length
  unfold meanNearer nearerTo
  rw [hsum l hc, List.length_map]
  generalize l.countP dark = k at *
  obtain ⟨m, hm⟩ : ∃ m, l.length = k + m := ⟨l.length - k, by omega⟩
  rw [hm, Nat.add_sub_cancel_left]
  have hch : ∀ u v : Nat, (k * u + m * v - (k + m) * u) + ((k + m) * u - (k * u + m * v)) = m * ((u - v) + (v - u)) ∧
      (k * u + m * v - (k + m) * v) + ((k + m) * v - (k * u + m * v)) = k * ((u - v) + (v - u)) := by
    intro u v
    rw [Nat.add_mul, Nat.add_mul]
    rcases Nat.le_total u v with h | h
    · obtain ⟨d, rfl⟩ := Nat.exists_eq_add_of_le h
      simp only [Nat.mul_add]
      rw [show u - (u + d) = 0 by omega, show u + d - u = d by omega]
      omega
    · obtain ⟨d, rfl⟩ := Nat.exists_eq_add_of_le h
      simp only [Nat.mul_add]
      rw [show v - (v + d) = 0 by omega, show v + d - v = d by omega]
      omega
  have e1 : colourDistance (k * bar.1 + m * space.1, k * bar.2.1 + m * space.2.1, k * bar.2.2.1 + m * space.2.2.1,
      k * bar.2.2.2 + m * space.2.2.2) ((k + m) * bar.1, (k + m) * bar.2.1, (k + m) * bar.2.2.1, (k + m) * bar.2.2.2) =
      m * colourDistance bar space := by
    simp only [colourDistance, hch, Nat.mul_add]
  have e2 : colourDistance (k * bar.1 + m * space.1, k * bar.2.1 + m * space.2.1, k * bar.2.2.1 + m * space.2.2.1,
      k * bar.2.2.2 + m * space.2.2.2) ((k + m) * space.1, (k + m) * space.2.1, (k + m) * space.2.2.1, (k + m) * space.2.2.2) =
      k * colourDistance bar space := by
    simp only [colourDistance, hch, Nat.mul_add]
  have hpos : 0 < colourDistance bar space := by
    apply Nat.pos_of_ne_zero
    intro h
    apply hne
    obtain ⟨b1, b2, b3, b4⟩ := bar
    obtain ⟨s1, s2, s3, s4⟩ := space
    simp only [colourDistance] at h
    simp only [Prod.mk.injEq]
    omega
  show decide (_ < _) = _
  rw [e1, e2, decide_eq_decide, Nat.mul_lt_mul_right hpos]
  omega

theorem stretch_at_module (x : Nat) (ms : List Nat) (i u : Nat) (hi : i < ms.length) (h1 : i * x ≤ u) (h2 : u < (i + 1) * x) :
    (stretch x ms)[u]? = some ms[i] := by
  have h := drop_take_stretch x ms i hi
  have e : (((stretch x ms).drop (i * x)).take x)[u - i * x]? = some ms[i] := by
    rw [h, List.getElem?_replicate, if_pos (by rw [Nat.succ_mul] at h2; omega)]
  rw [List.getElem?_take_of_lt (by rw [Nat.succ_mul] at h2; omega), List.getElem?_drop, Nat.add_sub_cancel' h1] at e
  exact e

/-- C109. Take the mean of the colours of any samples of a generated image, on paper of the background's colour; a place may
occur several times. If more than half of the samples lie in one module, the mean is nearer to the foreground than to the
background exactly if that module is a bar. -/
theorem C109_blur (ms : List Nat) (hbin : ∀ m ∈ ms, m = 0 ∨ m = 1) (b : Build) (g : Image.Image) (hx : 0 < g.xdim)
    (hne : g.foreground ≠ g.background) (hsz : ms.length * g.xdim < 2 ^ 32)
    (hs : 4 * (ms.length * g.xdim) * g.height < 2 ^ 63) :
    ∃ buf, Image.generateBuffer b g ms = .ok buf ∧ lineCount buf.w buf.h (headingOf g.rotation) = g.height ∧
      ∀ (samples : List (Int × Int)) (i : Nat) (hi : i < ms.length),
        samples.length < 2 * samples.countP (inModule g.height g.xdim i) →
        meanNearer (colourBytes g.foreground) (colourBytes g.background) (samples.map (fun s => colourBytes
          (sheetAt g.background ((List.range g.height).map (fun j => pictureLine buf.w buf.h buf.px j (headingOf g.rotation)))
            s.1 s.2))) = decide (ms[i] = 1) := by
  obtain ⟨buf, h1, h2, h3, h4⟩ := image_colour_lines b g ms hbin hx hne hsz hs
  refine ⟨buf, h1, h2, fun samples i hi hm => ?_⟩
  generalize hL : (List.range g.height).map (fun j => pictureLine buf.w buf.h buf.px j (headingOf g.rotation)) = L
  have hcol : ∀ s : Int × Int, sheetAt g.background L s.1 s.2 = g.foreground ∨ sheetAt g.background L s.1 s.2 = g.background := by
    intro s
    unfold sheetAt
    split
    · cases hl : L[s.1.toNat]? with
      | none => right; simp
      | some l =>
        simp only [Option.getD_some]
        have hm := List.mem_of_getElem? hl
        rw [← hL] at hm
        obtain ⟨j, hj, rfl⟩ := List.mem_map.mp hm
        rw [List.mem_range, ← h2] at hj
        rw [List.getD_eq_getElem?_getD]
        cases hc : (pictureLine buf.w buf.h buf.px j (headingOf g.rotation))[s.2.toNat]? with
        | none => right; rfl
        | some c =>
          obtain ⟨x, y, hxw, hy, rfl⟩ := pictureLine_mem _ _ _ _ j hj c (List.mem_of_getElem? hc)
          exact h4 x y hxw hy
    · exact Or.inr rfl
  have hin : ∀ s : Int × Int, inModule g.height g.xdim i s = true →
      decide (sheetAt g.background L s.1 s.2 ≠ g.background) = decide (ms[i] = 1) := by
    intro s hin
    simp only [inModule, decide_eq_true_eq] at hin
    obtain ⟨a1, a2, a3, a4⟩ := hin
    have hj : s.1.toNat < g.height := by omega
    have hl : L[s.1.toNat]? = some (pictureLine buf.w buf.h buf.px s.1.toNat (headingOf g.rotation)) := by
      rw [← hL, List.getElem?_map, List.getElem?_range hj]; rfl
    have hst := stretch_at_module g.xdim ms i s.2.toNat hi (by omega) (by omega)
    rw [← h3 _ hj, List.getElem?_map] at hst
    unfold sheetAt
    rw [if_pos ⟨a1, by omega⟩, hl, Option.getD_some, List.getD_eq_getElem?_getD]
    cases hc : (pictureLine buf.w buf.h buf.px s.1.toNat (headingOf g.rotation))[s.2.toNat]? with
    | none => rw [hc] at hst; cases hst
    | some c =>
      rw [hc, Option.map_some, Option.some.injEq] at hst
      rw [Option.getD_some, ← hst]
      by_cases hcb : c = g.background <;> simp [hcb]
  rw [meanNearer_iff _ _ _ (fun h => hne (colourBytes_inj _ _ h))
    (fun s => decide (sheetAt g.background L s.1 s.2 ≠ g.background)), decide_eq_decide]
  · rcases hbin _ (List.getElem_mem hi) with h0 | h0
    · refine iff_of_false ?_ (by omega)
      have : samples.countP (fun s => decide (sheetAt g.background L s.1 s.2 ≠ g.background)) ≤
          samples.countP (fun s => ! inModule g.height g.xdim i s) := by
        apply List.countP_mono_left
        intro s _ hd
        cases hm : inModule g.height g.xdim i s
        · rfl
        · rw [hin s hm, h0] at hd
          cases hd
      have hsum := List.length_eq_countP_add_countP (inModule g.height g.xdim i) (l := samples)
      have he : samples.countP (fun s => decide ¬ inModule g.height g.xdim i s = true) =
          samples.countP (fun s => ! inModule g.height g.xdim i s) := by
        congr 1; funext s; cases inModule g.height g.xdim i s <;> rfl
      omega
    · refine iff_of_true ?_ h0
      have : samples.countP (inModule g.height g.xdim i) ≤
          samples.countP (fun s => decide (sheetAt g.background L s.1 s.2 ≠ g.background)) := by
        apply List.countP_mono_left
        intro s _ hm
        rw [hin s hm, h0]
        rfl
      omega
  · intro s _
    rcases hcol s with h | h
    · rw [h]; simp [hne]
    · rw [h]; simp

theorem countP_range_between (w a n : Nat) (h : a + n ≤ w) (p : Nat → Bool) (hp : ∀ l, a ≤ l → l < a + n → p l = true) :
    n ≤ (List.range w).countP p := by
  obtain ⟨r, rfl⟩ := Nat.exists_eq_add_of_le h
  rw [List.range_add, List.countP_append, List.range_add, List.countP_append]
  have : ((List.range n).map (a + ·)).countP p = n := by
    rw [List.countP_map]
    have h := List.countP_eq_length (p := p ∘ (a + ·)) (l := List.range n)
    rw [List.length_range] at h
    exact h.mpr (fun l hl => hp (a + l) (by omega) (by have := List.mem_range.mp hl; omega))
  omega

theorem window_countP (height x i : Nat) (j : Int) (h : Nat) (u : Int) (w : Nat) (hj : 0 ≤ j) (hh : j + h ≤ height)
    (h1 : u ≤ (i * x : Nat)) (h2 : ((i + 1) * x : Nat) ≤ u + w) :
    h * x ≤ (window j h u w).countP (inModule height x i) := by
  unfold window
  rw [Nat.succ_mul] at h2
  have hrow : ∀ k, k < h → x ≤ ((List.range w).map (fun l : Nat => ((j + k, u + l) : Int × Int))).countP (inModule height x i) := by
    intro k hk
    rw [List.countP_map]
    apply countP_range_between w ((i * x : Nat) - u).toNat x (by omega)
    intro l hl1 hl2
    simp only [Function.comp_apply, inModule, decide_eq_true_eq, Nat.succ_mul]
    omega
  have : ∀ n, n ≤ h → n * x ≤ ((List.range n).flatMap (fun k : Nat =>
      (List.range w).map (fun l : Nat => ((j + k, u + l) : Int × Int)))).countP (inModule height x i) := by
    intro n
    induction n with
    | zero => intro _; simp
    | succ n ih =>
      intro hn
      rw [List.range_succ, List.flatMap_append, List.countP_append, Nat.succ_mul]
      have := hrow n (by omega)
      simp only [List.flatMap_cons, List.flatMap_nil, List.append_nil]
      have := ih (by omega)
      omega
  exact this h (Nat.le_refl _)

theorem window_length (j : Int) (h : Nat) (u : Int) (w : Nat) : (window j h u w).length = h * w := by
  unfold window
  induction h with
  | zero => simp
  | succ n ih => rw [List.range_succ, List.flatMap_append, List.length_append, ih]; simp [Nat.succ_mul]

/-- C109. So a picture may be smeared over windows of up to one pixel less than two modules: the means over windows around the
modules, each compared with the two colours, give the symbol. -/
theorem C109_focus (ms : List Nat) (hbin : ∀ m ∈ ms, m = 0 ∨ m = 1) (b : Build) (g : Image.Image) (hx : 0 < g.xdim)
    (hne : g.foreground ≠ g.background) (hsz : ms.length * g.xdim < 2 ^ 32)
    (hs : 4 * (ms.length * g.xdim) * g.height < 2 ^ 63) :
    ∃ buf, Image.generateBuffer b g ms = .ok buf ∧ lineCount buf.w buf.h (headingOf g.rotation) = g.height ∧
      ∀ j h k w, 0 < h → j + h ≤ g.height → k + g.xdim ≤ w → w < 2 * g.xdim →
        (List.range ms.length).map (fun i => if meanNearer (colourBytes g.foreground) (colourBytes g.background)
          ((window j h ((i * g.xdim : Nat) - (k : Int)) w).map (fun s => colourBytes (sheetAt g.background
            ((List.range g.height).map (fun j => pictureLine buf.w buf.h buf.px j (headingOf g.rotation))) s.1 s.2)))
          then 1 else 0) = ms := by
  obtain ⟨buf, h1, h2, h3⟩ := C109_blur ms hbin b g hx hne hsz hs
  refine ⟨buf, h1, h2, fun j h k w hh hj hk hw => ?_⟩
  apply List.ext_getElem
  · simp
  intro i hi1 hi2
  rw [List.getElem_map, List.getElem_range, h3 _ i hi2]
  · rcases hbin _ (List.getElem_mem hi2) with h | h <;> simp [h]
  · have c := window_countP g.height g.xdim i j h ((i * g.xdim : Nat) - (k : Int)) w (by omega) (by omega) (by omega)
      (by rw [Nat.succ_mul]; omega)
    rw [window_length]
    have : h * w < h * (2 * g.xdim) := Nat.mul_lt_mul_of_pos_left hw hh
    have e : h * (2 * g.xdim) = 2 * (h * g.xdim) := by ac_rfl
    omega

/-- Two pixels per module, smeared over three; the space between the bars is seen, though a third of the light there is dark. -/
example : ∃ buf, Image.generateBuffer .debug { Image.png 2 with xdim := 2 } [1, 0, 1] = .ok buf ∧
    (List.range 3).map (fun i => if meanNearer (colourBytes (grey 0)) (colourBytes (grey 255))
      ((window 0 2 ((i * 2 : Nat) - (1 : Int)) 3).map (fun s => colourBytes (sheetAt (grey 255)
        ((List.range 2).map (fun j => pictureLine buf.w buf.h buf.px j .right)) s.1 s.2))) then 1 else 0) = [1, 0, 1] ∧
    (window 0 2 ((1 * 2 : Nat) - (1 : Int)) 3).map (fun s => (sheetAt (grey 255)
        ((List.range 2).map (fun j => pictureLine buf.w buf.h buf.px j .right)) s.1 s.2).r.val) = [0, 255, 255, 0, 255, 255] :=
  ⟨_, rfl, by decide +kernel, by decide +kernel⟩

/-- Smeared over four pixels, the bars between spaces are lost. -/
example : ∃ buf, Image.generateBuffer .debug { Image.png 2 with xdim := 2 } [1, 0, 1] = .ok buf ∧
    (List.range 3).map (fun i => if meanNearer (colourBytes (grey 0)) (colourBytes (grey 255))
      ((window 0 2 ((i * 2 : Nat) - (1 : Int)) 4).map (fun s => colourBytes (sheetAt (grey 255)
        ((List.range 2).map (fun j => pictureLine buf.w buf.h buf.px j .right)) s.1 s.2))) then 1 else 0) = [0, 0, 0] :=
  ⟨_, rfl, by decide +kernel⟩

end Barcoders
