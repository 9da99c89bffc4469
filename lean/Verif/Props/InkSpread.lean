import Verif.Spec.InkSpread
import Verif.Props.HandScan

/-!
# C82: ink spread
-/

set_option autoImplicit false

namespace Barcoders
open Spec

/-! ## Printed widths -/

/-- Element widths when a bar of one module is printed `p` cells wide, a space of one module `q` cells, and every further module
takes `x` cells. -/
def printed (x p q : Nat) (us : List Nat) : List Nat :=
  (colours 1 us).map (fun r => x * (r.2 - 1) + if r.1 = 1 then p else q)

theorem printed_cons2 (x p q b s : Nat) (us : List Nat) :
    printed x p q (b :: s :: us) = (x * (b - 1) + p) :: (x * (s - 1) + q) :: printed x p q us := by
  simp [printed, colours]

theorem printed_one (x p q b : Nat) : printed x p q [b] = [x * (b - 1) + p] := by simp [printed, colours]

theorem colours_printed (x p q : Nat) (us : List Nat) :
    ∀ c < 2, colours c ((colours c us).map (fun r => x * (r.2 - 1) + if r.1 = 1 then p else q)) =
      (colours c us).map (fun r => (r.1, x * (r.2 - 1) + if r.1 = 1 then p else q)) := by
  induction us with
  | nil => intro c _; rfl
  | cons u us ih =>
    intro c hc
    simp only [colours, List.map_cons]
    rw [ih (1 - c) (by omega)]

theorem colours_fst (c : Nat) (hc : c < 2) (us : List Nat) : ∀ r ∈ colours c us, r.1 = 0 ∨ r.1 = 1 := by
  induction us generalizing c with
  | nil => simp [colours]
  | cons u us ih =>
    intro r hr
    rcases List.mem_cons.mp hr with rfl | hr
    · show c = 0 ∨ c = 1
      omega
    · exact ih (1 - c) (by omega) r hr

theorem colours_pos (c : Nat) (us : List Nat) (h : ∀ w ∈ us, 0 < w) : ∀ r ∈ colours c us, 0 < r.2 := by
  intro r hr
  have := List.mem_map_of_mem (f := Prod.snd) hr
  rw [colours_snd] at this
  exact h _ this

theorem printed_pos (x p q : Nat) (hp : 0 < p) (hq : 0 < q) (us : List Nat) : ∀ w ∈ printed x p q us, 0 < w := by
  intro w hw
  obtain ⟨r, -, rfl⟩ := List.mem_map.mp hw
  split <;> omega

theorem printed_length (x p q : Nat) (us : List Nat) : (printed x p q us).length = us.length := by
  have : (colours 1 us).length = us.length := by
    conv => rhs; rw [← colours_snd 1 us]
    rw [List.length_map]
  rw [printed, List.length_map, this]

theorem colours_reverse (us : List Nat) (ho : us.length % 2 = 1) : colours 1 us.reverse = (colours 1 us).reverse := by
  have key : ∀ (us : List Nat) (c : Nat), c < 2 →
      (colours c us).reverse = colours (Spec.flip c (us.length + 1)) us.reverse := by
    intro us
    induction us with
    | nil => intro c _; rfl
    | cons u us ih =>
      intro c hc
      rw [colours, List.reverse_cons, ih (1 - c) (by omega), List.reverse_cons, colours_append _ (by unfold Spec.flip; split <;> omega)]
      have e1 : Spec.flip (1 - c) (us.length + 1) = Spec.flip c ((u :: us).length + 1) := by
        simp only [Spec.flip, List.length_cons]
        split <;> split <;> omega
      have e2 : Spec.flip (Spec.flip c ((u :: us).length + 1)) us.reverse.length = c := by
        simp only [Spec.flip, List.length_cons, List.length_reverse]
        split <;> split <;> omega
      rw [e1, e2]
      rfl
  rw [key us 1 (by omega), Spec.flip, if_pos (by omega)]

theorem printed_reverse (x p q : Nat) (us : List Nat) (ho : us.length % 2 = 1) :
    (printed x p q us).reverse = printed x p q us.reverse := by
  rw [printed, printed, colours_reverse us ho, List.map_reverse]

/-! ## The narrowest element -/

theorem narrowest_le (ws : List Nat) (w : Nat) (h : w ∈ ws) : narrowest ws ≤ w := by
  induction ws with
  | nil => cases h
  | cons v vs ih =>
    cases vs with
    | nil => simp at h; simp [narrowest, h]
    | cons u us =>
      rw [narrowest]
      rcases List.mem_cons.mp h with rfl | h
      · exact Nat.min_le_left _ _
      · exact Nat.le_trans (Nat.min_le_right _ _) (ih h)
      · simp

theorem le_narrowest (ws : List Nat) (n : Nat) (hne : ws ≠ []) (h : ∀ w ∈ ws, n ≤ w) : n ≤ narrowest ws := by
  induction ws with
  | nil => exact absurd rfl hne
  | cons v vs ih =>
    cases vs with
    | nil => exact h v (by simp)
    | cons u us =>
      rw [narrowest]
      · exact Nat.le_min.mpr ⟨h v (by simp), ih (by simp) (fun w hw => h w (by simp [hw]))⟩
      · simp

theorem narrowest_eq (ws : List Nat) (n : Nat) (hm : n ∈ ws) (h : ∀ w ∈ ws, n ≤ w) : narrowest ws = n :=
  Nat.le_antisymm (narrowest_le ws n hm) (le_narrowest ws n (List.ne_nil_of_mem hm) h)

/-- The spread can be undone. -/
theorem unspread_printed (x p q : Nat) (hp : 0 < p) (hq : 0 < q) (hx : p + q = 2 * x) (us : List Nat) (hpos : ∀ w ∈ us, 0 < w)
    (h1 : (1, 1) ∈ colours 1 us) (h0 : (0, 1) ∈ colours 1 us) : unspread (paint (printed x p q us)) = some (paint us) := by
  have hr : runs (paint (printed x p q us)) =
      (colours 1 us).map (fun r => (r.1, x * (r.2 - 1) + if r.1 = 1 then p else q)) := by
    rw [paint, runs_paintFrom 1 (by omega) _ (printed_pos x p q hp hq us), printed, colours_printed x p q us 1 (by omega)]
  have hb : narrowest (((runs (paint (printed x p q us))).filter (fun r => r.1 == 1)).map Prod.snd) = p := by
    rw [hr]
    apply narrowest_eq
    · exact List.mem_map.mpr ⟨(1, p), List.mem_filter.mpr ⟨List.mem_map.mpr ⟨(1, 1), h1, by simp⟩, rfl⟩, rfl⟩
    · intro w hw
      obtain ⟨r, hr, rfl⟩ := List.mem_map.mp hw
      obtain ⟨hr, h⟩ := List.mem_filter.mp hr
      obtain ⟨r', -, rfl⟩ := List.mem_map.mp hr
      have : r'.1 = 1 := by simpa using h
      simp [this]
  have hs : narrowest (((runs (paint (printed x p q us))).filter (fun r => r.1 == 0)).map Prod.snd) = q := by
    rw [hr]
    apply narrowest_eq
    · exact List.mem_map.mpr ⟨(0, q), List.mem_filter.mpr ⟨List.mem_map.mpr ⟨(0, 1), h0, by simp⟩, rfl⟩, rfl⟩
    · intro w hw
      obtain ⟨r, hr, rfl⟩ := List.mem_map.mp hw
      obtain ⟨hr, h⟩ := List.mem_filter.mp hr
      obtain ⟨r', -, rfl⟩ := List.mem_map.mp hr
      have : r'.1 = 0 := by simpa using h
      simp [this]
  have hxx : (p + q) / 2 = x := by omega
  have hx0 : 0 < x := by omega
  have hback : ∀ (us : List Nat) (c : Nat), c < 2 → (∀ w ∈ us, 0 < w) →
      ((colours c us).map (fun r => (r.1, x * (r.2 - 1) + if r.1 = 1 then p else q))).flatMap
        (fun r => List.replicate ((if r.1 = 1 then r.2 - p else r.2 - q) / x + 1) r.1) = paintFrom c us := by
    intro us
    induction us with
    | nil => intro c _ _; rfl
    | cons u us ih =>
      intro c hc hp
      have hu := hp u (by simp)
      simp only [colours, List.map_cons, List.flatMap_cons, paintFrom]
      rw [ih (1 - c) (by omega) (fun w hw => hp w (by simp [hw]))]
      congr 1
      have : (if c = 1 then (x * (u - 1) + if c = 1 then p else q) - p else (x * (u - 1) + if c = 1 then p else q) - q) =
          x * (u - 1) := by
        split <;> simp_all
      rw [this, Nat.mul_div_cancel_left _ hx0]
      congr 1
      omega
  simp only [unspread]
  rw [hb, hs, hxx, if_pos]
  · rw [hr, hback us 1 (by omega) hpos]
    rfl
  · refine ⟨hx0, by omega, ?_⟩
    rw [hr, List.all_eq_true]
    intro r hr
    obtain ⟨r', -, rfl⟩ := List.mem_map.mp hr
    simp only [beq_iff_eq]
    split <;> simp_all

/-! ## Ink -/

theorem smear_ones (g k n : Nat) (hn : 0 < n) (r : List Nat) :
    smearFrom g k (List.replicate n 1 ++ r) = List.replicate n 1 ++ smearFrom g g r := by
  obtain ⟨n, rfl⟩ : ∃ m, n = m + 1 := ⟨n - 1, by omega⟩
  clear hn
  induction n generalizing k with
  | zero => simp [smearFrom]
  | succ n ih => rw [List.replicate_succ, List.cons_append, smearFrom, ih, ← List.cons_append, ← List.replicate_succ]

theorem smear_zeros (g k n : Nat) (hk : k ≤ n) (r : List Nat) :
    smearFrom g k (List.replicate n 0 ++ r) = List.replicate k 1 ++ List.replicate (n - k) 0 ++ smearFrom g 0 r := by
  induction n generalizing k with
  | zero =>
    obtain rfl : k = 0 := by omega
    simp
  | succ n ih =>
    rw [List.replicate_succ, List.cons_append]
    cases k with
    | zero =>
      rw [smearFrom, ih 0 (by omega)]
      · simp [List.replicate_succ]
      · simp
    | succ k =>
      rw [smearFrom, ih k (by omega), List.replicate_succ]
      · simp
      · simp

theorem smear_end (g k n : Nat) : smearFrom g k (List.replicate n 0) = List.replicate k 1 ++ List.replicate (n - k) 0 := by
  induction n generalizing k with
  | zero => simp [smearFrom]
  | succ n ih =>
    rw [List.replicate_succ]
    cases k with
    | zero =>
      rw [smearFrom, ih 0]
      · simp [List.replicate_succ]
      · simp
    | succ k =>
      rw [smearFrom, ih k, List.replicate_succ]
      · simp
      · simp

theorem smear_row (x g : Nat) (hg : g < x) (r : Nat) : ∀ (n : Nat) (us : List Nat), us.length = 2 * n + 1 → (∀ w ∈ us, 0 < w) →
    smearFrom g 0 (paintFrom 1 (us.map (· * x)) ++ List.replicate r 0) =
      paint (printed x (x + g) (x - g) us) ++ List.replicate (r - g) 0 := by
  intro n
  induction n with
  | zero =>
    intro us hl hp
    match us, hl with
    | [b], _ =>
      have hb := hp b (by simp)
      have hbx : 0 < b * x := Nat.mul_pos hb (by omega)
      simp only [List.map_cons, List.map_nil, paintFrom, List.append_nil]
      rw [smear_ones g 0 _ hbx, smear_end, printed_one, paint, paintFrom, paintFrom, List.append_nil, ← List.append_assoc,
        List.replicate_append_replicate]
      congr 2
      obtain ⟨c, rfl⟩ : ∃ c, b = c + 1 := ⟨b - 1, by omega⟩
      rw [Nat.add_mul, Nat.mul_comm c]
      simp
      omega
  | succ n ih =>
    intro us hl hp
    match us, hl with
    | b :: s :: us, hl =>
      have hb := hp b (by simp)
      have hs := hp s (by simp)
      have hbx : 0 < b * x := Nat.mul_pos hb (by omega)
      obtain ⟨c, rfl⟩ : ∃ c, b = c + 1 := ⟨b - 1, by omega⟩
      obtain ⟨d, rfl⟩ : ∃ d, s = d + 1 := ⟨s - 1, by omega⟩
      have hsx : g ≤ (d + 1) * x := Nat.le_trans (Nat.le_of_lt hg) (Nat.le_mul_of_pos_left x (by omega))
      simp only [List.map_cons, paintFrom, List.append_assoc]
      rw [smear_ones g 0 _ hbx, smear_zeros g g _ hsx]
      simp only [Nat.sub_self, Nat.sub_zero]
      rw [ih us (by simp at hl; omega) (fun w hw => hp w (by simp [hw])), printed_cons2, paint, paint, paintFrom, paintFrom]
      have e1 : x * (c + 1 - 1) + (x + g) = (c + 1) * x + g := by
        rw [Nat.add_mul, Nat.mul_comm c]; simp; omega
      have e2 : (d + 1) * x - g = x * (d + 1 - 1) + (x - g) := by
        rw [Nat.add_mul, Nat.mul_comm d]; simp; omega
      rw [e1, e2, ← List.replicate_append_replicate (n := (c + 1) * x)]
      simp only [List.append_assoc, Nat.sub_self, Nat.sub_zero]

theorem fade_ones (g k n : Nat) (hk : k ≤ n) (r : List Nat) :
    fadeFrom g k (List.replicate n 1 ++ r) = List.replicate k 0 ++ List.replicate (n - k) 1 ++ fadeFrom g 0 r := by
  induction n generalizing k with
  | zero =>
    obtain rfl : k = 0 := by omega
    simp
  | succ n ih =>
    rw [List.replicate_succ, List.cons_append]
    cases k with
    | zero => rw [fadeFrom, ih 0 (by omega)]; simp [List.replicate_succ]
    | succ k => rw [fadeFrom, ih k (by omega), List.replicate_succ]; simp

theorem fade_zeros (g k n : Nat) (hn : 0 < n ∨ k = g) (r : List Nat) :
    fadeFrom g k (List.replicate n 0 ++ r) = List.replicate n 0 ++ fadeFrom g g r := by
  induction n generalizing k with
  | zero =>
    obtain rfl : k = g := by omega
    simp
  | succ n ih =>
    rw [List.replicate_succ, List.cons_append, fadeFrom, ih g (Or.inr rfl)]
    · simp
    · simp
    · simp

theorem fade_row (x g : Nat) (hg : g < x) (r : Nat) : ∀ (n : Nat) (us : List Nat), us.length = 2 * n + 1 → (∀ w ∈ us, 0 < w) →
    fadeFrom g g (paintFrom 1 (us.map (· * x)) ++ List.replicate r 0) =
      List.replicate g 0 ++ paint (printed x (x - g) (x + g) us) ++ List.replicate r 0 := by
  have hend : ∀ k r, fadeFrom g k (List.replicate r 0) = List.replicate r 0 := by
    intro k r
    cases r with
    | zero => simp [fadeFrom]
    | succ r =>
      have := fade_zeros g k (r + 1) (Or.inl (by omega)) []
      simpa [fadeFrom] using this
  intro n
  induction n with
  | zero =>
    intro us hl hp
    match us, hl with
    | [b], _ =>
      have hb := hp b (by simp)
      obtain ⟨c, rfl⟩ : ∃ c, b = c + 1 := ⟨b - 1, by omega⟩
      have hbx : g ≤ (c + 1) * x := Nat.le_trans (Nat.le_of_lt hg) (Nat.le_mul_of_pos_left x (by omega))
      simp only [List.map_cons, List.map_nil, paintFrom, List.append_nil]
      rw [fade_ones g g _ hbx, hend, printed_one, paint, paintFrom, paintFrom, List.append_nil]
      congr 3
      rw [Nat.add_mul, Nat.mul_comm c]
      simp
      omega
  | succ n ih =>
    intro us hl hp
    match us, hl with
    | b :: s :: us, hl =>
      have hb := hp b (by simp)
      have hs := hp s (by simp)
      obtain ⟨c, rfl⟩ : ∃ c, b = c + 1 := ⟨b - 1, by omega⟩
      obtain ⟨d, rfl⟩ : ∃ d, s = d + 1 := ⟨s - 1, by omega⟩
      have hbx : g ≤ (c + 1) * x := Nat.le_trans (Nat.le_of_lt hg) (Nat.le_mul_of_pos_left x (by omega))
      have hsx : 0 < (d + 1) * x := Nat.mul_pos (by omega) (by omega)
      simp only [List.map_cons, paintFrom, List.append_assoc]
      rw [fade_ones g g _ hbx]
      simp only [Nat.sub_self, Nat.sub_zero]
      rw [fade_zeros g 0 _ (Or.inl hsx), ih us (by simp at hl; omega) (fun w hw => hp w (by simp [hw])), printed_cons2, paint,
        paint, paintFrom, paintFrom]
      have e1 : (c + 1) * x - g = x * (c + 1 - 1) + (x - g) := by
        rw [Nat.add_mul, Nat.mul_comm c]; simp; omega
      have e2 : x * (d + 1 - 1) + (x + g) = (d + 1) * x + g := by
        rw [Nat.add_mul, Nat.mul_comm d]; simp; omega
      rw [e1, e2, ← List.replicate_append_replicate (n := (d + 1) * x)]
      simp only [List.append_assoc, Nat.sub_self, Nat.sub_zero]

/-! ## Reading -/

/-- A reader for one kind of symbol gets `t` from the row `ms` on paper when the ink of all bars runs, or all bars are bleached,
by less than a module, whichever way round the paper is held. -/
def ReadableInked {α : Type} (scan : List Nat → Option α) (ms : List Nat) (t : α) : Prop :=
  ∀ q x r g, g < x →
    (spreadScan scan (smear g (onPaper q x r ms)) = some t ∧ spreadScan scan (smear g (onPaper q x r ms)).reverse = some t) ∧
    (spreadScan scan (fade g (onPaper q x r ms)) = some t ∧ spreadScan scan (fade g (onPaper q x r ms)).reverse = some t)

theorem spread_both {α : Type} (scan : List Nat → Option α) (t : α) (us : List Nat) (ho : us.length % 2 = 1)
    (hpos : ∀ w ∈ us, 0 < w) (h1 : (1, 1) ∈ colours 1 us) (h0 : (0, 1) ∈ colours 1 us)
    (hs : scan (paint us) = some t) (hn : scan (paint us).reverse = none) (x p q : Nat) (hp : 0 < p) (hq : 0 < q)
    (hx : p + q = 2 * x) (a c : Nat) :
    spreadScan scan (List.replicate a 0 ++ paint (printed x p q us) ++ List.replicate c 0) = some t ∧
    spreadScan scan (List.replicate a 0 ++ paint (printed x p q us) ++ List.replicate c 0).reverse = some t := by
  have ho' : (printed x p q us).length % 2 = 1 := by rw [printed_length, ho]
  have hne : printed x p q us ≠ [] := by intro h; rw [h] at ho'; simp at ho'
  have hpp := printed_pos x p q hp hq us
  obtain ⟨e, he⟩ := paint_head _ hne hpp
  obtain ⟨f, hf⟩ := paint_head (printed x p q us).reverse (by simpa using hne)
    (fun w hw => hpp w (List.mem_reverse.mp hw))
  have hrev : (paint (printed x p q us)).reverse = paint (printed x p q us).reverse := paint_reverse_odd _ ho'
  have hline : (List.replicate a 0 ++ paint (printed x p q us) ++ List.replicate c 0).reverse =
      List.replicate c 0 ++ paint (printed x p q us).reverse ++ List.replicate a 0 := by
    rw [List.reverse_append, List.reverse_append, hrev, List.reverse_replicate, List.reverse_replicate, List.append_assoc]
  have s1 : strip (List.replicate a 0 ++ paint (printed x p q us) ++ List.replicate c 0) = paint (printed x p q us) :=
    strip_core a c _ e f he (by rw [hrev, hf])
  have s2 : strip (List.replicate a 0 ++ paint (printed x p q us) ++ List.replicate c 0).reverse =
      paint (printed x p q us).reverse := by
    rw [hline]
    exact strip_core c a _ f e hf (by rw [← hrev, List.reverse_reverse, he])
  have u1 := unspread_printed x p q hp hq hx us hpos h1 h0
  have u2 := unspread_printed x p q hp hq hx us.reverse (fun w hw => hpos w (List.mem_reverse.mp hw))
    (by rw [colours_reverse us ho]; exact List.mem_reverse.mpr h1) (by rw [colours_reverse us ho]; exact List.mem_reverse.mpr h0)
  rw [← printed_reverse x p q us ho, ← paint_reverse_odd us ho] at u2
  constructor
  · unfold spreadScan
    rw [s1, u1, Option.bind_some, hs]
  · unfold spreadScan
    rw [List.reverse_reverse, s2, s1, u2, u1, Option.bind_some, Option.bind_some, hn, hs]

theorem inked_of {α : Type} {scan : List Nat → Option α} {ms : List Nat} {t : α} (h : HasCore scan ms t) :
    ReadableInked scan ms t := by
  obtain ⟨us, k, rfl, ho, hp, hb, h0, hs, hn⟩ := h
  intro q x r g hg
  have hline : onPaper q x r (paint us ++ List.replicate k 0) =
      List.replicate q 0 ++ (paintFrom 1 (us.map (· * x)) ++ List.replicate (k * x + r) 0) := by
    rw [onPaper, stretch_append, stretch_zeros, paint, stretch_paintFrom, List.append_assoc, List.append_assoc,
      List.replicate_append_replicate]
  obtain ⟨n, hl⟩ : ∃ n, us.length = 2 * n + 1 := ⟨us.length / 2, by omega⟩
  rw [hline, smear, fade, smear_zeros g 0 q (by omega), fade_zeros g g q (Or.inr rfl), smear_row x g hg _ n us hl hp,
    fade_row x g hg _ n us hl hp]
  constructor
  · have := spread_both scan t us ho hp hb h0 hs hn x (x + g) (x - g) (by omega) (by omega) (by omega) q (k * x + r - g)
    simpa using this
  · have := spread_both scan t us ho hp hb h0 hs hn x (x - g) (x + g) (by omega) (by omega) (by omega) (q + g) (k * x + r)
    have e : ∀ A B : List Nat, List.replicate q 0 ++ (List.replicate g 0 ++ A ++ B) = List.replicate (q + g) 0 ++ A ++ B := by
      intro A B
      rw [← List.replicate_append_replicate]
      simp only [List.append_assoc]
    rw [e]
    exact this

/-- C82. Retail symbols. -/
theorem C82_retail (b : Build) (s : List Char) (ms : List Nat) :
    (Drawn b .ean13 s ms → ReadableInked scanEan13 ms ((digitsOf s).take 12 ++ [gs1Digit ((digitsOf s).take 12)])) ∧
    (Drawn b .ean8 s ms → ReadableInked scanEan8 ms ((digitsOf s).take 7 ++ [gs1Digit ((digitsOf s).take 7)])) ∧
    (Drawn b .upca s ms → ReadableInked scanUpca ms ((digitsOf s).take 11 ++ [gs1Digit ((digitsOf s).take 11)])) ∧
    (Drawn b .supp s ms → ReadableInked scanAddOn ms (digitsOf s)) := by
  obtain ⟨h1, h2, h3, h4⟩ := core_retail b s ms
  exact ⟨fun h => inked_of (h1 h), fun h => inked_of (h2 h), fun h => inked_of (h3 h), fun h => inked_of (h4 h)⟩

example : ∃ ms, Drawn .debug .ean8 "5512345".toList ms ∧
    spreadScan scanEan8 (smear 1 (onPaper 5 3 4 ms)).reverse = some [5, 5, 1, 2, 3, 4, 5, 7] := ⟨_, ⟨_, rfl, rfl⟩, by decide +kernel⟩

/-- C82. Code 39, plain and with check character, Code 93, Code 11 and Code 128. -/
theorem C82_text (b : Build) (s : List Char) (ms : List Nat) :
    (∀ x, Code39.new s = .ok x → Code39.encode x = .ok ms → ReadableInked scanCode39 ms s) ∧
    (∀ x, Code39.withChecksum s = .ok x → Code39.encode x = .ok ms → ReadableInked scanCode39Checked ms s) ∧
    (Drawn b .code93 s ms → ReadableInked scanCode93 ms s) ∧
    (Drawn b .code11 s ms → ReadableInked scanCode11 ms s) ∧
    (s.length ≤ 6489 → Drawn b .code128 s ms →
      ReadableInked scanCode128 ms (code128Regroup s) ∧ (Code128StrictForm s → ReadableInked scanCode128 ms s)) := by
  obtain ⟨h1, h2, h3, h4, h5⟩ := core_text b s ms
  exact ⟨fun x hx e => inked_of (h1 x hx e), fun x hx e => inked_of (h2 x hx e), fun h => inked_of (h3 h),
    fun h => inked_of (h4 h), fun hl h => ⟨inked_of (h5 hl h).1, fun hf => inked_of ((h5 hl h).2 hf)⟩⟩

example : ∃ ms, Drawn .debug .code11 "1-2".toList ms ∧ spreadScan scanCode11 (smear 1 (onPaper 4 2 1 ms)) = some "1-2".toList ∧
    handScan scanCode11 (smear 1 (onPaper 4 2 1 ms)) = none := ⟨_, ⟨_, rfl, rfl⟩, by decide +kernel, by decide +kernel⟩

/-- C82. The 2 of 5 codes. -/
theorem C82_two_of_five (b : Build) (s : List Char) (ms : List Nat) :
    (Drawn b .stf s ms → ReadableInked scanStf ms (digitsOf s)) ∧
    (Drawn b .itf s ms → ∃ ds, ReadableInked scanItf ms ds ∧
      ((s.length % 2 = 0 ∧ ds = digitsOf s) ∨ (s.length % 2 = 1 ∧ ∃ c < 10, ds = digitsOf s ++ [c]))) := by
  obtain ⟨h1, h2⟩ := core_two_of_five b s ms
  refine ⟨fun h => inked_of (h1 h), fun h => ?_⟩
  obtain ⟨ds, hc, hd⟩ := h2 h
  exact ⟨ds, inked_of hc, hd⟩

example : ∃ ms, Drawn .debug .itf "12".toList ms ∧ spreadScan scanItf (fade 1 (onPaper 4 2 1 ms)).reverse = some [1, 2] :=
  ⟨_, ⟨_, rfl, rfl⟩, by decide +kernel⟩

/-- What ink does to a bar, a wide space and a bar at three cells per module. -/
example : smear 2 (onPaper 1 3 1 [1, 0, 0, 1]) = [0, 1, 1, 1, 1, 1, 0, 0, 0, 0, 1, 1, 1, 1, 1] ∧
    fade 2 (onPaper 1 3 1 [1, 0, 0, 1]) = [0, 0, 0, 1, 0, 0, 0, 0, 0, 0, 0, 0, 1, 0] := by decide
/-- A reader that takes the narrowest element for the module fails on smeared print; the one above does not. -/
example : ∃ ms, Drawn .debug .ean8 "5512345".toList ms ∧ handScan scanEan8 (smear 2 (onPaper 9 3 5 ms)) = none ∧
    spreadScan scanEan8 (smear 2 (onPaper 9 3 5 ms)) = some [5, 5, 1, 2, 3, 4, 5, 7] ∧
    spreadScan scanEan8 (fade 2 (onPaper 9 3 5 ms)).reverse = some [5, 5, 1, 2, 3, 4, 5, 7] :=
  ⟨_, ⟨_, rfl, rfl⟩, by decide +kernel, by decide +kernel, by decide +kernel⟩

end Barcoders
