import Verif.Props.Measure
import Verif.Props.OneElement

/-!
# C68, C69: article numbers across symbologies, and add-ons next to a main symbol
-/

set_option autoImplicit false

namespace Barcoders
open Spec

theorem gs1Digit_zeros (n : Nat) (ds : List Nat) : gs1Digit (List.replicate n 0 ++ ds) = gs1Digit ds := by
  induction n with
  | zero => rfl
  | succ n ih => rw [List.replicate_succ, List.cons_append, gs1Digit_zero_cons, ih]

/-- Thirteen digits of which the first `n` are zero, drawn in Interleaved 2 of 5. -/
theorem itf_zeros (b : Build) (n : Nat) (s : List Char) (hD : AllDigits s) (hl : n + s.length = 13) :
    ∃ ms, Drawn b .itf (List.replicate n '0' ++ s) ms ∧
      scanItf ms = some (List.replicate n 0 ++ (digitsOf s ++ [gs1Digit (digitsOf s)])) := by
  have hD' : AllDigits (List.replicate n '0' ++ s) := by
    intro c hc
    rcases List.mem_append.mp hc with hc | hc
    · rw [List.eq_of_mem_replicate hc]; rfl
    · exact hD c hc
  have hd : digitsOf (List.replicate n '0' ++ s) = List.replicate n 0 ++ digitsOf s := by
    rw [digitsOf, List.map_append, List.map_replicate]; rfl
  obtain ⟨t, ms, h1, h2, h3, -⟩ := C26_itf_check_digit_upto13_partial b (List.replicate n '0' ++ s) hD'
    (by simp; omega) (by simp; omega)
  refine ⟨ms, ⟨t, h1, h2⟩, ?_⟩
  rw [h3, hd, gs1Digit_zeros, List.append_assoc]

theorem digitsOf_take_all (s : List Char) (n : Nat) (h : s.length = n) : (digitsOf s).take n = digitsOf s := by
  rw [← h, show s.length = (digitsOf s).length by simp [digitsOf], List.take_length]

/-- C68. A number of 12 digits drawn as EAN-13 and, with a leading zero, as ITF-14, is read as the same 14-digit number, with
the same check digit. -/
theorem C68_ean13_itf14 (b : Build) (s : List Char) (hD : AllDigits s) (hl : s.length = 12) :
    ∃ ms ms' ds, Drawn b .ean13 s ms ∧ scanEan13 ms = some ds ∧ ds.length = 13 ∧ Drawn b .itf ('0' :: s) ms' ∧
      scanItf ms' = some (0 :: ds) := by
  have hb := digits_byteLen s hD
  obtain ⟨x, hx⟩ : ∃ x, Ean13.new b s = .ok x := by
    rw [C01_ean13_new b s (by omega), if_neg (by omega), if_neg (not_not_intro hD), if_neg (by omega)]
    exact ⟨_, rfl⟩
  obtain ⟨ms, he, hs⟩ := C02_ean13_scan b s x hx
  obtain ⟨ms', h1, h2⟩ := itf_zeros b 1 s hD (by omega)
  rw [digitsOf_take_all s 12 hl] at hs
  exact ⟨ms, ms', _, ⟨x, hx, he⟩, hs, by simp [digitsOf, hl], h1, h2⟩

example : ∃ ms ms', Drawn .debug .ean13 "750103131130".toList ms ∧ scanEan13 ms = some [7, 5, 0, 1, 0, 3, 1, 3, 1, 1, 3, 0, 9] ∧
    Drawn .debug .itf "0750103131130".toList ms' ∧ scanItf ms' = some [0, 7, 5, 0, 1, 0, 3, 1, 3, 1, 1, 3, 0, 9] :=
  ⟨_, _, ⟨_, rfl, rfl⟩, by decide +kernel, ⟨_, rfl, rfl⟩, by decide +kernel⟩

/-- C68. A number of 11 digits drawn as UPC-A, as EAN-13 with a leading zero, and as ITF-14 with two: the same number. -/
theorem C68_upca_itf14 (b : Build) (s : List Char) (hD : AllDigits s) (hl : s.length = 11) :
    ∃ ms ms₁ ms' ds, Drawn b .upca s ms ∧ scanUpca ms = some ds ∧ ds.length = 12 ∧ Drawn b .ean13 ('0' :: s) ms₁ ∧
      scanEan13 ms₁ = some (0 :: ds) ∧ Drawn b .itf ('0' :: '0' :: s) ms' ∧ scanItf ms' = some (0 :: 0 :: ds) := by
  have hb := digits_byteLen s hD
  obtain ⟨x, hx⟩ : ∃ x, Upca.new b s = .ok x := by
    rw [C08_upca_new b s (by omega), if_neg (by omega), if_neg (not_not_intro hD), if_neg (by omega)]
    exact ⟨_, rfl⟩
  obtain ⟨ms, he, hs⟩ := C09_upca_scan b s x hx
  obtain ⟨ms', h1, h2⟩ := itf_zeros b 2 s hD (by omega)
  have hD' : AllDigits ('0' :: s) := by
    intro c hc
    rcases List.mem_cons.mp hc with rfl | hc
    · rfl
    · exact hD c hc
  obtain ⟨ms₁, -, ds₁, k1, k2, -⟩ := C68_ean13_itf14 b ('0' :: s) hD' (by simp [hl])
  rw [digitsOf_take_all s 11 hl] at hs
  refine ⟨ms, ms₁, ms', _, ⟨x, hx, he⟩, hs, by simp [digitsOf, hl], k1, ?_, h1, h2⟩
  obtain ⟨y, hy, hey⟩ := k1
  obtain ⟨bits, g1, g2⟩ := C02_ean13_scan b _ y hy
  rw [hey, Outcome.ok.injEq] at g1
  subst g1
  rw [g2, digitsOf_take_all _ 12 (by simp [hl])]
  have : digitsOf ('0' :: s) = 0 :: digitsOf s := rfl
  rw [this, gs1Digit_zero_cons]
  rfl

example : ∃ ms ms', Drawn .debug .upca "01234567890".toList ms ∧ Drawn .debug .itf "0001234567890".toList ms' ∧
    scanUpca ms = some [0, 1, 2, 3, 4, 5, 6, 7, 8, 9, 0, 5] ∧ scanItf ms' = some [0, 0, 0, 1, 2, 3, 4, 5, 6, 7, 8, 9, 0, 5] :=
  ⟨_, _, ⟨_, rfl, rfl⟩, ⟨_, rfl, rfl⟩, by decide +kernel⟩

/-- C68. A number of 7 digits drawn as EAN-8 and, with six leading zeros, as ITF-14: the same number. -/
theorem C68_ean8_itf14 (b : Build) (s : List Char) (hD : AllDigits s) (hl : s.length = 7) :
    ∃ ms ms' ds, Drawn b .ean8 s ms ∧ scanEan8 ms = some ds ∧ ds.length = 8 ∧ Drawn b .itf ("000000".toList ++ s) ms' ∧
      scanItf ms' = some ([0, 0, 0, 0, 0, 0] ++ ds) := by
  have hb := digits_byteLen s hD
  obtain ⟨x, hx⟩ : ∃ x, Ean8.new b s = .ok x := by
    rw [C06_ean8_new b s (by omega), if_neg (by omega), if_neg (not_not_intro hD), if_neg (by omega)]
    exact ⟨_, rfl⟩
  obtain ⟨ms, he, hs⟩ := C07_ean8_scan b s x hx
  obtain ⟨ms', h1, h2⟩ := itf_zeros b 6 s hD (by omega)
  rw [digitsOf_take_all s 7 hl] at hs
  exact ⟨ms, ms', _, ⟨x, hx, he⟩, hs, by simp [digitsOf, hl], h1, h2⟩

example : ∃ ms ms', Drawn .debug .ean13 "750103131130".toList ms ∧ Drawn .debug .itf "0750103131130".toList ms' ∧
    scanEan13 ms = some [7, 5, 0, 1, 0, 3, 1, 3, 1, 1, 3, 0, 9] ∧ scanItf ms' = some [0, 7, 5, 0, 1, 0, 3, 1, 3, 1, 1, 3, 0, 9] :=
  ⟨_, _, ⟨_, rfl, rfl⟩, ⟨_, rfl, rfl⟩, by decide +kernel, by decide +kernel⟩

/-! ## C69: add-ons -/

theorem drawn_elements (b : Build) (k : Kind) (s : List Char) (ms : List Nat) (h : Drawn b k s ms) :
    ∃ ws, ms = paint ws ∧ elements ms = some ws ∧ Marks k s ws ∧ ws ≠ [] ∧ ∀ w ∈ ws, 0 < w := by
  obtain ⟨ws, rfl, h1, h2, -⟩ := drawn_widths b k s ms h
  obtain ⟨es, he, hm⟩ := drawn_marks b k s _ h
  have := elements_paint ws h2 h1
  rw [this, Option.some.injEq] at he
  subst he
  exact ⟨ws, rfl, this, hm, h1, h2⟩

theorem elements_side_by_side (ws vs : List Nat) (g : Nat) (hg : 0 < g) (hw : ∀ w ∈ ws, 0 < w) (hv : ∀ w ∈ vs, 0 < w)
    (ho : ws.length % 2 = 1) :
    elements (paint ws ++ List.replicate g 0 ++ paint vs) = some (ws ++ g :: vs) := by
  have : paint ws ++ List.replicate g 0 ++ paint vs = paint (ws ++ g :: vs) := by
    rw [paint, paint, paint, paintFrom_append_odd 1 (by omega) _ _ ho, paintFrom, List.append_assoc]
  rw [this]
  refine elements_paint _ ?_ (by simp)
  intro w h
  rcases List.mem_append.mp h with h | h
  · exact hw w h
  · rcases List.mem_cons.mp h with rfl | h
    · exact hg
    · exact hv w h

/-- A main symbol read from `k` elements, followed by an add-on. -/
theorem with_add_on (b b' : Build) (kind : Kind) (s t : List Char) (ms ms' : List Nat) (g k : Nat) (hg : 0 < g)
    (h : Drawn b kind s ms) (h' : Drawn b' .supp t ms') (main : List Nat → Option (List Nat)) (ds : List Nat)
    (hk : ∀ ws, Marks kind s ws → ws.length = k) (ho : k % 2 = 1) (hr : (elements ms).bind main = some ds) :
    scanWithAddOn k main (ms ++ List.replicate g 0 ++ ms') = some (ds, g, digitsOf t) := by
  obtain ⟨ws, rfl, e1, m1, -, p1⟩ := drawn_elements b kind s ms h
  obtain ⟨vs, rfl, e2, -, -, p2⟩ := drawn_elements b' .supp t ms' h'
  have hl := hk ws m1
  obtain ⟨x, hx, hx'⟩ := h'
  obtain ⟨bits, g1, g2⟩ := C12_eansupp_scan b' t x hx
  rw [hx', Outcome.ok.injEq] at g1
  subst g1
  rw [scanAddOn, e2, Option.bind_some] at g2
  rw [e1, Option.bind_some] at hr
  unfold scanWithAddOn
  rw [elements_side_by_side ws vs g hg p1 p2 (by omega)]
  simp only [Option.bind_eq_bind, Option.bind_some]
  rw [List.take_left' hl, hr]
  have hget : (ws ++ g :: vs)[k]? = some g := by rw [List.getElem?_append_right (by omega), hl]; simp
  have hdrop : (ws ++ g :: vs).drop (k + 1) = vs := by
    rw [← hl, List.drop_append]; simp
  rw [hget, hdrop, g2]
  rfl

/-- C69. An EAN-13, UPC-A or EAN-8 symbol, a light gap of any width and an add-on symbol, side by side: a scanner reads the main
number, the gap and the add-on number. -/
theorem C69_add_on (b b' : Build) (s t : List Char) (ms ms' : List Nat) (g : Nat) (hg : 0 < g) (h' : Drawn b' .supp t ms') :
    (Drawn b .ean13 s ms → scanWithAddOn 59 readEan13 (ms ++ List.replicate g 0 ++ ms') =
      some ((digitsOf s).take 12 ++ [gs1Digit ((digitsOf s).take 12)], g, digitsOf t)) ∧
    (Drawn b .upca s ms → scanWithAddOn 59 (readHalves 6) (ms ++ List.replicate g 0 ++ ms') =
      some ((digitsOf s).take 11 ++ [gs1Digit ((digitsOf s).take 11)], g, digitsOf t)) ∧
    (Drawn b .ean8 s ms → scanWithAddOn 43 (readHalves 4) (ms ++ List.replicate g 0 ++ ms') =
      some ((digitsOf s).take 7 ++ [gs1Digit ((digitsOf s).take 7)], g, digitsOf t)) := by
  refine ⟨fun h => ?_, fun h => ?_, fun h => ?_⟩
  · obtain ⟨x, hx, he⟩ := id h
    obtain ⟨bits, g1, g2⟩ := C02_ean13_scan b s x hx
    rw [he, Outcome.ok.injEq] at g1
    subst g1
    exact with_add_on b b' .ean13 s t ms ms' g 59 hg h h' _ _ (fun ws hm => hm.2.2.2) (by decide) g2
  · obtain ⟨x, hx, he⟩ := id h
    obtain ⟨bits, g1, g2⟩ := C09_upca_scan b s x hx
    rw [he, Outcome.ok.injEq] at g1
    subst g1
    exact with_add_on b b' .upca s t ms ms' g 59 hg h h' _ _ (fun ws hm => hm.2.2.2) (by decide) g2
  · obtain ⟨x, hx, he⟩ := id h
    obtain ⟨bits, g1, g2⟩ := C07_ean8_scan b s x hx
    rw [he, Outcome.ok.injEq] at g1
    subst g1
    exact with_add_on b b' .ean8 s t ms ms' g 43 hg h h' _ _ (fun ws hm => hm.2.2.2.1) (by decide) g2

example : ∃ ms ms', Drawn .debug .ean8 "5512345".toList ms ∧ Drawn .debug .supp "51".toList ms' ∧
    scanWithAddOn 43 (readHalves 4) (ms ++ List.replicate 9 0 ++ ms') = some ([5, 5, 1, 2, 3, 4, 5, 7], 9, [5, 1]) :=
  ⟨_, _, ⟨_, rfl, rfl⟩, ⟨_, rfl, rfl⟩, by decide +kernel⟩

theorem paint_touching (ws vs : List Nat) (a c : Nat) (ho : ws.length % 2 = 0) :
    paint (ws ++ [a]) ++ paint (c :: vs) = paint (ws ++ (a + c) :: vs) := by
  rw [paint, paint, paint, paintFrom_append_even 1 (by omega) _ _ ho, paintFrom_append_even 1 (by omega) _ _ ho]
  simp only [paintFrom, List.append_nil, List.append_assoc, ← List.replicate_append_replicate]

/-- A main symbol and an add-on that touch: the main symbol is as if its last bar were too wide. -/
theorem touching_add_on (b b' : Build) (kind : Kind) (s t : List Char) (ms ms' : List Nat) (k : Nat)
    (h : Drawn b kind s ms) (h' : Drawn b' .supp t ms') (main : List Nat → Option (List Nat))
    (hk : ∀ ws, Marks kind s ws → ws.length = k) (ho : k % 2 = 1)
    (hm : ∀ i w ms'', Misjudged i w ms ms'' → (elements ms'').bind main = none) :
    scanWithAddOn k main (ms ++ ms') = none := by
  obtain ⟨ws, rfl, e1, m1, -, p1⟩ := drawn_elements b kind s ms h
  obtain ⟨vs, rfl, -, -, n2, p2⟩ := drawn_elements b' .supp t ms' h'
  have hl := hk ws m1
  rcases List.eq_nil_or_concat ws with rfl | ⟨ws, a, rfl⟩
  · simp at hl; omega
  cases vs with
  | nil => exact absurd rfl n2
  | cons c vs =>
  have hc := p2 c (by simp)
  have ha := p1 a (by simp)
  rw [List.concat_eq_append] at *
  simp only [List.length_append, List.length_cons, List.length_nil] at hl
  have pw : ∀ w ∈ ws ++ [a + c], 0 < w := by
    intro w hw
    rcases List.mem_append.mp hw with hw | hw
    · exact p1 w (by simp [hw])
    · simp at hw; omega
  have g1 := elements_paint (ws ++ [a + c]) pw (by simp)
  have g2 := hm ws.length (a + c) (paint (ws ++ [a + c])) ⟨ws ++ [a], e1, by simp, by simp; omega, by
    rw [g1]; simp⟩
  rw [g1, Option.bind_some] at g2
  unfold scanWithAddOn
  rw [paint_touching ws vs a c (by omega), elements_paint (ws ++ (a + c) :: vs) (by
    intro w hw
    rcases List.mem_append.mp hw with hw | hw
    · exact p1 w (by simp [hw])
    · rcases List.mem_cons.mp hw with rfl | hw
      · omega
      · exact p2 w (by simp [hw])) (by simp)]
  have ht : (ws ++ (a + c) :: vs).take k = ws ++ [a + c] := by
    rw [show ws ++ (a + c) :: vs = (ws ++ [a + c]) ++ vs by simp]
    exact List.take_left' (by simp; omega)
  simp only [Option.bind_eq_bind, Option.bind_some]
  rw [ht, g2]
  rfl

/-- C69. Without a gap the last bar of the main symbol and the first of the add-on run together, and the row is not read. -/
theorem C69_gap_needed (b b' : Build) (s t : List Char) (ms ms' : List Nat) (h' : Drawn b' .supp t ms') :
    (Drawn b .ean13 s ms → scanWithAddOn 59 readEan13 (ms ++ ms') = none) ∧
    (Drawn b .upca s ms → scanWithAddOn 59 (readHalves 6) (ms ++ ms') = none) ∧
    (Drawn b .ean8 s ms → scanWithAddOn 43 (readHalves 4) (ms ++ ms') = none) := by
  refine ⟨fun h => ?_, fun h => ?_, fun h => ?_⟩
  · obtain ⟨x, hx, he⟩ := id h
    exact touching_add_on b b' .ean13 s t ms ms' 59 h h' _ (fun ws hm => hm.2.2.2) (by decide)
      (fun i w ms'' hm => C84_ean13 b s x hx ms he i w ms'' hm)
  · obtain ⟨x, hx, he⟩ := id h
    exact touching_add_on b b' .upca s t ms ms' 59 h h' _ (fun ws hm => hm.2.2.2) (by decide)
      (fun i w ms'' hm => C84_upca b s x hx ms he i w ms'' hm)
  · obtain ⟨x, hx, he⟩ := id h
    exact touching_add_on b b' .ean8 s t ms ms' 43 h h' _ (fun ws hm => hm.2.2.2.1) (by decide)
      (fun i w ms'' hm => C84_ean8 b s x hx ms he i w ms'' hm)

example : ∃ ms ms', Drawn .debug .ean8 "5512345".toList ms ∧ Drawn .debug .supp "51".toList ms' ∧
    scanWithAddOn 43 (readHalves 4) (ms ++ ms') = none :=
  ⟨_, _, ⟨_, rfl, rfl⟩, ⟨_, rfl, rfl⟩, by decide +kernel⟩

end Barcoders
