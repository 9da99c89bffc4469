import Verif.Spec.Turned
import Verif.Props.Exact
import Verif.Props.Reversal
import Verif.Props.Supplemental

/-!
# C76: a symbol held upside down is not misread
-/

set_option autoImplicit false

namespace Barcoders
open Spec

theorem runs_pos (ms : List Nat) : ∀ r ∈ runs ms, 0 < r.2 := by
  induction ms with
  | nil => simp [runs]
  | cons m ms ih =>
    rw [runs]
    split
    · simp
    · next c n r h =>
      rw [h] at ih
      have h1 := ih (c, n) (by simp)
      split
      · intro x hx
        rcases List.mem_cons.mp hx with rfl | hx
        · simp
        · exact ih x (by simp [hx])
      · intro x hx
        rcases List.mem_cons.mp hx with rfl | hx
        · simp
        · exact ih x hx

theorem elements_pos (ms es : List Nat) (h : elements ms = some es) : (∀ w ∈ es, 0 < w) ∧ es ≠ [] := by
  unfold elements at h
  split at h
  · next hc =>
    rw [Option.some.injEq] at h
    subst h
    constructor
    · intro w hw
      obtain ⟨r, hr, rfl⟩ := List.mem_map.mp hw
      exact runs_pos ms r hr
    · intro h0
      cases ms with
      | nil => simp at hc
      | cons m ms =>
        obtain ⟨n, r, hr⟩ := runs_head m ms
        rw [hr] at h0
        cases h0
  · cases h

/-- Elements up to the last bar. -/
def upToBar (es : List Nat) : List Nat := if es.length % 2 = 0 then es.dropLast else es

theorem paint_head (ws : List Nat) (hne : ws ≠ []) (h : ∀ w ∈ ws, 0 < w) : ∃ r, paint ws = 1 :: r := by
  cases ws with
  | nil => exact absurd rfl hne
  | cons w ws =>
    obtain ⟨n, rfl⟩ : ∃ n, w = n + 1 := ⟨w - 1, by have := h w (by simp); omega⟩
    exact ⟨_, by rw [paint, paintFrom, List.replicate_succ]; rfl⟩

theorem dropWhile_zeros (n : Nat) (r : List Nat) :
    (List.replicate n 0 ++ 1 :: r).dropWhile (fun m => m == 0) = 1 :: r := by
  induction n with
  | zero => simp
  | succ n ih => rw [List.replicate_succ, List.cons_append, List.dropWhile_cons, if_pos (by rfl), ih]

theorem turned_paint (es : List Nat) (h : ∀ w ∈ es, 0 < w) (hne : es ≠ []) :
    turned (paint es) = paint (upToBar es).reverse ∧ ((upToBar es) ≠ [] ∧ ∀ w ∈ upToBar es, 0 < w) := by
  by_cases ho : es.length % 2 = 1
  · have hu : upToBar es = es := by unfold upToBar; rw [if_neg (by omega)]
    rw [hu]
    refine ⟨?_, hne, h⟩
    obtain ⟨r, hr⟩ := paint_head es.reverse (by simpa using hne) (fun w hw => h w (List.mem_reverse.mp hw))
    rw [turned, paint_reverse_odd es ho, hr]
    exact dropWhile_zeros 0 r
  · have hu : upToBar es = es.dropLast := by unfold upToBar; rw [if_pos (by omega)]
    have hd := List.dropLast_concat_getLast hne
    have hlen : es.dropLast.length % 2 = 1 := by rw [List.length_dropLast]; have := List.length_pos_iff.mpr hne; omega
    have hne' : es.dropLast ≠ [] := by intro h0; rw [h0] at hlen; simp at hlen
    have hp : ∀ w ∈ es.dropLast, 0 < w := fun w hw => h w ((List.dropLast_sublist es).subset hw)
    rw [hu]
    refine ⟨?_, hne', hp⟩
    obtain ⟨r, hr⟩ := paint_head es.dropLast.reverse (by simpa using hne') (fun w hw => hp w (List.mem_reverse.mp hw))
    have he : paint es = paint es.dropLast ++ List.replicate (es.getLast hne) 0 := by
      conv => lhs; rw [← hd]
      rw [paint, paintFrom_append_odd 1 (by omega) _ _ hlen]
      simp [paintFrom, paint]
    rw [turned, he, List.reverse_append, paint_reverse_odd _ hlen, hr, List.reverse_replicate]
    exact dropWhile_zeros _ r

theorem elements_turned (ms es : List Nat) (h : elements ms = some es) :
    elements (turned ms) = some (upToBar es).reverse := by
  obtain ⟨h1, h2⟩ := elements_pos ms es h
  obtain ⟨h3, h4, h5⟩ := turned_paint es h1 h2
  rw [elements_inv ms es h, h3]
  exact elements_paint _ (fun w hw => h5 w (List.mem_reverse.mp hw)) (by simpa using h4)

theorem turned_odd (ms es : List Nat) (h : elements ms = some es) (ho : es.length % 2 = 1) : turned ms = ms.reverse := by
  obtain ⟨h1, h2⟩ := elements_pos ms es h
  obtain ⟨h3, -⟩ := turned_paint es h1 h2
  have hu : upToBar es = es := by unfold upToBar; rw [if_neg (by omega)]
  rw [hu] at h3
  rw [elements_inv ms es h, h3, paint_reverse_odd es ho]

/-- The guards at both ends of a symbol tell its direction. -/
theorem turned_guards (P : List Nat → Prop) (k : Nat) (q : List Nat) (hq : q.length = k) (hPq : ¬ P q.reverse)
    (S : List Nat → Prop)
    (hS : ∀ ms, S ms → ∃ es, elements ms = some es ∧ P (es.take k))
    (ms es r : List Nat) (he : elements ms = some es) (hr : upToBar es = r ++ q) : ¬ S (turned ms) := by
  intro h
  obtain ⟨es', h1, h2⟩ := hS _ h
  rw [elements_turned ms es he, Option.some.injEq] at h1
  subst h1
  rw [hr, List.reverse_append, List.take_left' (by simpa using hq)] at h2
  exact hPq h2

/-- First and last group of a text between two marks. -/
theorem readAll_ends {α : Type} (k : Nat) (hk : 0 < k) (f : List Nat → Option α) (es : List Nat) (a z : α) (t : List α)
    (h : readAll k f es = some (a :: t ++ [z])) :
    ∃ w r r' v, es = w ++ r ∧ es = r' ++ v ∧ w.length = k ∧ v.length = k ∧ f w = some a ∧ f v = some z := by
  obtain ⟨ws, h1, h2, h3⟩ := readAllFrom_inv k f [] es _ hk h
  rw [List.nil_append] at h1
  cases ws with
  | nil => simp at h3
  | cons w ws =>
    simp only [List.map_cons, List.cons_append, List.map_append, List.cons.injEq] at h3
    rcases List.eq_nil_or_concat ws with rfl | ⟨mid, v, rfl⟩
    · simp at h3
    · rw [List.concat_eq_append, List.map_append] at h3
      have h4 := (List.append_inj' h3.2 rfl).2
      simp only [List.map_cons, List.map_nil, List.cons.injEq, and_true] at h4
      refine ⟨w, (mid.concat v).flatten, (w :: mid).flatten, v, by rw [h1]; rfl, by rw [h1]; simp, h2 w (by simp),
        h2 v (by simp), h3.1, h4⟩

theorem upToBar_of_odd (es : List Nat) (h : es.length % 2 = 1) : upToBar es = es := by
  unfold upToBar; rw [if_neg (by omega)]

theorem readAllFrom_length {α : Type} (k : Nat) (hk : 0 < k) (f : List Nat → Option α) (es : List Nat) (l : List α)
    (h : readAll k f es = some l) : es.length = k * l.length := by
  obtain ⟨ws, h1, h2, h3⟩ := readAllFrom_inv k f [] es _ hk h
  rw [List.nil_append] at h1
  have hl : ws.length = l.length := by
    have := congrArg List.length h3
    simpa using this
  rw [h1, ← hl]
  clear h h1 h3 hl
  induction ws with
  | nil => simp
  | cons w ws ih =>
    rw [List.flatten_cons, List.length_append, ih (fun v hv => h2 v (by simp [hv])), h2 w (by simp), List.length_cons,
      Nat.mul_add, Nat.mul_one, Nat.add_comm]

theorem take_append_left (k : Nat) (w r es : List Nat) (hw : w.length = k) (h : es = w ++ r) : es.take k = w := by
  rw [h, List.take_left' hw]

/-- What a row with a text between two `*` looks like at its ends, when a gap of width 1 follows each character. -/
theorem star_ends (n : Nat) (hn : n % 2 = 1) (f : List Nat → Option Char) (star : List Nat) (hs : star.length = n)
    (hf : ∀ w, f w = some '*' → w = star ++ [1]) (es : List Nat) (t : List Char)
    (h : readAll (n + 1) f (es ++ [1]) = some ('*' :: t ++ ['*'])) :
    es.take n = star ∧ ∃ r, upToBar es = r ++ star := by
  obtain ⟨w, r, r', v, h1, h2, h3, h4, h5, h6⟩ := readAll_ends (n + 1) (by omega) f _ _ _ _ h
  have hl := readAllFrom_length (n + 1) (by omega) f _ _ h
  have hlen : es.length % 2 = 1 := by
    rw [List.length_append, List.length_singleton] at hl
    have : (n + 1) * ('*' :: t ++ ['*']).length % 2 = 0 := by
      rw [Nat.mul_mod, show (n + 1) % 2 = 0 by omega, Nat.zero_mul, Nat.zero_mod]
    omega
  rw [hf w h5] at h1
  rw [hf v h6] at h2
  rw [← List.append_assoc] at h2
  have h2' := append_one_inj _ _ h2
  constructor
  · have hlt : n ≤ es.length := by rw [h2']; simp; omega
    have := congrArg (List.take n) h1
    rw [List.take_append_of_le_length hlt, List.append_assoc, List.take_left' hs] at this
    exact this
  · exact ⟨r', by rw [upToBar_of_odd es hlen, h2']⟩

theorem code39_star (w : List Nat) (h : readCode39Char w = some '*') : w = [1, 2, 1, 1, 2, 1, 2, 1, 1] ++ [1] :=
  gap_eq _ code39_keys 9 readCode39Char (fun _ => rfl) w _ '*' h (by decide +kernel)

theorem code11_star (w : List Nat) (h : readCode11Char w = some '*') : w = [1, 1, 2, 2, 1] ++ [1] :=
  gap_eq _ code11_keys 5 readCode11Char (fun _ => rfl) w _ '*' h (by decide +kernel)

theorem code93_star (w : List Nat) (h : readCode93Char w = some '*') : w = [1, 1, 1, 1, 4, 1] :=
  chart_inj _ code93_keys w _ '*' h (by decide +kernel)

theorem turned_code39 (ms : List Nat) (t : List Char) (h : scanCode39 ms = some t) : scanCode39 (turned ms) = none := by
  have key : ∀ ms t, scanCode39 ms = some t → ∃ es, elements ms = some es ∧ es.take 9 = [1, 2, 1, 1, 2, 1, 2, 1, 1] ∧
      ∃ r, upToBar es = r ++ [1, 2, 1, 1, 2, 1, 2, 1, 1] := by
    intro ms t h
    obtain ⟨es, h1, h2, -⟩ := scanCode39_inv ms t h
    have h3 := star_ends 9 rfl readCode39Char _ rfl code39_star es t h2
    exact ⟨es, h1, h3.1, h3.2⟩
  obtain ⟨es, h1, -, r, h2⟩ := key ms t h
  rw [← Option.not_isSome_iff_eq_none, Option.isSome_iff_exists]
  exact turned_guards (fun l => l = [1, 2, 1, 1, 2, 1, 2, 1, 1]) 9 _ rfl (by decide) (fun ms => ∃ t, scanCode39 ms = some t)
    (fun ms ⟨t, h⟩ => by obtain ⟨es, a, b, -⟩ := key ms t h; exact ⟨es, a, b⟩) ms es r h1 h2

theorem turned_code11 (ms : List Nat) (t : List Char) (h : scanCode11 ms = some t) : scanCode11 (turned ms) = none := by
  have key : ∀ ms t, scanCode11 ms = some t → ∃ es, elements ms = some es ∧ es.take 5 = [1, 1, 2, 2, 1] ∧
      ∃ r, upToBar es = r ++ [1, 1, 2, 2, 1] := by
    intro ms t h
    obtain ⟨es, h1, h2, -⟩ := scanCode11_inv ms t h
    have h3 := star_ends 5 rfl readCode11Char _ rfl code11_star es _ h2
    exact ⟨es, h1, h3.1, h3.2⟩
  obtain ⟨es, h1, -, r, h2⟩ := key ms t h
  rw [← Option.not_isSome_iff_eq_none, Option.isSome_iff_exists]
  exact turned_guards (fun l => l = [1, 1, 2, 2, 1]) 5 _ rfl (by decide) (fun ms => ∃ t, scanCode11 ms = some t)
    (fun ms ⟨t, h⟩ => by obtain ⟨es, a, b, -⟩ := key ms t h; exact ⟨es, a, b⟩) ms es r h1 h2

theorem turned_code93 (ms : List Nat) (t : List Char) (h : scanCode93 ms = some t) : scanCode93 (turned ms) = none := by
  have key : ∀ ms t, scanCode93 ms = some t → ∃ es, elements ms = some es ∧ es.take 6 = [1, 1, 1, 1, 4, 1] ∧
      ∃ r, upToBar es = r ++ [1, 1, 1, 4, 1, 1] := by
    intro ms t h
    obtain ⟨body, h1, h2, -⟩ := scanCode93_inv ms t h
    obtain ⟨w, r, r', v, e1, e2, e3, e4, e5, e6⟩ := readAll_ends 6 (by omega) _ _ _ _ _ h2
    have hl := readAllFrom_length 6 (by omega) _ _ _ h2
    rw [code93_star w e5] at e1
    rw [code93_star v e6] at e2
    refine ⟨_, h1, by rw [e1]; rfl, r' ++ [1], ?_⟩
    rw [upToBar_of_odd _ (by rw [List.length_append, hl, List.length_singleton]; omega), e2]
    simp
  obtain ⟨es, h1, -, r, h2⟩ := key ms t h
  rw [← Option.not_isSome_iff_eq_none, Option.isSome_iff_exists]
  exact turned_guards (fun l => l = [1, 1, 1, 1, 4, 1]) 6 _ rfl (by decide) (fun ms => ∃ t, scanCode93 ms = some t)
    (fun ms ⟨t, h⟩ => by obtain ⟨es, a, b, -⟩ := key ms t h; exact ⟨es, a, b⟩) ms es r h1 h2

theorem turned_code128 (ms : List Nat) (t : List Char) (h : scanCode128 ms = some t) : scanCode128 (turned ms) = none := by
  have key : ∀ ms t, scanCode128 ms = some t → ∃ es, elements ms = some es ∧
      es.take 6 ∈ [[2, 1, 1, 4, 1, 2], [2, 1, 1, 2, 1, 4], [2, 1, 1, 2, 3, 2]] ∧
      ∃ r, upToBar es = r ++ [3, 3, 1, 1, 1, 2] := by
    intro ms t h
    obtain ⟨es, set, data, -, h1, h2, -⟩ := scanCode128_inv ms t h
    obtain ⟨w, r, r', v, e1, e2, e3, e4, e5, e6⟩ := readAll_ends 6 (by omega) _ _ _ _ _ h2
    have hl := readAllFrom_length 6 (by omega) _ _ _ h2
    have hw : w ∈ [[2, 1, 1, 4, 1, 2], [2, 1, 1, 2, 1, 4], [2, 1, 1, 2, 3, 2]] := by
      cases set
      · rw [idxOf_inj code128Chart w [2, 1, 1, 4, 1, 2] _ e5 (by decide +kernel)]; simp
      · rw [idxOf_inj code128Chart w [2, 1, 1, 2, 1, 4] _ e5 (by decide +kernel)]; simp
      · rw [idxOf_inj code128Chart w [2, 1, 1, 2, 3, 2] _ e5 (by decide +kernel)]; simp
    refine ⟨_, h1, ?_, es ++ [2], ?_⟩
    · rw [e1, List.append_assoc, List.take_left' e3]
      exact hw
    · rw [upToBar_of_odd _ (by rw [List.length_append, hl]; simp only [code128Stop, List.length_cons, List.length_nil]; omega)]
      simp [code128Stop]
  obtain ⟨es, h1, -, r, h2⟩ := key ms t h
  rw [← Option.not_isSome_iff_eq_none, Option.isSome_iff_exists]
  exact turned_guards (fun l => l ∈ [[2, 1, 1, 4, 1, 2], [2, 1, 1, 2, 1, 4], [2, 1, 1, 2, 3, 2]]) 6 _ rfl (by decide)
    (fun ms => ∃ t, scanCode128 ms = some t)
    (fun ms ⟨t, h⟩ => by obtain ⟨es, a, b, -⟩ := key ms t h; exact ⟨es, a, b⟩) ms es r h1 h2

theorem map_append_inv (f : Nat → Nat) (es a b : List Nat) (h : es.map f = a ++ b) :
    ∃ c d, es = c ++ d ∧ c.map f = a ∧ d.map f = b := by
  rw [List.map_eq_append_iff] at h
  obtain ⟨c, d, h1, h2, h3⟩ := h
  exact ⟨c, d, h1, h2, h3⟩

theorem turned_itf (ms ds : List Nat) (h : scanItf ms = some ds) : scanItf (turned ms) = none := by
  have key : ∀ ms ds, scanItf ms = some ds → ∃ es, elements ms = some es ∧ (es.take 3).map classify = [1, 1, 1] ∧
      ∃ r q, upToBar es = r ++ q ∧ q.map classify = [2, 1, 1] := by
    intro ms ds h
    obtain ⟨es, body, ps, h1, h2, h3, -⟩ := scanItf_inv ms ds h
    have hl := readAllFrom_length 10 (by omega) _ _ _ h3
    have hlen : es.length % 2 = 1 := by
      have := congrArg List.length h2
      simp only [List.length_map, List.length_append, List.length_cons, List.length_nil] at this
      omega
    obtain ⟨c, d, rfl, h5, h6⟩ := map_append_inv classify es _ _ h2
    refine ⟨_, h1, ?_, c, d, upToBar_of_odd _ hlen, h6⟩
    rw [List.map_take, h2]
    rfl
  obtain ⟨es, h1, -, r, q, h2, h3⟩ := key ms ds h
  rw [← Option.not_isSome_iff_eq_none, Option.isSome_iff_exists]
  have hq : q.length = 3 := by simpa using congrArg List.length h3
  refine turned_guards (fun l => l.map classify = [1, 1, 1]) 3 q hq ?_ (fun ms => ∃ t, scanItf ms = some t)
    (fun ms ⟨t, h⟩ => by obtain ⟨es, a, b, -⟩ := key ms t h; exact ⟨es, a, b⟩) ms es r h1 h2
  rw [List.map_reverse, h3]
  decide

theorem turned_stf (ms ds : List Nat) (h : scanStf ms = some ds) : scanStf (turned ms) = none := by
  have key : ∀ ms ds, scanStf ms = some ds → ∃ es, elements ms = some es ∧ (es.take 3).map classify = [2, 1, 2] ∧
      ∃ r q, upToBar es = r ++ q ∧ q.map classify = [1, 1, 2] := by
    intro ms ds h
    unfold scanStf at h
    simp only [Option.bind_eq_bind, Option.bind_eq_some_iff] at h
    obtain ⟨es, h1, l, h2, body, h3, -⟩ := h
    have a := expect_inv _ _ _ h2
    rw [expectEnd_inv _ _ _ h3] at a
    change (upToBar es).map classify = _ at a
    have a' : (upToBar es).map classify = ([2, 1, 2, 1, 1, 1] ++ body ++ [2, 1]) ++ [1, 1, 2] := by rw [a]; simp
    obtain ⟨c, d, h4, h5, h6⟩ := map_append_inv classify (upToBar es) _ _ a'
    refine ⟨es, h1, ?_, c, d, h4, h6⟩
    have ht : es.take 3 = (upToBar es).take 3 := by
      unfold upToBar at a ⊢
      split
      · have := congrArg List.length a
        rw [if_pos (by assumption)] at this
        simp only [List.length_map, List.length_append, List.length_cons, List.length_nil, List.length_dropLast] at this
        rw [List.dropLast_eq_take, List.take_take, Nat.min_eq_left (by omega)]
      · rfl
    rw [ht, List.map_take, a]
    rfl
  obtain ⟨es, h1, -, r, q, h2, h3⟩ := key ms ds h
  rw [← Option.not_isSome_iff_eq_none, Option.isSome_iff_exists]
  have hq : q.length = 3 := by simpa using congrArg List.length h3
  refine turned_guards (fun l => l.map classify = [2, 1, 2]) 3 q hq ?_ (fun ms => ∃ t, scanStf ms = some t)
    (fun ms ⟨t, h⟩ => by obtain ⟨es, a, b, -⟩ := key ms t h; exact ⟨es, a, b⟩) ms es r h1 h2
  rw [List.map_reverse, h3]
  decide

/-! ## The library's symbols -/

theorem none_of_not {α : Type} (o : Option α) (h : ∀ x, o ≠ some x) : o = none := by
  cases o with
  | none => rfl
  | some x => exact absurd rfl (h x)

/-- C76. Held upside down, an EAN-13, EAN-8, UPC-A or add-on symbol of the library is not read as anything by the scanner for
its kind. -/
theorem C76_retail (b : Build) (s : List Char) (ms : List Nat) :
    (Drawn b .ean13 s ms → scanEan13 (turned ms) = none) ∧
    (Drawn b .ean8 s ms → scanEan8 (turned ms) = none) ∧
    (Drawn b .upca s ms → scanUpca (turned ms) = none) ∧
    (Drawn b .supp s ms → scanAddOn (turned ms) = none) := by
  refine ⟨fun h => ?_, fun h => ?_, fun h => ?_, fun h => ?_⟩
  · obtain ⟨es, h1, -, -, -, h2⟩ := drawn_marks b .ean13 s ms h
    rw [turned_odd ms es h1 (by omega)]
    refine none_of_not _ fun ds hd => ?_
    obtain ⟨t, -, -, y, hy, ey⟩ := (C75_ean13 b _ _).mp hd
    obtain ⟨x, hx, ex⟩ := h
    exact (C34_ean_not_reversed b b s t ms).1 x y hx hy ex ey
  · obtain ⟨es, h1, -, -, -, h2, -⟩ := drawn_marks b .ean8 s ms h
    rw [turned_odd ms es h1 (by omega)]
    refine none_of_not _ fun ds hd => ?_
    obtain ⟨t, -, -, y, hy, ey⟩ := (C75_ean8 b _ _).mp hd
    obtain ⟨x, hx, ex⟩ := h
    exact (C34_ean_not_reversed b b s t ms).2.1 x y hx hy ex ey
  · obtain ⟨es, h1, -, -, -, h2⟩ := drawn_marks b .upca s ms h
    rw [turned_odd ms es h1 (by omega)]
    refine none_of_not _ fun ds hd => ?_
    obtain ⟨t, -, -, y, hy, ey⟩ := (C75_upca b _ _).mp hd
    obtain ⟨x, hx, ex⟩ := h
    exact (C34_ean_not_reversed b b s t ms).2.2 x y hx hy ex ey
  · refine none_of_not _ fun ds hd => ?_
    obtain ⟨x, hx, ex⟩ := h
    obtain ⟨ms', e1, h2⟩ := C12_eansupp_scan b s x hx
    rw [ex, Outcome.ok.injEq] at e1
    subst e1
    unfold scanAddOn at h2
    rw [Option.bind_eq_some_iff] at h2
    obtain ⟨es, h3, h4⟩ := h2
    have ho : es.length % 2 = 1 := by
      obtain ⟨l, f, e, m, rfl, a2, a3, -⟩ := readAddOn_inv es _ h4
      obtain ⟨ws, e1, e2, e3, e4⟩ := readN_inv _ _ _ _ _ _ a2
      have hl := readAllFrom_length 6 (by omega) _ _ _ a3
      have h1 : ws.length = 1 := by
        have := congrArg List.length e3
        simpa [e4] using this
      match ws, h1 with
      | [w], _ =>
        have := e2 w (by simp)
        rw [e1]
        simp only [List.length_append, List.length_cons, List.length_nil, List.flatten_cons, List.flatten_nil]
        omega
    rw [turned_odd ms es h3 ho] at hd
    obtain ⟨t, -, y, hy, ey⟩ := (C75_supp b _ _).mp hd
    exact C34_supp_not_reversed b b s t x y ms hx hy ex ey

example : ∃ ms, Drawn .debug .ean13 "750103131130".toList ms ∧ scanEan13 ms ≠ none ∧ scanEan13 (turned ms) = none :=
  ⟨_, ⟨_, rfl, rfl⟩, by decide +kernel, by decide +kernel⟩

/-- C76. The same for Code 39 (with and without check character), Code 93, Code 11, the two 2 of 5 codes and Code 128 (up to
6489 characters). -/
theorem C76_text (b : Build) (s : List Char) (ms : List Nat) :
    (Drawn b .code39 s ms → scanCode39 (turned ms) = none ∧ scanCode39Checked (turned ms) = none) ∧
    (Drawn b .code93 s ms → scanCode93 (turned ms) = none) ∧
    (Drawn b .code11 s ms → scanCode11 (turned ms) = none) ∧
    (Drawn b .stf s ms → scanStf (turned ms) = none) ∧
    (Drawn b .itf s ms → scanItf (turned ms) = none) ∧
    (s.length ≤ 6489 → Drawn b .code128 s ms → scanCode128 (turned ms) = none) := by
  refine ⟨?_, ?_, ?_, ?_, ?_, ?_⟩
  · rintro ⟨x, hx, ex⟩
    have h : ∃ t, scanCode39 ms = some t := by
      rcases hx with hx | hx
      · obtain ⟨ms', h1, h2⟩ := C14_code39_scan s x hx
        rw [ex, Outcome.ok.injEq] at h1
        exact ⟨_, h1 ▸ h2⟩
      · obtain ⟨ms', h1, h2, -⟩ := C14_code39_checksum_scan s x hx
        rw [ex, Outcome.ok.injEq] at h1
        exact ⟨_, h1 ▸ h2⟩
    obtain ⟨t, ht⟩ := h
    have := turned_code39 ms t ht
    exact ⟨this, by rw [scanCode39Checked, this]; rfl⟩
  · rintro ⟨x, hx, ex⟩
    obtain ⟨ms', h1, h2⟩ := C17_code93_scan s x hx
    rw [ex, Outcome.ok.injEq] at h1
    subst h1
    exact turned_code93 ms _ h2
  · rintro ⟨x, hx, ex⟩
    obtain ⟨ms', h1, h2⟩ := C20_code11_scan s x hx
    rw [ex, Outcome.ok.injEq] at h1
    subst h1
    exact turned_code11 ms _ h2
  · rintro ⟨x, hx, ex⟩
    obtain ⟨ms', h1, h2⟩ := C24_stf_scan s x hx
    rw [ex, Outcome.ok.injEq] at h1
    subst h1
    exact turned_stf ms _ h2
  · rintro ⟨x, hx, ex⟩
    obtain ⟨ms', ds, h1, h2, -⟩ := C25_itf_scan b s x hx
    rw [ex, Outcome.ok.injEq] at h1
    subst h1
    exact turned_itf ms _ h2
  · rintro hl ⟨x, hx, ex⟩
    obtain ⟨ms', h1, h2⟩ := C28_code128_scan_regrouped_partial b s x hx hl
    rw [ex, Outcome.ok.injEq] at h1
    subst h1
    exact turned_code128 ms _ h2

example : ∃ ms, Drawn .debug .upca "01234561234".toList ms ∧ scanUpca ms ≠ none ∧ scanUpca (turned ms) = none :=
  ⟨_, ⟨_, rfl, rfl⟩, by decide, by decide⟩

example : ∃ ms, Drawn .debug .stf "1234".toList ms ∧ scanStf ms ≠ none ∧ turned ms ≠ ms.reverse ∧
    scanStf (turned ms) = none := ⟨_, ⟨_, rfl, rfl⟩, by decide, by decide, by decide⟩

end Barcoders
