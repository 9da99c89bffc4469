import Verif.Spec.EveryReading
import Verif.Props.CodabarFrame
import Verif.Props.Bookland
import Verif.Props.Pieces

/-!
# C101: a reader that knows every symbology
-/

set_option autoImplicit false

namespace Barcoders
open Spec

theorem take_getD (n : Nat) (es p : List Nat) (h : es.take n = p) (i : Nat) (hi : i < n) : es.getD i 0 = p.getD i 0 := by
  rw [← h]
  simp only [List.getD, List.getElem?_take]
  rw [if_pos hi]

theorem end_getD (es r q : List Nat) (h : es = r ++ q) (i : Nat) (hi : i < q.length) :
    es.reverse.getD i 0 = q.reverse.getD i 0 := by
  rw [h, List.reverse_append, getD_append_lt _ _ _ (by rw [List.length_reverse]; exact hi)]

/-- The elements at the two ends, by which symbologies are told apart. -/
def Look : Symbology → List Nat → Prop
  | .ean13, es => es.getD 0 0 = 1 ∧ es.getD 1 0 = 1 ∧ es.getD 2 0 = 1 ∧ es.reverse.getD 0 0 = 1 ∧ es.reverse.getD 1 0 = 1 ∧
      es.reverse.getD 2 0 = 1 ∧ es.length = 59
  | .ean8, es => es.getD 0 0 = 1 ∧ es.getD 1 0 = 1 ∧ es.getD 2 0 = 1 ∧ es.reverse.getD 0 0 = 1 ∧ es.reverse.getD 1 0 = 1 ∧
      es.reverse.getD 2 0 = 1 ∧ es.length = 43
  | .addOn, es => es.getD 0 0 = 1 ∧ es.getD 1 0 = 1 ∧ es.getD 2 0 = 2 ∧
      es.getD 3 0 + es.getD 4 0 + es.getD 5 0 + es.getD 6 0 = 7 ∧
      es.reverse.getD 0 0 + es.reverse.getD 1 0 + es.reverse.getD 2 0 + es.reverse.getD 3 0 = 7
  | .code39, es => es.getD 0 0 = 1 ∧ es.getD 1 0 = 2 ∧ es.getD 2 0 = 1 ∧ es.getD 3 0 = 1 ∧
      es.reverse.getD 0 0 = 1 ∧ es.reverse.getD 1 0 = 1 ∧ es.reverse.getD 2 0 = 2 ∧ es.reverse.getD 3 0 = 1 ∧
      es.reverse.getD 4 0 = 2 ∧ es.reverse.getD 5 0 = 1 ∧ es.reverse.getD 6 0 = 1
  | .code93, es => es.getD 0 0 = 1 ∧ es.getD 1 0 = 1 ∧ es.getD 2 0 = 1 ∧ es.getD 3 0 = 1 ∧ es.getD 4 0 = 4 ∧
      es.reverse.getD 0 0 = 1 ∧ es.reverse.getD 1 0 = 1 ∧ es.reverse.getD 2 0 = 4
  | .code11, es => es.getD 0 0 = 1 ∧ es.getD 1 0 = 1 ∧ es.getD 2 0 = 2 ∧ es.getD 3 0 = 2 ∧ es.getD 4 0 = 1 ∧
      es.reverse.getD 0 0 = 1 ∧ es.reverse.getD 1 0 = 2 ∧ es.reverse.getD 2 0 = 2 ∧ es.reverse.getD 3 0 = 1
  | .codabar, es => es.take 7 ∈ [[1, 1, 2, 2, 1, 2, 1], [1, 2, 1, 2, 1, 1, 2], [1, 1, 1, 2, 1, 2, 2], [1, 1, 1, 2, 2, 2, 1]] ∧
      es.reverse.take 7 ∈ [[1, 2, 1, 2, 2, 1, 1], [2, 1, 1, 2, 1, 2, 1], [2, 2, 1, 2, 1, 1, 1], [1, 2, 2, 2, 1, 1, 1]]
  | .stf, es => 2 ≤ es.getD 0 0 ∧ es.getD 1 0 ≤ 1 ∧ 2 ≤ es.getD 2 0 ∧ es.getD 3 0 ≤ 1 ∧ es.getD 4 0 ≤ 1 ∧ es.getD 5 0 ≤ 1 ∧
      es.reverse.getD 1 0 ≤ 1 ∧ es.reverse.getD 2 0 ≤ 1 ∧ es.reverse.getD 3 0 ≤ 1
  | .itf, es => es.getD 0 0 ≤ 1 ∧ es.getD 1 0 ≤ 1 ∧ es.getD 2 0 ≤ 1 ∧ es.getD 3 0 ≤ 1 ∧ es.reverse.getD 0 0 ≤ 1 ∧
      es.reverse.getD 1 0 ≤ 1 ∧ 2 ≤ es.reverse.getD 2 0 ∧ es.getD 4 0 ≤ 3 ∧ es.reverse.getD 2 0 ≤ 3
  | .code128, es => es.getD 0 0 = 2 ∧ es.getD 1 0 = 1 ∧ es.getD 2 0 = 1 ∧ es.getD 3 0 + es.getD 4 0 + es.getD 5 0 = 7 ∧
      es.reverse.getD 0 0 = 2 ∧ es.reverse.getD 1 0 = 1 ∧ es.reverse.getD 2 0 = 1 ∧ es.reverse.getD 3 0 = 1

/-- The first seven elements of a Codabar symbol, one by one. -/
def LookCodabar (es : List Nat) : Prop :=
  es.getD 0 0 = 1 ∧ ((es.getD 1 0 = 1 ∧ es.getD 2 0 = 2 ∧ es.getD 3 0 = 2 ∧ es.getD 4 0 = 1 ∧ es.getD 5 0 = 2 ∧ es.getD 6 0 = 1) ∨
    (es.getD 1 0 = 2 ∧ es.getD 2 0 = 1 ∧ es.getD 3 0 = 2 ∧ es.getD 4 0 = 1 ∧ es.getD 5 0 = 1 ∧ es.getD 6 0 = 2) ∨
    (es.getD 1 0 = 1 ∧ es.getD 2 0 = 1 ∧ es.getD 3 0 = 2 ∧ es.getD 4 0 = 1 ∧ es.getD 5 0 = 2 ∧ es.getD 6 0 = 2) ∨
    (es.getD 1 0 = 1 ∧ es.getD 2 0 = 1 ∧ es.getD 3 0 = 2 ∧ es.getD 4 0 = 2 ∧ es.getD 5 0 = 2 ∧ es.getD 6 0 = 1)) ∧
  ((es.reverse.getD 0 0 = 1 ∧ es.reverse.getD 1 0 = 2 ∧ es.reverse.getD 2 0 = 1 ∧ es.reverse.getD 3 0 = 2 ∧
      es.reverse.getD 4 0 = 2 ∧ es.reverse.getD 5 0 = 1) ∨
    (es.reverse.getD 0 0 = 2 ∧ es.reverse.getD 1 0 = 1 ∧ es.reverse.getD 2 0 = 1 ∧ es.reverse.getD 3 0 = 2 ∧
      es.reverse.getD 4 0 = 1 ∧ es.reverse.getD 5 0 = 2) ∨
    (es.reverse.getD 0 0 = 2 ∧ es.reverse.getD 1 0 = 2 ∧ es.reverse.getD 2 0 = 1 ∧ es.reverse.getD 3 0 = 2 ∧
      es.reverse.getD 4 0 = 1 ∧ es.reverse.getD 5 0 = 1) ∨
    (es.reverse.getD 0 0 = 1 ∧ es.reverse.getD 1 0 = 2 ∧ es.reverse.getD 2 0 = 2 ∧ es.reverse.getD 3 0 = 2 ∧
      es.reverse.getD 4 0 = 1 ∧ es.reverse.getD 5 0 = 1))

theorem lookCodabar_of (es : List Nat) (h : Look .codabar es) : LookCodabar es := by
  obtain ⟨h1, h2⟩ := h
  simp only [List.mem_cons, List.not_mem_nil, or_false] at h1 h2
  have f := fun p (h : es.take 7 = p) => And.intro (take_getD 7 es p h 0 (by omega)) <| And.intro (take_getD 7 es p h 1 (by omega)) <|
    And.intro (take_getD 7 es p h 2 (by omega)) <| And.intro (take_getD 7 es p h 3 (by omega)) <|
    And.intro (take_getD 7 es p h 4 (by omega)) <| And.intro (take_getD 7 es p h 5 (by omega)) (take_getD 7 es p h 6 (by omega))
  have g := fun p (h : es.reverse.take 7 = p) => And.intro (take_getD 7 es.reverse p h 0 (by omega)) <|
    And.intro (take_getD 7 es.reverse p h 1 (by omega)) <|
    And.intro (take_getD 7 es.reverse p h 2 (by omega)) <| And.intro (take_getD 7 es.reverse p h 3 (by omega)) <|
    And.intro (take_getD 7 es.reverse p h 4 (by omega)) (take_getD 7 es.reverse p h 5 (by omega))
  refine ⟨?_, ?_, ?_⟩
  · rcases h1 with h | h | h | h <;> exact (f _ h).1
  · rcases h1 with h | h | h | h
    · exact Or.inl (f _ h).2
    · exact Or.inr (Or.inl (f _ h).2)
    · exact Or.inr (Or.inr (Or.inl (f _ h).2))
    · exact Or.inr (Or.inr (Or.inr (f _ h).2))
  · rcases h2 with h | h | h | h
    · exact Or.inl (g _ h)
    · exact Or.inr (Or.inl (g _ h))
    · exact Or.inr (Or.inr (Or.inl (g _ h)))
    · exact Or.inr (Or.inr (Or.inr (g _ h)))

/-- The same, with Codabar spelled out. -/
def LookAt (y : Symbology) (es : List Nat) : Prop := if y = .codabar then LookCodabar es else Look y es

theorem lookAt_of (y : Symbology) (es : List Nat) (h : Look y es) : LookAt y es := by
  cases y <;> first | exact lookCodabar_of es h | exact h

/-- The ends of a row tell the symbology. -/
theorem look_unique (y y' : Symbology) (es : List Nat) (h : Look y es) (h' : Look y' es) : y = y' := by
  have a := lookAt_of y es h
  have a' := lookAt_of y' es h'
  clear h h'
  cases y <;> cases y' <;> first
    | rfl
    | (exfalso; simp only [LookAt, reduceCtorEq, if_true, if_false, Look, LookCodabar] at a a'; omega)

/-- Also when seen from the other end. -/
theorem look_turned (y y' : Symbology) (es : List Nat) (h : Look y es) (h' : Look y' es.reverse) : y = y' := by
  have a := lookAt_of y es h
  have a' := lookAt_of y' _ h'
  clear h h'
  cases y <;> cases y' <;> first
    | rfl
    | (exfalso; simp only [LookAt, reduceCtorEq, if_true, if_false, Look, LookCodabar, List.reverse_reverse,
        List.length_reverse] at a a'; omega)

theorem halves_look (l r : List Nat) :
    (halvesWidths l r).getD 0 0 = 1 ∧ (halvesWidths l r).getD 1 0 = 1 ∧ (halvesWidths l r).getD 2 0 = 1 ∧
    (halvesWidths l r).reverse.getD 0 0 = 1 ∧ (halvesWidths l r).reverse.getD 1 0 = 1 ∧
    (halvesWidths l r).reverse.getD 2 0 = 1 := by
  have e : (halvesWidths l r).reverse = halvesWidths r.reverse l.reverse := by simp [halvesWidths]
  rw [e]
  exact ⟨rfl, rfl, rfl, rfl, rfl, rfl⟩

/-- First and last character of a Codabar reading. -/
theorem codabar_letter (w : List Nat) (c : Char) (hc : c ∈ codabarLetters) (h : readCodabarChar w = some c) :
    w.take 7 ∈ [[1, 1, 2, 2, 1, 2, 1], [1, 2, 1, 2, 1, 1, 2], [1, 1, 1, 2, 1, 2, 2], [1, 1, 1, 2, 2, 2, 1]] ∧
    w = w.take 7 ++ [1] := by
  unfold readCodabarChar at h
  split at h
  · next hd =>
    refine ⟨?_, by rw [← hd, List.take_append_drop]⟩
    rw [Option.map_eq_some_iff] at h
    obtain ⟨p, hp, rfl⟩ := h
    have h1 := List.mem_of_find?_eq_some hp
    have h2 := List.find?_some hp
    have h3 : p.2 = w.take 7 := by simpa using h2
    rw [← h3]
    have key : ∀ p ∈ codabarChart, p.1 ∈ codabarLetters →
        p.2 ∈ [[1, 1, 2, 2, 1, 2, 1], [1, 2, 1, 2, 1, 1, 2], [1, 1, 1, 2, 1, 2, 2], [1, 1, 1, 2, 2, 2, 1]] := by
      decide +kernel
    exact key p h1 hc
  · cases h

theorem codabar_look (ms : List Nat) (t : List Char) (h : scanCodabarData ms = some t) (es : List Nat)
    (he : elements ms = some es) : Look .codabar es := by
  unfold scanCodabarData scanCodabar at h
  rw [he] at h
  simp only [Option.bind_eq_bind, Option.bind_some, Option.bind_eq_some_iff] at h
  obtain ⟨u, h1, h2⟩ := h
  unfold codabarData at h2
  cases u with
  | nil => cases h2
  | cons a rest =>
    rcases List.eq_nil_or_concat rest with rfl | ⟨d, z, rfl⟩
    · cases h2
    · rw [List.concat_eq_append] at h1 h2
      simp only [List.getLast?_concat] at h2
      split at h2
      · next hc =>
        rw [← List.cons_append] at h1
        obtain ⟨w, r, r', v, e1, e2, e3, e4, e5, e6⟩ := readAll_ends 8 (by omega) _ _ _ _ _ h1
        obtain ⟨m1, n1⟩ := codabar_letter w a hc.1 e5
        obtain ⟨m2, n2⟩ := codabar_letter v z hc.2.1 e6
        have e7 : es = r' ++ v.take 7 := by
          rw [n2, ← List.append_assoc] at e2
          exact append_one_inj _ _ e2
        have h7 : (v.take 7).length = 7 := by rw [List.length_take, e4]; rfl
        constructor
        · have : es.take 7 = w.take 7 := by
            have := congrArg (List.take 7) e1
            rwa [List.take_append_of_le_length (by rw [e7, List.length_append]; omega),
              List.take_append_of_le_length (by omega)] at this
          rw [this]
          exact m1
        · rw [e7, List.reverse_append, List.take_left' (by rw [List.length_reverse, h7])]
          revert m2
          generalize v.take 7 = u
          intro m2
          simp only [List.mem_cons, List.not_mem_nil, or_false] at m2
          rcases m2 with rfl | rfl | rfl | rfl <;> decide
      · cases h2

theorem classify_le (w : Nat) : (classify w = 1 → w ≤ 1) ∧ (classify w = 2 → 2 ≤ w) := by
  unfold classify
  split <;> omega

theorem classify_narrow (w : Nat) (h : classify w = 1) : w ≤ 1 := (classify_le w).1 h

theorem classify_wide (w : Nat) (h : classify w = 2) : 2 ≤ w := (classify_le w).2 h

theorem getD_map_classify (es : List Nat) (i : Nat) (hi : i < es.length) :
    classify (es.getD i 0) = (es.map classify).getD i 0 := by
  simp [List.getD, hi]

theorem seen (y : Symbology) (ms : List Nat) (t : List Char) (h : scanAs y ms = some t) (es : List Nat)
    (he : elements ms = some es) (ho : es.length % 2 = 1) : Look y es := by
  have hu := upToBar_of_odd es ho
  cases y with
  | ean13 =>
    obtain ⟨ds, h, -⟩ := Option.map_eq_some_iff.mp h
    obtain ⟨s, -, -, x, hx, ex⟩ := (C75_ean13 .debug ms ds).mp h
    obtain ⟨es', he', -, -, -, h59⟩ := drawn_marks .debug .ean13 s ms ⟨x, hx, ex⟩
    rw [he, Option.some.injEq] at he'
    subst he'
    obtain ⟨d0, ls, rs, h0, hls, hrs, ll, lr, -, e⟩ := ean13_symbol .debug s x hx
    rw [e, Outcome.ok.injEq] at ex
    subst ex
    rw [elements_paint _ (fun w hw => (ean13Widths_pos d0 ls rs hls hrs w hw).1) (halves_ne_nil _ _), Option.some.injEq] at he
    subst he
    obtain ⟨a1, a2, a3, a4, a5, a6⟩ := halves_look (((setsOf d0).zip ls).flatMap wAB) (rs.flatMap wA)
    exact ⟨a1, a2, a3, a4, a5, a6, h59⟩
  | ean8 =>
    obtain ⟨ds, h, -⟩ := Option.map_eq_some_iff.mp h
    obtain ⟨s, -, -, x, hx, ex⟩ := (C75_ean8 .debug ms ds).mp h
    obtain ⟨es', he', -, -, -, h43, -⟩ := drawn_marks .debug .ean8 s ms ⟨x, hx, ex⟩
    rw [he, Option.some.injEq] at he'
    subst he'
    obtain ⟨ls, rs, hls, hrs, ll, lr, -, e⟩ := ean8_symbol .debug s x hx
    rw [e, Outcome.ok.injEq] at ex
    subst ex
    rw [elements_paint _ (fun w hw => (halves_pos _ _ (flatMap_wA_pos _ hls) (flatMap_wA_pos _ hrs) w hw).1)
      (halves_ne_nil _ _), Option.some.injEq] at he
    subst he
    obtain ⟨a1, a2, a3, a4, a5, a6⟩ := halves_look (ls.flatMap wA) (rs.flatMap wA)
    exact ⟨a1, a2, a3, a4, a5, a6, h43⟩
  | addOn =>
    obtain ⟨ds, h, -⟩ := Option.map_eq_some_iff.mp h
    obtain ⟨s, -, x, hx, ex⟩ := (C75_supp .debug ms ds).mp h
    obtain ⟨es', he', m1, m2, m3, m4⟩ := drawn_marks .debug .supp s ms ⟨x, hx, ex⟩
    rw [he, Option.some.injEq] at he'
    subst he'
    refine ⟨m1, m2, m3, m4, ?_⟩
    obtain ⟨ws, e, hl, hd, -, -, h25⟩ := supp_symbol s x hx
    rw [e, Outcome.ok.injEq] at ex
    subst ex
    obtain ⟨p, ps, rfl⟩ := List.exists_cons_of_ne_nil (l := ws) (by rintro rfl; simp at hl; omega)
    rw [elements_paint _ (fun w hw => (suppWidths_pos _ hd w hw).1) (by simp [suppWidths]), Option.some.injEq] at he
    rcases List.eq_nil_or_concat ps with rfl | ⟨qs, ⟨q, d⟩, rfl⟩
    · simp at hl; omega
    · rw [List.concat_eq_append] at he hd
      have hq : ∀ d < 10, ∀ q, (wAB (q, d)).length = 4 ∧ (wAB (q, d)).reverse.getD 0 0 + (wAB (q, d)).reverse.getD 1 0 +
          (wAB (q, d)).reverse.getD 2 0 + (wAB (q, d)).reverse.getD 3 0 = 7 := by decide
      obtain ⟨hq1, hq2⟩ := hq d (hd (q, d) (by simp)) q
      have hes : es = ([1, 1, 2] ++ (wAB p ++ (qs.flatMap (fun q => [1, 1] ++ wAB q) ++ [1, 1]))) ++ wAB (q, d) := by
        rw [← he, suppWidths, List.flatMap_append]
        simp
      rw [end_getD _ _ _ hes 0 (by omega), end_getD _ _ _ hes 1 (by omega), end_getD _ _ _ hes 2 (by omega),
        end_getD _ _ _ hes 3 (by omega)]
      exact hq2
  | code39 =>
    obtain ⟨es', h1, h2, -⟩ := scanCode39_inv ms t h
    rw [he, Option.some.injEq] at h1
    subst h1
    obtain ⟨h3, r, h4⟩ := star_ends 9 rfl readCode39Char _ rfl code39_star es t h2
    rw [hu] at h4
    exact ⟨take_getD _ _ _ h3 0 (by omega), take_getD _ _ _ h3 1 (by omega), take_getD _ _ _ h3 2 (by omega),
      take_getD _ _ _ h3 3 (by omega), end_getD _ _ _ h4 0 (by decide), end_getD _ _ _ h4 1 (by decide),
      end_getD _ _ _ h4 2 (by decide), end_getD _ _ _ h4 3 (by decide), end_getD _ _ _ h4 4 (by decide),
      end_getD _ _ _ h4 5 (by decide), end_getD _ _ _ h4 6 (by decide)⟩
  | code93 =>
    obtain ⟨body, h1, h2, -⟩ := scanCode93_inv ms t h
    obtain ⟨w, r, r', v, e1, e2, e3, e4, e5, e6⟩ := readAll_ends 6 (by omega) _ _ _ _ _ h2
    rw [he, Option.some.injEq] at h1
    rw [code93_star w e5] at e1
    rw [code93_star v e6] at e2
    have h3 : es.take 6 = [1, 1, 1, 1, 4, 1] := by rw [h1, e1]; rfl
    have h4 : es = r' ++ [1, 1, 1, 1, 4, 1, 1] := by rw [h1, e2]; simp
    exact ⟨take_getD _ _ _ h3 0 (by omega), take_getD _ _ _ h3 1 (by omega), take_getD _ _ _ h3 2 (by omega),
      take_getD _ _ _ h3 3 (by omega), take_getD _ _ _ h3 4 (by omega), end_getD _ _ _ h4 0 (by decide),
      end_getD _ _ _ h4 1 (by decide), end_getD _ _ _ h4 2 (by decide)⟩
  | code11 =>
    obtain ⟨es', h1, h2, -⟩ := scanCode11_inv ms t h
    rw [he, Option.some.injEq] at h1
    subst h1
    obtain ⟨h3, r, h4⟩ := star_ends 5 rfl readCode11Char _ rfl code11_star es _ h2
    rw [hu] at h4
    exact ⟨take_getD _ _ _ h3 0 (by omega), take_getD _ _ _ h3 1 (by omega), take_getD _ _ _ h3 2 (by omega),
      take_getD _ _ _ h3 3 (by omega), take_getD _ _ _ h3 4 (by omega), end_getD _ _ _ h4 0 (by decide),
      end_getD _ _ _ h4 1 (by decide), end_getD _ _ _ h4 2 (by decide), end_getD _ _ _ h4 3 (by decide)⟩
  | codabar => exact codabar_look ms t h es he
  | stf =>
    obtain ⟨ds, h, -⟩ := Option.map_eq_some_iff.mp h
    unfold scanStf at h
    simp only [Option.bind_eq_bind, Option.bind_eq_some_iff] at h
    obtain ⟨es', h1, l, h2, body, h3, -⟩ := h
    rw [he, Option.some.injEq] at h1
    subst h1
    rw [if_neg (by omega)] at h2
    have a := expect_inv _ _ _ h2
    rw [expectEnd_inv _ _ _ h3] at a
    have hl := congrArg List.length a
    simp only [List.length_map, List.length_append, List.length_cons, List.length_nil] at hl
    have f : ∀ i, i < 11 → classify (es.getD i 0) = ([2, 1, 2, 1, 1, 1] ++ (body ++ [2, 1, 1, 1, 2])).getD i 0 := by
      intro i hi
      rw [getD_map_classify es i (by omega), a]
    have g : ∀ i, i < 11 → classify (es.reverse.getD i 0) = ([2, 1, 1, 1, 2] ++ (body.reverse ++ [1, 1, 1, 2, 1, 2])).getD i 0 := by
      intro i hi
      rw [getD_map_classify es.reverse i (by rw [List.length_reverse]; omega), List.map_reverse, a]
      simp
    exact ⟨classify_wide _ (f 0 (by omega)), classify_narrow _ (f 1 (by omega)), classify_wide _ (f 2 (by omega)),
      classify_narrow _ (f 3 (by omega)), classify_narrow _ (f 4 (by omega)), classify_narrow _ (f 5 (by omega)),
      classify_narrow _ (g 1 (by omega)), classify_narrow _ (g 2 (by omega)), classify_narrow _ (g 3 (by omega))⟩
  | itf =>
    obtain ⟨ds, h, -⟩ := Option.map_eq_some_iff.mp h
    unfold scanItfNarrow at h
    rw [he, Option.bind_some] at h
    split at h
    · next hw =>
      obtain ⟨es', body, ps, h1, a, -⟩ := scanItf_inv ms ds h
      rw [he, Option.some.injEq] at h1
      subst h1
      have hl := congrArg List.length a
      simp only [List.length_map, List.length_append, List.length_cons, List.length_nil] at hl
      have le : ∀ i (l : List Nat), (∀ w ∈ l, w ≤ 3) → l.getD i 0 ≤ 3 := by
        intro i l hl
        rw [List.getD]
        cases hg : l[i]? with
        | none => simp
        | some w => exact hl w (List.mem_of_getElem? hg)
      have f : ∀ i, i < 7 → classify (es.getD i 0) = ([1, 1, 1, 1] ++ body ++ [2, 1, 1]).getD i 0 := by
        intro i hi
        rw [getD_map_classify es i (by omega), a]
      have g : ∀ i, i < 7 → classify (es.reverse.getD i 0) = ([1, 1, 2] ++ (body.reverse ++ [1, 1, 1, 1])).getD i 0 := by
        intro i hi
        rw [getD_map_classify es.reverse i (by rw [List.length_reverse]; omega), List.map_reverse, a]
        simp
      exact ⟨classify_narrow _ (f 0 (by omega)), classify_narrow _ (f 1 (by omega)), classify_narrow _ (f 2 (by omega)),
        classify_narrow _ (f 3 (by omega)), classify_narrow _ (g 0 (by omega)), classify_narrow _ (g 1 (by omega)),
        classify_wide _ (g 2 (by omega)), le 4 es hw, le 2 es.reverse (fun w h => hw w (List.mem_reverse.mp h))⟩
    · cases h
  | code128 =>
    obtain ⟨es', set, data, -, h1, h2, -⟩ := scanCode128_inv ms t h
    obtain ⟨w, r, r', v, e1, e2, e3, e4, e5, e6⟩ := readAll_ends 6 (by omega) _ _ _ _ _ h2
    rw [he, Option.some.injEq] at h1
    have hw : w ∈ [[2, 1, 1, 4, 1, 2], [2, 1, 1, 2, 1, 4], [2, 1, 1, 2, 3, 2]] := by
      cases set
      · rw [idxOf_inj code128Chart w [2, 1, 1, 4, 1, 2] _ e5 (by decide +kernel)]; simp
      · rw [idxOf_inj code128Chart w [2, 1, 1, 2, 1, 4] _ e5 (by decide +kernel)]; simp
      · rw [idxOf_inj code128Chart w [2, 1, 1, 2, 3, 2] _ e5 (by decide +kernel)]; simp
    have h3 : es.take 6 = w := by rw [h1, e1, List.append_assoc, List.take_left' e3]
    have h4 : es = es' ++ [2, 3, 3, 1, 1, 1, 2] := h1
    refine ⟨?_, ?_, ?_, ?_, end_getD _ _ _ h4 0 (by decide), end_getD _ _ _ h4 1 (by decide),
      end_getD _ _ _ h4 2 (by decide), end_getD _ _ _ h4 3 (by decide)⟩
    · rw [take_getD _ _ _ h3 0 (by omega)]
      simp only [List.mem_cons, List.not_mem_nil, or_false] at hw
      rcases hw with rfl | rfl | rfl <;> rfl
    · rw [take_getD _ _ _ h3 1 (by omega)]
      simp only [List.mem_cons, List.not_mem_nil, or_false] at hw
      rcases hw with rfl | rfl | rfl <;> rfl
    · rw [take_getD _ _ _ h3 2 (by omega)]
      simp only [List.mem_cons, List.not_mem_nil, or_false] at hw
      rcases hw with rfl | rfl | rfl <;> rfl
    · rw [take_getD _ _ _ h3 3 (by omega), take_getD _ _ _ h3 4 (by omega), take_getD _ _ _ h3 5 (by omega)]
      simp only [List.mem_cons, List.not_mem_nil, or_false] at hw
      rcases hw with rfl | rfl | rfl <;> rfl


/-- What any scanner is given, from both ends of the line. -/
theorem readLine_both {α : Type} (scan : List Nat → Option α) (us : List Nat) (k : Nat) (ho : us.length % 2 = 1)
    (hp : ∀ w ∈ us, 0 < w) (h1 : 1 ∈ us) (q x r : Nat) (hx : 0 < x) :
    readLine scan (onPaper q x r (paint us ++ List.replicate k 0)) = scan (paint us) ∧
    readLine scan (onPaper q x r (paint us ++ List.replicate k 0)).reverse = scan (paint us.reverse) := by
  have hne : us ≠ [] := by intro h; rw [h] at ho; simp at ho
  have hp' : ∀ w ∈ us.reverse, 0 < w := fun w hw => hp w (List.mem_reverse.mp hw)
  obtain ⟨c, hc⟩ := paint_head us hne hp
  obtain ⟨d, hd⟩ := paint_head us.reverse (by simpa using hne) hp'
  obtain ⟨c', hc'⟩ := stretch_head x hx _ c hc
  obtain ⟨d', hd'⟩ := stretch_head x hx _ d hd
  have hrev : (paint us).reverse = paint us.reverse := paint_reverse_odd us ho
  have hline : onPaper q x r (paint us ++ List.replicate k 0) =
      List.replicate q 0 ++ stretch x (paint us) ++ List.replicate (k * x + r) 0 := by
    rw [onPaper, stretch_append, stretch_zeros, List.append_assoc, List.append_assoc, List.append_assoc,
      List.replicate_append_replicate]
  have hrevl : (onPaper q x r (paint us ++ List.replicate k 0)).reverse =
      List.replicate (k * x + r) 0 ++ stretch x (paint us.reverse) ++ List.replicate q 0 := by
    rw [hline, List.reverse_append, List.reverse_append, stretch_reverse, hrev, List.reverse_replicate,
      List.reverse_replicate, List.append_assoc]
  constructor
  · rw [readLine, hline, strip_core q _ _ c' d' hc' (by rw [stretch_reverse, hrev, hd']), measure_stretch x hx us hp h1,
      Option.bind_some]
  · rw [readLine, hrevl, strip_core _ q _ d' c' hd' (by
      rw [stretch_reverse, ← hrev, List.reverse_reverse, hc']), measure_stretch x hx us.reverse hp'
        (List.mem_reverse.mpr h1), Option.bind_some]

theorem only_member (y : Symbology) (t : List Char) (f g : Symbology → Option (List Char))
    (h1 : ∀ y', (f y').toList ++ (g y').toList = if y' = y then [t] else []) :
    allSymbologies.flatMap (fun y' => ((f y').toList ++ (g y').toList).map (fun t => (y', t))) = [(y, t)] := by
  simp only [h1]
  cases y <;> rfl

/-- A row that its own scanner reads in one direction only is read by no other scanner. -/
theorem only_of {ms : List Nat} {y : Symbology} {t : List Char} (h : HasCore (scanAs y) ms t) : OnlyReading ms y t := by
  obtain ⟨us, k, rfl, ho, hp, hb, -, hs, hn⟩ := h
  have h1 : 1 ∈ us := by
    have := List.mem_map_of_mem (f := Prod.snd) hb
    rwa [colours_snd] at this
  have hne : us ≠ [] := by intro h; rw [h] at ho; simp at ho
  have hrev : (paint us).reverse = paint us.reverse := paint_reverse_odd us ho
  have hel := elements_paint us hp hne
  have hel' := elements_paint us.reverse (fun w hw => hp w (List.mem_reverse.mp hw)) (by simpa using hne)
  have look := seen y _ t hs us hel ho
  have f : ∀ y', scanAs y' (paint us) = if y' = y then some t else none := by
    intro y'
    split
    · next e => rw [e, hs]
    · next e =>
      refine none_of_not _ fun t' h' => e ?_
      exact (look_unique y y' us look (seen y' _ t' h' us hel ho)).symm
  have g : ∀ y', scanAs y' (paint us.reverse) = none := by
    intro y'
    by_cases e : y' = y
    · rw [e, ← hrev, hn]
    · refine none_of_not _ fun t' h' => e ?_
      exact (look_turned y y' us look (seen y' _ t' h' us.reverse hel' (by rw [List.length_reverse]; exact ho))).symm
  intro q x r hx
  have hr := fun y' => readLine_both (scanAs y') us k ho hp h1 q x r hx
  constructor
  · refine only_member y t _ _ (fun y' => ?_)
    rw [(hr y').1, (hr y').2, f, g]
    split <;> rfl
  · refine only_member y t _ _ (fun y' => ?_)
    rw [List.reverse_reverse, (hr y').1, (hr y').2, f, g]
    split <;> rfl

theorem core_map {α β : Type} {scan : List Nat → Option α} {ms : List Nat} {t : α} (f : α → β) (h : HasCore scan ms t) :
    HasCore (fun ms => (scan ms).map f) ms (f t) := by
  obtain ⟨us, k, h1, h2, h3, h4, h5, h6, h7⟩ := h
  exact ⟨us, k, h1, h2, h3, h4, h5, by rw [h6]; rfl, by rw [h7]; rfl⟩

theorem core_scan {α : Type} {scan scan' : List Nat → Option α} {ms : List Nat} {t : α} (h : HasCore scan ms t)
    (he : ∀ us, (∀ w ∈ us, 0 < w) → us.length % 2 = 1 → scan' (paint us) = scan (paint us)) : HasCore scan' ms t := by
  obtain ⟨us, k, h1, h2, h3, h4, h5, h6, h7⟩ := h
  refine ⟨us, k, h1, h2, h3, h4, h5, by rw [he us h3 h2, h6], ?_⟩
  rw [paint_reverse_odd us h2] at h7 ⊢
  rw [he us.reverse (fun w hw => h3 w (List.mem_reverse.mp hw)) (by rw [List.length_reverse]; exact h2), h7]

theorem inDigits_append (a b : List Nat) : inDigits (a ++ b) = inDigits a ++ inDigits b := by simp [inDigits]

theorem inDigits_digits (s : List Char) (h : AllDigits s) (n : Nat) : inDigits ((digitsOf s).take n) = s.take n := by
  rw [digitsOf_take, inDigits]
  exact digitsOf_back _ (allDigits_take n s h)

theorem inDigits_all (s : List Char) (h : AllDigits s) : inDigits (digitsOf s) = s := digitsOf_back s h


/-- C101. Retail symbols: nothing but the number is read, and a UPC-A symbol is an EAN-13 number with a leading zero. -/
theorem C101_retail (b : Build) (s : List Char) (ms : List Nat) :
    (Drawn b .ean13 s ms → OnlyReading ms .ean13 (s.take 12 ++ inDigits [gs1Digit ((digitsOf s).take 12)])) ∧
    (Drawn b .ean8 s ms → OnlyReading ms .ean8 (s.take 7 ++ inDigits [gs1Digit ((digitsOf s).take 7)])) ∧
    (Drawn b .upca s ms → OnlyReading ms .ean13 ('0' :: s.take 11 ++ inDigits [gs1Digit ((digitsOf s).take 11)])) ∧
    (Drawn b .supp s ms → OnlyReading ms .addOn s) := by
  obtain ⟨h1, h2, -, h4⟩ := core_retail b s ms
  refine ⟨fun h => ?_, fun h => ?_, fun h => ?_, fun h => ?_⟩
  · have c := core_map inDigits (h1 h)
    obtain ⟨x, hx, -⟩ := h
    rw [inDigits_append, inDigits_digits s (ean13_digits b s x hx)] at c
    exact only_of c
  · have c := core_map inDigits (h2 h)
    obtain ⟨x, hx, -⟩ := h
    rw [inDigits_append, inDigits_digits s (ean8_digits b s x hx)] at c
    exact only_of c
  · have hd := h
    obtain ⟨x, hx, ex⟩ := h
    have hD := upca_digits b s x hx
    have hlast := ((C32_ean_rows b b s ms).2.2 x hx ex).last
    rw [upca_new] at hx
    obtain ⟨rfl, -, -, hl, -⟩ := decision_ok Upca.UPCA.mk 11 s x hx
    have hd' := digits_take _ 11 (digits_lt s hD)
    rw [upca_symbol_eq b _ hl hd'] at ex
    obtain ⟨m, e1, r1⟩ := ean13_encode_scan b (0 :: (digitsOf s).take 11) (by simp [hl]) (digits_append (digits_single (by omega)) hd')
    rw [ex, Outcome.ok.injEq] at e1
    subst e1
    obtain ⟨s', -, -, dr⟩ := (C75_ean13 b ms _).mp r1
    have c := core_map inDigits (core_row b .upca s ms hd hlast scanEan13 _ r1 ((C76_retail b s' ms).1 dr))
    rw [gs1Digit_zero_cons, inDigits_append, show inDigits (0 :: (digitsOf s).take 11) = '0' :: inDigits ((digitsOf s).take 11) from rfl,
      inDigits_digits s hD] at c
    exact only_of c
  · have c := core_map inDigits (h4 h)
    obtain ⟨x, hx, -⟩ := h
    obtain ⟨-, -, -, -, -, hD, -⟩ := supp_symbol s x hx
    rw [inDigits_all s hD] at c
    exact only_of c

example : ∃ ms, Drawn .debug .ean8 "5512345".toList ms ∧ OnlyReading ms .ean8 "55123457".toList :=
  ⟨_, ⟨_, rfl, rfl⟩, (C101_retail .debug "5512345".toList _).2.1 ⟨_, rfl, rfl⟩⟩

/-- C101. Code 39 (a check character is text to a reader that does not ask for it), Code 93, Code 11, Code 128 up to 6489
characters. -/
theorem C101_text (b : Build) (s : List Char) (ms : List Nat) :
    (∀ x, Code39.new s = .ok x → Code39.encode x = .ok ms → OnlyReading ms .code39 s) ∧
    (∀ x, Code39.withChecksum s = .ok x → Code39.encode x = .ok ms → OnlyReading ms .code39 (s ++ [code39Check s])) ∧
    (Drawn b .code93 s ms → OnlyReading ms .code93 s) ∧
    (Drawn b .code11 s ms → OnlyReading ms .code11 s) ∧
    (s.length ≤ 6489 → Drawn b .code128 s ms → OnlyReading ms .code128 (code128Regroup s)) := by
  obtain ⟨h1, -, h3, h4, h5⟩ := core_text b s ms
  refine ⟨fun x hx e => only_of (h1 x hx e), fun x hx e => ?_, fun h => only_of (h3 h), fun h => only_of (h4 h),
    fun hl h => only_of (h5 hl h).1⟩
  have hd : Drawn b .code39 s ms := ⟨x, Or.inr hx, e⟩
  obtain ⟨ms', e', hs, -⟩ := C14_code39_checksum_scan s x hx
  rw [e, Outcome.ok.injEq] at e'
  subst e'
  exact only_of (core_row b .code39 s ms hd ((C32_code39_row s x ms e).2 hx).last scanCode39 _ hs ((C76_text b s ms).1 hd).1)

example : ∃ ms, Drawn .debug .code93 "A1".toList ms ∧ OnlyReading ms .code93 "A1".toList :=
  ⟨_, ⟨_, rfl, rfl⟩, (C101_text .debug "A1".toList _).2.2.1 ⟨_, rfl, rfl⟩⟩

/-- C101. Codabar data between start and stop letters, without `+`. -/
theorem C101_codabar (b : Build) (a z : Char) (d : List Char) (ms : List Nat) (ha : a ∈ codabarLetters)
    (hz : z ∈ codabarLetters) (hd : ∀ c ∈ d, c ∉ codabarLetters) (hp : '+' ∉ d) (h : Drawn b .codabar (a :: d ++ [z]) ms) :
    OnlyReading ms .codabar d := only_of (core_codabar_data b a z d ms ha hz hd hp h)

example : ∃ ms, Drawn .debug .codabar ('A' :: "40-1".toList ++ ['D']) ms ∧ OnlyReading ms .codabar "40-1".toList :=
  ⟨_, ⟨_, rfl, rfl⟩, C101_codabar .debug 'A' 'D' "40-1".toList _ (by decide) (by decide) (by decide) (by decide) ⟨_, rfl, rfl⟩⟩

theorem itf_padded (b : Build) (s : List Char) (x : TF.TF) (hx : TF.interleaved b s = .ok x) (ho : s.length % 2 = 1) :
    x = .Interleaved (digitsOf s ++ [(10 - altSum 3 (digitsOf s).reverse % 256 % 10) % 10]) := by
  rw [itf_new] at hx
  split at hx
  · cases hx
  · split at hx
    · cases hx
    · rw [if_neg (by omega)] at hx
      by_cases h : altSum 3 (digitsOf s).reverse < 256
      · rw [if_pos h] at hx
        cases hx
        rw [gs1Digit, Nat.mod_eq_of_lt h]
      · rw [if_neg h] at hx
        cases b <;> cases hx
        rfl

/-- C101. The 2 of 5 codes. -/
theorem C101_two_of_five (b : Build) (s : List Char) (ms : List Nat) :
    (Drawn b .stf s ms → OnlyReading ms .stf s) ∧
    (Drawn b .itf s ms → ∃ t, OnlyReading ms .itf t ∧
      ((s.length % 2 = 0 ∧ t = s) ∨
        (s.length % 2 = 1 ∧ t = s ++ inDigits [(10 - altSum 3 (digitsOf s).reverse % 256 % 10) % 10]))) := by
  refine ⟨fun h => ?_, fun h => ?_⟩
  · have c := core_map inDigits ((core_two_of_five b s ms).1 h)
    obtain ⟨x, hx, -⟩ := h
    rw [inDigits_all s (stf_symbol s x hx).1] at c
    exact only_of c
  · have hd := h
    have ht := (C76_text b s ms).2.2.2.2.1 h
    obtain ⟨x, hx, ex⟩ := h
    have hlast := (C32_itf_row b s x ms hx ex).last
    obtain ⟨ds, dd, hev, -, hD, hc, e⟩ := itf_symbol b s x hx
    rw [ex, Outcome.ok.injEq] at e
    subst e
    have hs : scanItfNarrow (paint (itfWidths ds)) = some ds := by
      rw [scanItfNarrow, elements_paint _ (fun w hw => (itf_pos ds dd w hw).1) (by simp [itfWidths]), Option.bind_some,
        if_pos (fun w hw => (itf_pos ds dd w hw).2)]
      exact scanItf_paint ds dd hev
    have hn : scanItfNarrow (turned (paint (itfWidths ds))) = none := by
      rw [scanItfNarrow]
      cases elements (turned (paint (itfWidths ds))) with
      | none => rfl
      | some es =>
        rw [Option.bind_some, ht]
        split <;> rfl
    refine ⟨_, only_of (core_map inDigits (core_row b .itf s _ hd hlast scanItfNarrow ds hs hn)), ?_⟩
    rcases hc with ⟨h1, rfl⟩ | ⟨h1, c, hc, rfl⟩
    · exact Or.inl ⟨h1, inDigits_all s hD⟩
    · refine Or.inr ⟨h1, ?_⟩
      rw [inDigits_append, inDigits_all s hD]
      have h2 := itf_padded b s x hx h1
      subst h2
      have hd2 : Digits (digitsOf s ++ [(10 - altSum 3 (digitsOf s).reverse % 256 % 10) % 10]) :=
        digits_append (digits_lt s hD) (digits_single (by omega))
      have hev2 : (digitsOf s ++ [(10 - altSum 3 (digitsOf s).reverse % 256 % 10) % 10]).length % 2 = 0 := by
        simpa using hev
      rw [itf_encode_eq _ hd2 hev2, Outcome.ok.injEq] at ex
      have h3 := scanItf_paint _ hd2 hev2
      rw [ex, scanItf_paint _ dd hev, Option.some.injEq] at h3
      rw [List.append_cancel_left h3]

example : ∃ ms, Drawn .debug .stf "1234".toList ms ∧ OnlyReading ms .stf "1234".toList :=
  ⟨_, ⟨_, rfl, rfl⟩, (C101_two_of_five .debug "1234".toList _).1 ⟨_, rfl, rfl⟩⟩

/-- C101. So with the lines of generated images: for every rotation, module width, colour and height, every line across the
bars, in both directions. -/
theorem C101_image (b : Build) (k : Kind) (s : List Char) (ms : List Nat) (h : Drawn b k s ms) (y : Symbology) (t : List Char)
    (hr : OnlyReading ms y t) (b' : Build) (g : Image.Image) (hx : 0 < g.xdim) (hne : g.foreground ≠ g.background)
    (hw : ms.length * g.xdim < 2 ^ 32) (hs : 4 * (ms.length * g.xdim) * g.height < 2 ^ 63) :
    ∃ buf, Image.generateBuffer b' g ms = .ok buf ∧
      ((g.rotation = .zero ∨ g.rotation = .oneEighty) → buf.h = g.height ∧ ∀ j < buf.h, ∀ d ∈ [Heading.right, .left],
        everyReading ((pictureLine buf.w buf.h buf.px j d).map (fun c => if c = g.background then 0 else 1)) = [(y, t)]) ∧
      ((g.rotation = .ninety ∨ g.rotation = .twoSeventy) → buf.w = g.height ∧ ∀ j < buf.w, ∀ d ∈ [Heading.down, .up],
        everyReading ((pictureLine buf.w buf.h buf.px j d).map (fun c => if c = g.background then 0 else 1)) = [(y, t)]) := by
  obtain ⟨buf, h1, h2, h3⟩ := (C44_generators_agree ms (drawn_binary b k s ms h)).image b' g hx hne hw hs
  have key : ∀ j < g.height, ∀ d, d = headingOf g.rotation ∨ d = opposite (headingOf g.rotation) →
      everyReading ((pictureLine buf.w buf.h buf.px j d).map (fun c => if c = g.background then 0 else 1)) = [(y, t)] := by
    intro j hj d hd
    have hl := readAllFrom_uniform_inv g.xdim [] _ ms hx (h3 j hj)
    rw [List.nil_append] at hl
    have hp : onPaper 0 g.xdim 0 ms = stretch g.xdim ms := by simp [onPaper]
    obtain ⟨e1, e2⟩ := hr 0 g.xdim 0 hx
    rw [hp] at e1 e2
    rcases hd with rfl | rfl
    · rw [hl, e1]
    · rw [pictureLine_opposite, List.map_reverse, hl, e2]
  refine ⟨buf, h1, fun hrot => ?_, fun hrot => ?_⟩
  · rcases hrot with hrot | hrot <;> rw [hrot] at h2 key
    · refine ⟨h2, fun j hj d hd => key j (by rw [← h2]; exact hj) d ?_⟩
      simpa [headingOf, opposite] using hd
    · refine ⟨h2, fun j hj d hd => key j (by rw [← h2]; exact hj) d ?_⟩
      simpa [headingOf, opposite, or_comm] using hd
  · rcases hrot with hrot | hrot <;> rw [hrot] at h2 key
    · refine ⟨h2, fun j hj d hd => key j (by rw [← h2]; exact hj) d ?_⟩
      simpa [headingOf, opposite] using hd
    · refine ⟨h2, fun j hj d hd => key j (by rw [← h2]; exact hj) d ?_⟩
      simpa [headingOf, opposite, or_comm] using hd

example : ∃ ms buf, Drawn .debug .ean8 "5512345".toList ms ∧
    Image.generateBuffer .debug { Image.png 2 with rotation := .ninety } ms = .ok buf ∧
    everyReading ((pictureLine buf.w buf.h buf.px 1 .up).map (fun c => if c = Image.Color.white then 0 else 1)) =
      [(.ean8, "55123457".toList)] := ⟨_, _, ⟨_, rfl, rfl⟩, rfl, by decide +kernel⟩

/-! ## A label with several symbols -/

/-- Light cells and symbols in turn; each symbol is given by its elements, in cells. -/
def coreLine (r : Nat) : List (Nat × List Nat) → List Nat
  | [] => List.replicate r 0
  | c :: cs => List.replicate c.1 0 ++ (paint c.2 ++ coreLine r cs)

/-- What is needed to cut such a line. -/
def Apart (n : Nat) (cs : List (Nat × List Nat)) : Prop :=
  (∀ c ∈ cs, c.2.length % 2 = 1 ∧ ∀ u ∈ c.2, 0 < u ∧ u < n) ∧ ∀ c ∈ cs.tail, n ≤ c.1

theorem piecesFrom_core (n r : Nat) (hn : 0 < n) (cs : List (Nat × List Nat))
    (h : ∀ c ∈ cs, c.2.length % 2 = 1 ∧ ∀ u ∈ c.2, 0 < u ∧ u < n) (hg : ∀ c ∈ cs, n ≤ c.1) (a : Nat) (cur : List Nat) (z : Nat) :
    piecesFrom n (a :: cur) z (coreLine r cs) = (a :: cur) :: cs.map (fun c => paint c.2) := by
  induction cs generalizing a cur z with
  | nil => rw [coreLine, ← List.append_nil (List.replicate r 0), piecesFrom_zeros, piecesFrom, List.map_nil]
  | cons c cs ih =>
    obtain ⟨h1, h2⟩ := h c (by simp)
    obtain ⟨d, hd⟩ := paint_head c.2 (by intro e; rw [e] at h1; simp at h1) (fun u hu => (h2 u hu).1)
    rw [coreLine, piecesFrom_zeros, (piecesFrom_symbol n c.2 h1 h2 hn _ _).2 a cur (by have := hg c (by simp); omega), hd,
      ih (fun c hc => h c (by simp [hc])) (fun c hc => hg c (by simp [hc])), List.map_cons, hd]

theorem pieces_core (n r : Nat) (cs : List (Nat × List Nat)) (h : Apart n cs) :
    pieces n (coreLine r cs) = cs.map (fun c => paint c.2) := by
  cases cs with
  | nil => rw [pieces, coreLine, ← List.append_nil (List.replicate r 0), piecesFrom_zeros, piecesFrom, List.map_nil]
  | cons c cs =>
    obtain ⟨h1, h2⟩ := h.1 c (by simp)
    have hne : c.2 ≠ [] := by intro e; rw [e] at h1; simp at h1
    have hn : 0 < n := by
      obtain ⟨u, us, e⟩ := List.exists_cons_of_ne_nil hne
      have := h2 u (by rw [e]; simp)
      omega
    obtain ⟨d, hd⟩ := paint_head c.2 hne (fun u hu => (h2 u hu).1)
    rw [pieces, coreLine, piecesFrom_zeros, (piecesFrom_symbol n c.2 h1 h2 hn _ _).1, hd,
      piecesFrom_core n r hn cs (fun c hc => h.1 c (by simp [hc])) h.2, List.map_cons, hd]

theorem coreLine_snoc (r g : Nat) (us : List Nat) (cs : List (Nat × List Nat)) :
    coreLine r cs ++ (paint us ++ List.replicate g 0) = coreLine g (cs ++ [(r, us)]) := by
  induction cs with
  | nil => rfl
  | cons c cs ih => rw [coreLine, List.cons_append, coreLine, List.append_assoc, List.append_assoc, ih]

/-- Turned round, it is again such a line. -/
theorem coreLine_reverse (n r : Nat) (cs : List (Nat × List Nat)) (h : Apart n cs) :
    ∃ r' cs', (coreLine r cs).reverse = coreLine r' cs' ∧ Apart n cs' ∧
      cs'.map Prod.snd = (cs.map (fun c => c.2.reverse)).reverse ∧ (∀ c, cs.head? = some c → r' = c.1) := by
  induction cs with
  | nil => exact ⟨r, [], by simp [coreLine], ⟨by simp, by simp⟩, rfl, by simp⟩
  | cons c cs ih =>
    obtain ⟨h1, h2⟩ := h.1 c (by simp)
    obtain ⟨r', cs', e1, e2, e3, e4⟩ := ih ⟨fun d hd => h.1 d (by simp [hd]), fun d hd => h.2 d (by
      rw [List.tail_cons]; exact List.mem_of_mem_tail hd)⟩
    refine ⟨c.1, cs' ++ [(r', c.2.reverse)], ?_, ⟨?_, ?_⟩, ?_, ?_⟩
    · rw [coreLine, List.reverse_append, List.reverse_append, e1, paint_reverse_odd c.2 h1, List.reverse_replicate,
        List.append_assoc, coreLine_snoc]
    · intro d hd
      rcases List.mem_append.mp hd with hd | hd
      · exact e2.1 d hd
      · rw [List.mem_singleton.mp hd]
        exact ⟨by rw [List.length_reverse]; exact h1, fun u hu => h2 u (List.mem_reverse.mp hu)⟩
    · cases cs' with
      | nil => intro d hd; simp at hd
      | cons c' cs' =>
        intro d hd
        rw [List.cons_append, List.tail_cons] at hd
        rcases List.mem_append.mp hd with hd | hd
        · exact e2.2 d hd
        · rw [List.mem_singleton.mp hd]
          cases cs with
          | nil => simp at e3
          | cons f cs =>
            rw [e4 f rfl]
            exact h.2 f (by simp)
    · rw [List.map_append, e3]; simp
    · intro d hd
      cases hd
      rfl

theorem coreLine_shift (r y : Nat) (cs : List (Nat × List Nat)) :
    ∃ r' cs', List.replicate y 0 ++ coreLine r cs = coreLine r' cs' ∧ cs'.map Prod.snd = cs.map Prod.snd ∧
      (∀ n, (∀ c ∈ cs, n ≤ c.1) → ∀ c ∈ cs', n ≤ c.1) := by
  cases cs with
  | nil => exact ⟨y + r, [], by simp [coreLine], rfl, by simp⟩
  | cons c cs =>
    refine ⟨r, (y + c.1, c.2) :: cs, ?_, rfl, ?_⟩
    · rw [coreLine, coreLine, ← List.append_assoc, List.replicate_append_replicate]
    · intro n h d hd
      rcases List.mem_cons.mp hd with rfl | hd
      · have := h c (by simp)
        exact Nat.le_trans this (Nat.le_add_left _ _)
      · exact h d (by simp [hd])

/-- The line of a label. -/
theorem label_core (b : Build) (n r : Nat) (ps : List Printed) (hd : ∀ p ∈ ps, ∃ k s, Drawn b k s p.row)
    (hw : ∀ p ∈ ps, 0 < p.width ∧ 4 * p.width < n) :
    ∃ r' cs, labelLine r ps = coreLine r' cs ∧ (∀ c ∈ cs, c.2.length % 2 = 1 ∧ ∀ u ∈ c.2, 0 < u ∧ u < n) ∧
      cs.map (fun c => paint c.2) = ps.map (fun p => strip (stretch p.width p.row)) ∧
      ((∀ p ∈ ps, n ≤ p.gap) → ∀ c ∈ cs, n ≤ c.1) ∧ ((∀ p ∈ ps.tail, n ≤ p.gap) → ∀ c ∈ cs.tail, n ≤ c.1) := by
  induction ps with
  | nil => exact ⟨r, [], rfl, by simp, rfl, by simp, by simp⟩
  | cons p ps ih =>
    obtain ⟨k, s, h⟩ := hd p (by simp)
    obtain ⟨h1, h2⟩ := hw p (by simp)
    obtain ⟨us, y, e1, e2, e3, e4⟩ := printed_core b k s p.row h p.width n h1 h2
    obtain ⟨r', cs, i1, i2, i3, i4, -⟩ := ih (fun p hp => hd p (by simp [hp])) (fun p hp => hw p (by simp [hp]))
    obtain ⟨r'', cs', j1, j2, j3⟩ := coreLine_shift r' y cs
    have hm : ∀ c ∈ cs', ∃ d ∈ cs, c.2 = d.2 := by
      intro c hc
      have := List.mem_map_of_mem (f := Prod.snd) hc
      rw [j2] at this
      obtain ⟨d, hd, e⟩ := List.mem_map.mp this
      exact ⟨d, hd, e.symm⟩
    refine ⟨r'', (p.gap, us) :: cs', ?_, ?_, ?_, ?_, ?_⟩
    · rw [labelLine, e1, i1, coreLine, List.append_assoc, List.append_assoc, j1]
    · intro c hc
      rcases List.mem_cons.mp hc with rfl | hc
      · exact ⟨e2, e3⟩
      · obtain ⟨d, hd, e⟩ := hm c hc
        rw [e]
        exact i2 d hd
    · have : cs'.map (fun c => paint c.2) = cs.map (fun c => paint c.2) := by
        have := congrArg (List.map paint) j2
        rw [List.map_map, List.map_map] at this
        exact this
      rw [List.map_cons, this, i3, List.map_cons, e4]
    · intro hg c hc
      rcases List.mem_cons.mp hc with rfl | hc
      · exact hg p (by simp)
      · exact j3 n (i4 (fun p hp => hg p (by simp [hp]))) c hc
    · intro hg c hc
      exact j3 n (i4 hg) c hc

/-- White around a symbol does not matter. -/
theorem everyReading_core (us : List Nat) (ho : us.length % 2 = 1) (hp : ∀ u ∈ us, 0 < u) (q r : Nat) :
    everyReading (List.replicate q 0 ++ paint us ++ List.replicate r 0) = everyReading (paint us) := by
  have hne : us ≠ [] := by intro h; rw [h] at ho; simp at ho
  obtain ⟨c, hc⟩ := paint_head us hne hp
  obtain ⟨d, hd⟩ := paint_head us.reverse (by simpa using hne) (fun u h => hp u (List.mem_reverse.mp h))
  have hd' : (paint us).reverse = 1 :: d := by rw [paint_reverse_odd us ho, hd]
  have h1 : ∀ y q r, readLine (scanAs y) (List.replicate q 0 ++ paint us ++ List.replicate r 0) =
      (measureRow (paint us)).bind (fun r => scanAs y r.2) := by
    intro y q r
    rw [readLine, strip_core q r _ c d hc hd']
  have h2 : ∀ y q r, readLine (scanAs y) (List.replicate q 0 ++ (paint us).reverse ++ List.replicate r 0) =
      (measureRow (paint us).reverse).bind (fun r => scanAs y r.2) := by
    intro y q r
    rw [readLine, strip_core q r _ d c hd' (by rw [List.reverse_reverse, hc])]
  have hrev : (List.replicate q 0 ++ paint us ++ List.replicate r 0).reverse =
      List.replicate r 0 ++ (paint us).reverse ++ List.replicate q 0 := by
    rw [List.reverse_append, List.reverse_append, List.reverse_replicate, List.reverse_replicate, List.append_assoc]
  unfold everyReading
  congr 1
  funext y
  have h10 := h1 y 0 0
  have h20 := h2 y 0 0
  simp only [List.replicate_zero, List.nil_append, List.append_nil] at h10 h20
  rw [hrev, h1, h2, h10, h20]

theorem everyReading_reverse (line : List Nat) (y : Symbology) (t : List Char) (h : everyReading line = [(y, t)]) :
    everyReading line.reverse = [(y, t)] := by
  have hperm : ∀ a b : Option (List Char), ∀ y : Symbology, (a.toList ++ b.toList).map (fun t => (y, t)) = [] →
      (b.toList ++ a.toList).map (fun t => (y, t)) = [] := by
    intro a b y h
    cases a <;> cases b <;> simp at h ⊢
  have hone : ∀ a b : Option (List Char), ∀ y z : Symbology, ∀ t, (a.toList ++ b.toList).map (fun t => (y, t)) = [(z, t)] →
      (b.toList ++ a.toList).map (fun t => (y, t)) = [(z, t)] := by
    intro a b y z t h
    cases a <;> cases b <;> simp at h ⊢ <;> exact h
  have key : ∀ l : List Symbology,
      l.flatMap (fun y => ((readLine (scanAs y) line).toList ++ (readLine (scanAs y) line.reverse).toList).map (fun t => (y, t)))
        = [(y, t)] ∨
      l.flatMap (fun y => ((readLine (scanAs y) line).toList ++ (readLine (scanAs y) line.reverse).toList).map (fun t => (y, t)))
        = [] →
      l.flatMap (fun y => ((readLine (scanAs y) line.reverse).toList ++ (readLine (scanAs y) line).toList).map (fun t => (y, t))) =
      l.flatMap (fun y => ((readLine (scanAs y) line).toList ++ (readLine (scanAs y) line.reverse).toList).map (fun t => (y, t))) := by
    intro l
    induction l with
    | nil => intro _; rfl
    | cons z l ih =>
      intro hl
      rw [List.flatMap_cons, List.flatMap_cons] at *
      rcases hl with hl | hl
      · rcases List.append_eq_singleton_iff.mp hl with ⟨e1, e2⟩ | ⟨e1, e2⟩
        · rw [ih (Or.inl e2), hperm _ _ z e1, e1]
        · rw [ih (Or.inr e2), hone _ _ z y t e1, e1]
      · obtain ⟨e1, e2⟩ := List.append_eq_nil_iff.mp hl
        rw [ih (Or.inr e2), hperm _ _ z e1, e1]
  unfold everyReading at h ⊢
  rw [List.reverse_reverse, key _ (Or.inl h), h]

/-- C101. A label with any number of symbols of any kinds and module widths, with white of more than four modules of each in
between (C92): cut at the white, it gives the readings in order, and in the opposite order when held upside down. -/
theorem C101_label (b : Build) (n r : Nat) (ps : List Printed) (f : Printed → Symbology × List Char)
    (hd : ∀ p ∈ ps, ∃ k s, Drawn b k s p.row) (hf : ∀ p ∈ ps, OnlyReading p.row (f p).1 (f p).2)
    (hw : ∀ p ∈ ps, 0 < p.width ∧ 4 * p.width < n) (hg : ∀ p ∈ ps.tail, n ≤ p.gap) :
    (pieces n (labelLine r ps)).map everyReading = ps.map (fun p => [f p]) ∧
    (pieces n (labelLine r ps).reverse).map everyReading = (ps.map (fun p => [f p])).reverse := by
  obtain ⟨r', cs, e1, e2, e3, -, e4⟩ := label_core b n r ps hd hw
  have hap : Apart n cs := ⟨e2, e4 hg⟩
  obtain ⟨r'', cs', f1, f2, f3, -⟩ := coreLine_reverse n r' cs hap
  have one : ∀ p ∈ ps, everyReading (strip (stretch p.width p.row)) = [f p] := by
    intro p hp
    obtain ⟨k, s, h⟩ := hd p hp
    obtain ⟨h1, h2⟩ := hw p hp
    obtain ⟨us, y, g1, g2, g3, g4⟩ := printed_core b k s p.row h p.width n h1 h2
    have := (hf p hp 0 p.width 0 h1).1
    rw [onPaper, g1, List.replicate_zero, List.nil_append, List.append_nil] at this
    rw [g4, ← everyReading_core us g2 (fun u hu => (g3 u hu).1) 0 y, List.replicate_zero, List.nil_append, this]
  have all : (cs.map (fun c => paint c.2)).map everyReading = ps.map (fun p => [f p]) := by
    rw [e3, List.map_map]
    exact List.map_congr_left one
  constructor
  · rw [e1, pieces_core n r' cs hap, all]
  · rw [e1, f1, pieces_core n r'' cs' f2, ← all]
    have : cs'.map (fun c => paint c.2) = ((cs.map (fun c => paint c.2)).map List.reverse).reverse := by
      have h := congrArg (List.map paint) f3
      rw [List.map_map, List.map_reverse, List.map_map] at h
      rw [List.map_map, show (fun c : Nat × List Nat => paint c.2) = paint ∘ Prod.snd from rfl, h]
      congr 1
      exact List.map_congr_left (fun c hc => (paint_reverse_odd c.2 (e2 c hc).1).symm)
    rw [this, List.map_reverse]
    congr 1
    rw [List.map_map]
    have hm : ∀ l ∈ cs.map (fun c => paint c.2), ∃ y t, everyReading l = [(y, t)] := by
      intro l hl
      have := List.mem_map_of_mem (f := everyReading) hl
      rw [all] at this
      obtain ⟨p, -, e⟩ := List.mem_map.mp this
      exact ⟨(f p).1, (f p).2, e.symm⟩
    refine List.map_congr_left (fun l hl => ?_)
    obtain ⟨y, t, e⟩ := hm l hl
    rw [Function.comp_apply, everyReading_reverse l y t e, e]

/-- An EAN-8 and a Code 39 on one label, upside down. -/
example : ∃ m1 m2, Drawn .debug .ean8 "5512345".toList m1 ∧ Drawn .debug .code39 "A".toList m2 ∧
    (pieces 13 (labelLine 9 [⟨4, 2, m1⟩, ⟨13, 3, m2⟩]).reverse).map everyReading =
      [[(.code39, "A".toList)], [(.ean8, "55123457".toList)]] :=
  ⟨_, _, ⟨_, rfl, rfl⟩, ⟨_, Or.inl rfl, rfl⟩, by decide +kernel⟩

/-- An unknown label, upside down. -/
example : ∃ ms, Drawn .debug .code93 "A1".toList ms ∧
    everyReading (onPaper 4 2 1 ms).reverse = [(.code93, "A1".toList)] := ⟨_, ⟨_, rfl, rfl⟩, by decide +kernel⟩
example : ∃ ms, Drawn .debug .upca "01234567890".toList ms ∧
    everyReading (onPaper 9 3 9 ms) = [(.ean13, "0012345678905".toList)] := ⟨_, ⟨_, rfl, rfl⟩, by decide +kernel⟩
/-- Codabar without start and stop letters is read as nothing, or as something else. -/
example : ∃ ms, Drawn .debug .codabar "$4:::1".toList ms ∧ everyReading ms = [(.code11, "02415".toList)] :=
  ⟨_, ⟨_, rfl, rfl⟩, by decide +kernel⟩

end Barcoders
