import Verif.Lemmas.Part
import Verif.Props.Speed
import Verif.Props.Cut
import Verif.Props.CodabarFrame

/-!
# C104: a beam that crosses a part of a symbol
-/

set_option autoImplicit false

namespace Barcoders
open Spec

/-- What is read in narrow modules at both ends and fills the row, is the whole row. -/
theorem allSeen_guards (E F : List Nat) (x n i : Nat) (h : Seen E F x n i) (hl : F.length = E.length) (h3 : 3 ≤ F.length)
    (f0 : F.getD 0 0 = 1) (f1 : F.getD 1 0 = 1) (fl : F.getD (F.length - 1) 0 = 1)
    (e0 : E.getD 0 0 = 1) (e1 : E.getD 1 0 = 1) (el : E.getD (E.length - 1) 0 = 1) : AllSeen E F x n i := by
  have hi : i = 0 := by have := h.fits; omega
  subst hi
  have := h.inner 1 (by omega) (by have := h.odd; omega)
  rw [f1, Nat.zero_add, e1] at this
  refine ⟨rfl, hl, by rw [f0, e0]; exact this, by rw [fl, hl, el]; exact this⟩

theorem halves_ends (l r : List Nat) : (halvesWidths l r).getD 0 0 = 1 ∧ (halvesWidths l r).getD 1 0 = 1 ∧
    (halvesWidths l r).getD ((halvesWidths l r).length - 1) 0 = 1 ∧
    (halvesWidths l r).reverse = halvesWidths r.reverse l.reverse := by
  refine ⟨by simp [halvesWidths], by simp [halvesWidths], ?_, by simp [halvesWidths]⟩
  have h : halvesWidths l r = ([1, 1, 1] ++ (l ++ ([1, 1, 1, 1, 1] ++ (r ++ [1, 1])))) ++ [1] := by simp [halvesWidths]
  rw [h]
  have := getD_shift ([1, 1, 1] ++ (l ++ ([1, 1, 1, 1, 1] ++ (r ++ [1, 1])))) [1] 0
  rw [Nat.add_zero] at this
  rw [List.length_append (bs := [1]), List.length_singleton, Nat.add_sub_cancel, this]
  rfl

theorem halves_part {α : Type} (scan : List Nat → Option α) (d : Nat) (l r : List Nat) (hl : l.length = 4 * d) (hr : r.length = 4 * d)
    (hp : ∀ w ∈ halvesWidths l r, 0 < w)
    (hs : ∀ F t, (∀ w ∈ F, 0 < w) → scan (paint F) = some t → ∃ l' r', l'.length = 4 * d ∧ r'.length = 4 * d ∧ F = halvesWidths l' r') :
    OnlyWhole scan (paint (halvesWidths l r)) := by
  have key : ∀ l r : List Nat, l.length = 4 * d → r.length = 4 * d → ∀ F x n i t, 0 < x → Seen (halvesWidths l r) F x n i →
      scan (paint F) = some t → AllSeen (halvesWidths l r) F x n i := by
    intro l r hl hr F x n i t hx h hF
    obtain ⟨l', r', hl', hr', rfl⟩ := hs F t h.pos hF
    obtain ⟨a, b, c, -⟩ := halves_ends l' r'
    obtain ⟨a', b', c', -⟩ := halves_ends l r
    exact allSeen_guards _ _ x n i h (by simp [halvesWidths]; omega) (by simp [halvesWidths]) a b c a' b' c'
  refine onlyWhole_of scan _ hp (by simp [halvesWidths]; omega) (key l r hl hr) ?_
  rw [(halves_ends l r).2.2.2]
  exact key _ _ (by simpa using hr) (by simpa using hl)

theorem readN_flat {α : Type} (k : Nat) (f : List Nat → Option α) (n : Nat) (es rest : List Nat) (l : List α)
    (h : readN k f n es = some (l, rest)) : ∃ g, es = g ++ rest ∧ g.length = k * n := by
  obtain ⟨ws, h1, h2, h3, h4⟩ := readN_inv k f n es rest l h
  refine ⟨ws.flatten, h1, ?_⟩
  have hl : ws.length = n := by
    have := congrArg List.length h3
    simpa [h4] using this
  rw [List.length_flatten]
  have : ws.map List.length = List.replicate n k := by
    rw [← hl]
    apply List.eq_replicate_iff.mpr
    refine ⟨by simp, ?_⟩
    intro m hm
    obtain ⟨w, hw, rfl⟩ := List.mem_map.mp hm
    exact h2 w hw
  rw [this]
  simp [Nat.mul_comm]

/-- C104, the retail symbols. -/
theorem C104_retail (b : Build) (s : List Char) (ms : List Nat) :
    (Drawn b .ean13 s ms → OnlyWhole scanEan13 ms) ∧ (Drawn b .ean8 s ms → OnlyWhole scanEan8 ms) ∧
    (Drawn b .upca s ms → OnlyWhole scanUpca ms) := by
  have hhalf : ∀ (n : Nat) (F ds : List Nat), (∀ w ∈ F, 0 < w) → (elements (paint F)).bind (readHalves n) = some ds →
      ∃ l r, l.length = 4 * n ∧ r.length = 4 * n ∧ F = halvesWidths l r := by
    intro n F ds hF h
    by_cases hne : F = []
    · subst hne; simp [paint, paintFrom, elements] at h
    · rw [elements_paint F hF hne, Option.bind_some] at h
      obtain ⟨left, right, h1, h2, h3, -⟩ := readHalves_inv n F ds h
      obtain ⟨g, g1, g2⟩ := readN_flat _ _ _ _ _ _ h2
      obtain ⟨k, k1, k2⟩ := readN_flat _ _ _ _ _ _ h3
      exact ⟨g, k, g2, k2, by rw [h1, g1, k1]; rfl⟩
  have h13 : ∀ (F ds : List Nat), (∀ w ∈ F, 0 < w) → scanEan13 (paint F) = some ds →
      ∃ l r, l.length = 4 * 6 ∧ r.length = 4 * 6 ∧ F = halvesWidths l r := by
    intro F ds hF h
    by_cases hne : F = []
    · subst hne; simp [paint, paintFrom, elements, scanEan13] at h
    · rw [scanEan13, elements_paint F hF hne, Option.bind_some] at h
      obtain ⟨left, right, ps, h1, h2, h3, -⟩ := readEan13_inv F ds h
      obtain ⟨g, g1, g2⟩ := readN_flat _ _ _ _ _ _ h2
      obtain ⟨k, k1, k2⟩ := readN_flat _ _ _ _ _ _ h3
      exact ⟨g, k, g2, k2, by rw [h1, g1, k1]; rfl⟩
  refine ⟨fun h => ?_, fun h => ?_, fun h => ?_⟩
  · obtain ⟨x, hx, he⟩ := h
    obtain ⟨d0, ls, rs, h0, hls, hrs, ll, lr, -, e⟩ := ean13_symbol b s x hx
    rw [e, Outcome.ok.injEq] at he
    subst he
    refine halves_part scanEan13 6 _ _ ?_ ?_ (fun w hw => (ean13Widths_pos d0 ls rs hls hrs w hw).1) h13
    · rw [flatMap_length 4 wAB]
      · rw [List.length_zip, (parity_spec d0 h0).2.2.2.2.2, ll]; rfl
      · rintro ⟨t, v⟩ hp
        exact (good_wAB t v (zip_snd_lt _ _ hls _ hp)).1
    · rw [flatMap_length 4 wA _ (fun y hy => (good_wA y (hrs y hy)).1), lr]
  · obtain ⟨x, hx, he⟩ := h
    obtain ⟨ls, rs, hls, hrs, ll, lr, -, e⟩ := ean8_symbol b s x hx
    rw [e, Outcome.ok.injEq] at he
    subst he
    refine halves_part scanEan8 4 _ _ ?_ ?_ (fun w hw => (halves_pos _ _ (flatMap_wA_pos _ hls) (flatMap_wA_pos _ hrs) w hw).1) (hhalf 4)
    · rw [flatMap_length 4 wA _ (fun y hy => (good_wA y (hls y hy)).1), ll]
    · rw [flatMap_length 4 wA _ (fun y hy => (good_wA y (hrs y hy)).1), lr]
  · obtain ⟨x, hx, he⟩ := h
    obtain ⟨ls, rs, hls, hrs, ll, lr, -, e⟩ := upca_symbol b s x hx
    rw [e, Outcome.ok.injEq] at he
    subst he
    refine halves_part scanUpca 6 _ _ ?_ ?_ (fun w hw => (halves_pos _ _ (flatMap_wA_pos _ hls) (flatMap_wA_pos _ hrs) w hw).1) (hhalf 6)
    · rw [flatMap_length 4 wA _ (fun y hy => (good_wA y (hls y hy)).1), ll]
    · rw [flatMap_length 4 wA _ (fun y hy => (good_wA y (hrs y hy)).1), lr]

example : ∃ ms, Drawn .debug .ean8 "5512345".toList ms ∧ handScan scanEan8 (crossing 4 (stretch 2 ms) 3) = some [5, 5, 1, 2, 3, 4, 5, 7] ∧
    OnlyWhole scanEan8 ms ∧ ((stretch 2 ms).drop 1).take 130 <:+: stretch 2 ms ∧
    handScan scanEan8 (crossing 4 (((stretch 2 ms).drop 1).take 130) 3) = none :=
  ⟨_, ⟨_, rfl, rfl⟩, by decide +kernel, (C104_retail .debug "5512345".toList _).2.1 ⟨_, rfl, rfl⟩,
    ((List.take_prefix _ _).isInfix).trans (List.drop_suffix _ _).isInfix, by decide +kernel⟩

/-! ## Code 93 -/

theorem getD_le (E : List Nat) (m : Nat) (h : ∀ w ∈ E, w ≤ m) (k : Nat) : E.getD k 0 ≤ m := by
  rw [List.getD_eq_getElem?_getD]
  cases e : E[k]? with
  | none => simp
  | some w => exact h w (List.mem_of_getElem? e)

theorem getD_pos (E : List Nat) (h : ∀ w ∈ E, 0 < w) (k : Nat) (hk : k < E.length) : 0 < E.getD k 0 := by
  rw [List.getD_eq_getElem?_getD, List.getElem?_eq_getElem hk]
  exact h _ (List.getElem_mem hk)

/-- The module width is found when a part shows a narrow element and one `m` times as wide, `m` more than half the widest. -/
theorem seen_unit (E F : List Nat) (x n i m w j k : Nat) (h : Seen E F x n i) (hE : ∀ w ∈ E, 0 < w ∧ w ≤ m)
    (hm : m < 2 * w) (hj : 0 < j) (hj' : j + 1 < F.length) (hk : 0 < k) (hk' : k + 1 < F.length) (fj : F.getD j 0 = 1)
    (fk : F.getD k 0 = w) (hx : 0 < x) : n = x := by
  have h1 := h.inner j hj hj'
  have h2 := h.inner k hk hk'
  rw [fj, Nat.mul_one] at h1
  rw [fk, h1, Nat.mul_assoc] at h2
  have h3 : E.getD (i + j) 0 * w = E.getD (i + k) 0 := Nat.eq_of_mul_eq_mul_left hx h2
  have h4 := getD_le E m (fun w hw => (hE w hw).2) (i + k)
  have h5 := getD_pos E (fun w hw => (hE w hw).1) (i + j) (by have := h.fits; omega)
  have h6 : E.getD (i + j) 0 = 1 := by
    rcases Nat.lt_or_ge (E.getD (i + j) 0) 2 with h7 | h7
    · omega
    · have := Nat.mul_le_mul_right w h7
      omega
  rw [h1, h6, Nat.mul_one]

theorem seen_eq (E F : List Nat) (x i : Nat) (hx : 0 < x) (h : Seen E F x x i) (k : Nat) (hk : 0 < k) (hk' : k + 1 < F.length) :
    F.getD k 0 = E.getD (i + k) 0 := Nat.eq_of_mul_eq_mul_left hx (h.inner k hk hk')

/-- Bars of four modules. -/
def wideBars (l : List Nat) : Prop := ∃ k, k % 2 = 0 ∧ l.getD k 0 = 4

theorem code93_bars (t : List Char) (ht : ∀ c ∈ t, c ∈ code93Alphabet) : ∀ k, k % 2 = 0 → (t.flatMap w93).getD k 0 ≠ 4 := by
  induction t with
  | nil => intro k _; simp
  | cons c t ih =>
    intro k hk
    have hc := ht c (by simp)
    have h6 : (w93 c).length = 6 := (w93_spec c (by simp [hc])).1
    have key : ∀ c ∈ code93Alphabet, (w93 c).getD 0 0 ≠ 4 ∧ (w93 c).getD 2 0 ≠ 4 ∧ (w93 c).getD 4 0 ≠ 4 := by decide
    rw [List.flatMap_cons]
    rcases Nat.lt_or_ge k 6 with h | h
    · rw [getD_left _ _ k (by omega)]
      rcases (by omega : k = 0 ∨ k = 2 ∨ k = 4) with rfl | rfl | rfl
      · exact (key c hc).1
      · exact (key c hc).2.1
      · exact (key c hc).2.2
    · obtain ⟨j, rfl⟩ : ∃ j, k = (w93 c).length + j := ⟨k - 6, by omega⟩
      rw [getD_shift]
      exact ih (fun c hc => ht c (by simp [hc])) j (by omega)

theorem code93_wide (t : List Char) (ht : ∀ c ∈ t, c ∈ code93Alphabet) (k : Nat) (hk : k % 2 = 0)
    (h : (code93SymWidths t).getD k 0 = 4) : k = 4 ∨ k + 3 = (code93SymWidths t).length := by
  have hs : w93 '*' = [1, 1, 1, 1, 4, 1] := by decide
  have he : code93SymWidths t = [1, 1, 1, 1, 4, 1] ++ (t.flatMap w93 ++ [1, 1, 1, 1, 4, 1, 1]) := by
    simp [code93SymWidths, hs]
  have hl : (t.flatMap w93).length = 6 * t.length := flatMap_length 6 w93 t (fun c hc => (w93_spec c (by simp [ht c hc])).1)
  rw [he] at h ⊢
  rcases Nat.lt_or_ge k 6 with h6 | h6
  · rw [getD_left _ _ k (by simpa using h6)] at h
    rcases (by omega : k = 0 ∨ k = 2 ∨ k = 4) with rfl | rfl | rfl
    · simp at h
    · simp at h
    · exact Or.inl rfl
  · obtain ⟨j, rfl⟩ : ∃ j, k = [1, 1, 1, 1, 4, 1].length + j := ⟨k - 6, by simp; omega⟩
    rw [getD_shift] at h
    simp only [List.length_cons, List.length_nil] at h6 hk
    rcases Nat.lt_or_ge j (t.flatMap w93).length with h7 | h7
    · rw [getD_left _ _ j h7] at h
      exact absurd h (code93_bars t ht j (by omega))
    · obtain ⟨m, rfl⟩ : ∃ m, j = (t.flatMap w93).length + m := ⟨j - (t.flatMap w93).length, by omega⟩
      rw [getD_shift] at h
      right
      simp only [List.length_append, List.length_cons, List.length_nil]
      rcases Nat.lt_or_ge m 7 with h8 | h8
      · rcases (by omega : m = 0 ∨ m = 2 ∨ m = 4 ∨ m = 6) with rfl | rfl | rfl | rfl
        · simp at h
        · simp at h
        · omega
        · simp at h
      · rw [List.getD_eq_getElem?_getD, List.getElem?_eq_none (by simpa using h8)] at h
        simp at h

/-- The widths a Code 93 reader has seen. -/
theorem code93_seen (F : List Nat) (t : List Char) (hF : ∀ w ∈ F, 0 < w) (h : scanCode93 (paint F) = some t) :
    ∃ M, F = [1, 1, 1, 1, 4, 1] ++ (M ++ [1, 1, 1, 1, 4, 1, 1]) := by
  obtain ⟨body, h1, h2, -⟩ := scanCode93_inv _ t h
  have hne : F ≠ [] := by rintro rfl; simp [paint, paintFrom, elements] at h1
  rw [elements_paint F hF hne, Option.some.injEq] at h1
  obtain ⟨ws, e1, e2, e3⟩ := readAllFrom_inv 6 readCode93Char [] body _ (by decide) h2
  have hstar : ∀ w, readCode93Char w = some '*' → w = [1, 1, 1, 1, 4, 1] := by
    intro w hw
    exact chart_inj _ code93_keys w [1, 1, 1, 1, 4, 1] '*' hw (by decide)
  cases ws with
  | nil => simp at e3
  | cons w0 ws =>
    rw [List.map_cons, List.cons_append, List.map_cons, List.cons.injEq] at e3
    have hl : ws ≠ [] := by rintro rfl; simp at e3
    obtain ⟨mid, wz, rfl⟩ : ∃ mid wz, ws = mid ++ [wz] := ⟨ws.dropLast, ws.getLast hl, (List.dropLast_concat_getLast hl).symm⟩
    have e4 := e3.2
    rw [List.map_append, List.map_append] at e4
    have e5 := List.append_inj_right' e4 (by simp)
    rw [List.map_singleton, List.map_singleton, List.cons.injEq] at e5
    have hw0 := hstar w0 e3.1
    have hwz := hstar wz e5.1
    refine ⟨mid.flatten, ?_⟩
    rw [List.nil_append] at e1
    rw [h1, e1, hw0, hwz]
    simp

theorem code93_ends (F M : List Nat) (h : F = [1, 1, 1, 1, 4, 1] ++ (M ++ [1, 1, 1, 1, 4, 1, 1])) :
    F.getD 0 0 = 1 ∧ F.getD 1 0 = 1 ∧ F.getD 4 0 = 4 ∧ 13 ≤ F.length ∧ F.getD (F.length - 3) 0 = 4 ∧ F.getD (F.length - 1) 0 = 1 := by
  have hl : F.length = M.length + 13 := by rw [h]; simp
  have h' : F = ([1, 1, 1, 1, 4, 1] ++ M) ++ [1, 1, 1, 1, 4, 1, 1] := by rw [h]; simp
  have hm : ([1, 1, 1, 1, 4, 1] ++ M).length = M.length + 6 := by simp
  refine ⟨by rw [h]; rfl, by rw [h]; rfl, by rw [h]; rfl, by omega, ?_, ?_⟩
  · have := getD_shift ([1, 1, 1, 1, 4, 1] ++ M) [1, 1, 1, 1, 4, 1, 1] 4
    rw [hm] at this
    rw [hl, show M.length + 13 - 3 = M.length + 6 + 4 by omega, h', this]; rfl
  · have := getD_shift ([1, 1, 1, 1, 4, 1] ++ M) [1, 1, 1, 1, 4, 1, 1] 6
    rw [hm] at this
    rw [hl, show M.length + 13 - 1 = M.length + 6 + 6 by omega, h', this]; rfl

theorem getD_reverse (E : List Nat) (k : Nat) (h : k < E.length) : E.reverse.getD k 0 = E.getD (E.length - 1 - k) 0 := by
  simp only [List.getD_eq_getElem?_getD]
  rw [List.getElem?_reverse h]

/-- C104, Code 93. -/
theorem C104_code93 (b : Build) (s : List Char) (ms : List Nat) (h : Drawn b .code93 s ms) : OnlyWhole scanCode93 ms := by
  obtain ⟨x, hx, he⟩ := h
  obtain ⟨hA, e⟩ := code93_symbol s x hx
  rw [e, Outcome.ok.injEq] at he
  subst he
  generalize code93Text s = u at hA
  have hs : w93 '*' = [1, 1, 1, 1, 4, 1] := by decide
  have hform : code93SymWidths u = [1, 1, 1, 1, 4, 1] ++ (u.flatMap w93 ++ [1, 1, 1, 1, 4, 1, 1]) := by
    simp [code93SymWidths, hs]
  obtain ⟨e0, -, -, -, -, el⟩ := code93_ends _ _ hform
  have hwide := code93_wide u hA
  have hpos := code93_widths_pos u hA
  have hodd : (code93SymWidths u).length % 2 = 1 := by
    have hl : (u.flatMap w93).length = 6 * u.length := flatMap_length 6 w93 u (fun c hc => (w93_spec c (by simp [hA c hc])).1)
    rw [hform]; simp only [List.length_append, List.length_cons, List.length_nil, hl]; omega
  generalize code93SymWidths u = E at *
  have key : ∀ E', (∀ w ∈ E', 0 < w ∧ w ≤ 4) → ∀ F x n i t, 0 < x → Seen E' F x n i → scanCode93 (paint F) = some t →
      n = x ∧ F.getD 0 0 = 1 ∧ F.getD (F.length - 1) 0 = 1 ∧ 13 ≤ F.length ∧ E'.getD (i + 4) 0 = 4 ∧
        E'.getD (i + (F.length - 3)) 0 = 4 := by
    intro E' hE' F x n i t hx hseen hF
    obtain ⟨M, hM⟩ := code93_seen F t hseen.pos hF
    obtain ⟨f0, f1, f4, fl, f3, fe⟩ := code93_ends F M hM
    have hn := seen_unit E' F x n i 4 4 1 4 hseen hE' (by omega) (by omega) (by omega) (by omega) (by omega) f1 f4 hx
    subst hn
    exact ⟨rfl, f0, fe, fl, by rw [← seen_eq E' F n i hx hseen 4 (by omega) (by omega), f4],
      by rw [← seen_eq E' F n i hx hseen _ (by omega) (by omega), f3]⟩
  refine onlyWhole_of scanCode93 E (fun w hw => (hpos w hw).1) hodd ?_ ?_
  · intro F x n i t hx hseen hF
    obtain ⟨rfl, f0, fe, fl, g4, g3⟩ := key E hpos F x n i t hx hseen hF
    have p1 := hwide _ (by have := hseen.even; omega) g4
    have p2 := hwide _ (by have := hseen.even; have := hseen.odd; omega) g3
    have := hseen.fits
    have hi : i = 0 := by omega
    have hl : F.length = E.length := by omega
    subst hi
    exact ⟨rfl, hl, by rw [f0, e0], by rw [fe, hl, el]⟩
  · intro F x n i t hx hseen hF
    obtain ⟨rfl, f0, fe, fl, g4, g3⟩ := key E.reverse (fun w hw => hpos w (List.mem_reverse.mp hw)) F x n i t hx hseen hF
    have hf := hseen.fits
    have hev := hseen.even
    have hod := hseen.odd
    rw [List.length_reverse] at hf
    rw [getD_reverse _ _ (by omega)] at g4 g3
    have p1 := hwide _ (by omega) g4
    have p2 := hwide _ (by omega) g3
    omega

example : ∃ ms, Drawn .debug .code93 "HI".toList ms ∧ handScan scanCode93 (crossing 4 ms 3) = some "HI".toList ∧
    OnlyWhole scanCode93 ms ∧ handScan scanCode93 (crossing 4 (ms.drop 9) 3) = none :=
  ⟨_, ⟨_, rfl, rfl⟩, by decide +kernel, C104_code93 .debug "HI".toList _ ⟨_, rfl, rfl⟩, by decide +kernel⟩

/-! ## Code 128 -/

/-- The sum of the first elements. -/
def psum (E : List Nat) (j : Nat) : Nat := (E.take j).sum

theorem psum_succ (E : List Nat) (j : Nat) : psum E (j + 1) = psum E j + E.getD j 0 := by
  induction E generalizing j with
  | nil => simp [psum]
  | cons a E ih =>
    cases j with
    | zero => simp [psum]
    | succ j =>
      have := ih j
      simp only [psum, List.take_succ_cons, List.sum_cons, List.getD_cons_succ] at this ⊢
      omega

theorem psum_groups (m v : Nat) (G : List (List Nat)) (z : List Nat) (h : ∀ g ∈ G, g.length = m ∧ g.sum = v) (k : Nat)
    (hk : k ≤ G.length) : psum (G.flatten ++ z) (m * k) = v * k := by
  induction G generalizing k with
  | nil => simp at hk; subst hk; simp [psum]
  | cons g G ih =>
    cases k with
    | zero => simp [psum]
    | succ k =>
      have h1 := ih (fun g hg => h g (by simp [hg])) k (by simpa using hk)
      have hg := h g (by simp)
      simp only [psum] at h1 ⊢
      rw [List.flatten_cons, List.append_assoc, List.take_append, hg.1, List.take_of_length_le (by rw [hg.1, Nat.mul_succ]; omega),
        Nat.mul_succ, Nat.add_sub_cancel, List.sum_append, h1, hg.2, Nat.mul_succ, Nat.add_comm]

theorem getD_groups (m : Nat) (G : List (List Nat)) (z : List Nat) (h : ∀ g ∈ G, g.length = m) (k r : Nat)
    (hk : k < G.length) (hr : r < m) : (G.flatten ++ z).getD (m * k + r) 0 = (G.getD k []).getD r 0 := by
  induction G generalizing k with
  | nil => simp at hk
  | cons g G ih =>
    have hg := h g (by simp)
    cases k with
    | zero => rw [List.flatten_cons, List.append_assoc, Nat.mul_zero, Nat.zero_add, getD_left _ _ r (by omega)]; rfl
    | succ k =>
      rw [List.flatten_cons, List.append_assoc, Nat.mul_succ, show m * k + m + r = g.length + (m * k + r) by omega, getD_shift,
        ih (fun g hg => h g (by simp [hg])) k (by simpa using hk)]
      rfl

theorem flatten_length (m : Nat) (G : List (List Nat)) (h : ∀ g ∈ G, g.length = m) : G.flatten.length = m * G.length := by
  induction G with
  | nil => simp
  | cons g G ih =>
    rw [List.flatten_cons, List.length_append, ih (fun g hg => h g (by simp [hg])), h g (by simp), List.length_cons, Nat.mul_succ]
    omega

theorem psum_seen (E F : List Nat) (i : Nat) (h : ∀ k, 0 < k → k + 1 < F.length → F.getD k 0 = E.getD (i + k) 0) (k : Nat)
    (hk : k + 2 ≤ F.length) : psum E (i + 1 + k) + psum F 1 = psum E (i + 1) + psum F (1 + k) := by
  induction k with
  | zero => simp
  | succ k ih =>
    have := ih (by omega)
    have h1 := psum_succ E (i + 1 + k)
    have h2 := psum_succ F (1 + k)
    have h3 := h (1 + k) (by omega) (by omega)
    rw [show i + (1 + k) = i + 1 + k by omega] at h3
    rw [← Nat.add_assoc, ← Nat.add_assoc, h1, h2]
    omega

/-- The widths of the start symbols, after their first bar. -/
def Start128 (F : List Nat) : Prop :=
  F.getD 0 0 = 2 ∧ F.getD 1 0 = 1 ∧ F.getD 2 0 = 1 ∧
    ((F.getD 3 0 = 4 ∧ F.getD 4 0 = 1 ∧ F.getD 5 0 = 2) ∨ (F.getD 3 0 = 2 ∧ F.getD 4 0 = 1 ∧ F.getD 5 0 = 4) ∨
      (F.getD 3 0 = 2 ∧ F.getD 4 0 = 3 ∧ F.getD 5 0 = 2))

/-- The widths a Code 128 reader has seen. -/
theorem code128_seen (F : List Nat) (t : List Char) (hF : ∀ w ∈ F, 0 < w) (h : scanCode128 (paint F) = some t) :
    ∃ m, 1 ≤ m ∧ F.length = 6 * m + 13 ∧ Start128 F ∧ psum F (6 + 6 * m) = 11 + 11 * m ∧
      (∀ r, r < 7 → F.getD (6 + 6 * m + r) 0 = code128Stop.getD r 0) := by
  obtain ⟨es, set, data, -, h1, h2, -⟩ := scanCode128_inv _ t h
  have hne : F ≠ [] := by rintro rfl; simp [paint, paintFrom, elements] at h1
  rw [elements_paint F hF hne, Option.some.injEq] at h1
  obtain ⟨ws, e1, e2, e3⟩ := readAllFrom_inv 6 code128Chart.idxOf? [] es _ (by decide) h2
  rw [List.nil_append] at e1
  have hlen : ws.length = data.length + 2 := by
    have := congrArg List.length e3
    simpa using this
  have hchart : ∀ w ∈ ws, w ∈ code128Chart := by
    intro w hw
    have : code128Chart.idxOf? w ∈ ws.map code128Chart.idxOf? := List.mem_map_of_mem hw
    rw [e3, List.mem_map] at this
    obtain ⟨v, -, hv⟩ := this
    have := List.isSome_idxOf? (l := code128Chart) (a := w)
    rw [← hv] at this
    simpa using this
  have hsum : ∀ w ∈ code128Chart, w.sum = 11 := by decide
  have hfl := flatten_length 6 ws e2
  have hp := psum_groups 6 11 ws code128Stop (fun w hw => ⟨e2 w hw, hsum w (hchart w hw)⟩) ws.length (Nat.le_refl _)
  refine ⟨data.length + 1, by omega, ?_, ?_, ?_, ?_⟩
  · rw [h1, e1, List.length_append, hfl, hlen]
    have : code128Stop.length = 7 := rfl
    omega
  · cases ws with
    | nil => simp at hlen
    | cons w0 ws =>
      rw [List.map_cons, List.map_cons, List.cons.injEq] at e3
      have key : ∀ w ∈ code128Chart, ∀ set : CodeSet, code128Chart.idxOf? w = some set.start → Start128 w := by
        have : ∀ w ∈ code128Chart, ∀ set ∈ [CodeSet.A, .B, .C], code128Chart.idxOf? w = some set.start → Start128 w := by
          unfold Start128; decide +kernel
        intro w hw set
        exact this w hw set (by cases set <;> simp)
      have hs := key w0 (hchart w0 (by simp)) set e3.1
      have h6 := e2 w0 (by simp)
      have hget : ∀ k, k < 6 → F.getD k 0 = w0.getD k 0 := by
        intro k hk
        rw [h1, e1, List.flatten_cons, List.append_assoc, getD_left _ _ k (by omega)]
      unfold Start128
      rw [hget 0 (by omega), hget 1 (by omega), hget 2 (by omega), hget 3 (by omega), hget 4 (by omega), hget 5 (by omega)]
      exact hs
  · rw [h1, e1, show 6 + 6 * (data.length + 1) = 6 * ws.length by omega, hp]
    omega
  · intro r hr
    rw [h1, e1, show 6 + 6 * (data.length + 1) + r = ws.flatten.length + r by omega, getD_shift]

/-- What a reader that has seen a part of rows of groups of eleven modules knows about them. -/
theorem code128_unit (E F : List Nat) (x n i m : Nat) (hE : ∀ w ∈ E, 0 < w ∧ w ≤ 4) (h : Seen E F x n i) (hx : 0 < x)
    (hl : F.length = 6 * m + 13) (hs : Start128 F) : n = x := by
  obtain ⟨-, f1, -, hs⟩ := hs
  rcases hs with ⟨f, -, -⟩ | ⟨-, -, f⟩ | ⟨-, f, -⟩
  · exact seen_unit E F x n i 4 4 1 3 h hE (by omega) (by omega) (by omega) (by omega) (by omega) f1 f hx
  · exact seen_unit E F x n i 4 4 1 5 h hE (by omega) (by omega) (by omega) (by omega) (by omega) f1 f hx
  · exact seen_unit E F x n i 4 3 1 4 h hE (by omega) (by omega) (by omega) (by omega) (by omega) f1 f hx

theorem start_sum (F : List Nat) (h : Start128 F) : psum F 1 = 2 ∧ psum F 2 = 3 ∧ psum F 3 = 4 ∧ psum F 6 = 11 := by
  obtain ⟨f0, f1, f2, hs⟩ := h
  have h0 : psum F 0 = 0 := by simp [psum]
  have := psum_succ F 0
  have := psum_succ F 1
  have := psum_succ F 2
  have := psum_succ F 3
  have := psum_succ F 4
  have := psum_succ F 5
  simp only [Nat.zero_add, Nat.reduceAdd] at *
  omega

theorem stop_sum (F : List Nat) (m : Nat) (fp : psum F (6 + 6 * m) = 11 + 11 * m)
    (fe : ∀ r, r < 7 → F.getD (6 + 6 * m + r) 0 = code128Stop.getD r 0) :
    psum F (6 + 6 * m + 2) = 16 + 11 * m ∧ psum F (6 + 6 * m + 3) = 19 + 11 * m ∧ psum F (6 + 6 * m + 4) = 20 + 11 * m ∧
      psum F (6 + 6 * m + 5) = 21 + 11 * m := by
  have h0 := psum_succ F (6 + 6 * m)
  have h1 := psum_succ F (6 + 6 * m + 1)
  have h2 := psum_succ F (6 + 6 * m + 2)
  have h3 := psum_succ F (6 + 6 * m + 3)
  have h4 := psum_succ F (6 + 6 * m + 4)
  have q0 := fe 0 (by omega)
  have q1 := fe 1 (by omega)
  have q2 := fe 2 (by omega)
  have q3 := fe 3 (by omega)
  have q4 := fe 4 (by omega)
  simp only [code128Stop, List.getD_cons_zero, List.getD_cons_succ, Nat.add_zero] at q0 q1 q2 q3 q4
  simp only [Nat.add_assoc (6 + 6 * m), Nat.reduceAdd] at h0 h1 h2 h3 h4
  omega

/-- C104, Code 128. -/
theorem C104_code128 (b : Build) (s : List Char) (ms : List Nat) (h : Drawn b .code128 s ms) : OnlyWhole scanCode128 ms := by
  obtain ⟨x, hx, he⟩ := h
  obtain ⟨set, data, c, hd, rfl⟩ := code128_symbol_data b s x ms hx he
  have hv : ∀ v ∈ CodeSet.start set :: data ++ [c], v < 106 := by
    intro v hv
    rw [List.cons_append, List.mem_cons] at hv
    rcases hv with rfl | hv
    · exact start_lt set
    · exact Nat.lt_trans (hd v hv) (by omega)
  have hpos := code128_widths_pos _ hv
  have hN : (CodeSet.start set :: data ++ [c]).length = data.length + 2 := by simp
  generalize hvs : CodeSet.start set :: data ++ [c] = vs at *
  have hlow : ∀ k, 0 < k → k < vs.length → vs.getD k 0 < 103 := by
    intro k hk hk'
    obtain ⟨j, rfl⟩ : ∃ j, k = j + 1 := ⟨k - 1, by omega⟩
    rw [← hvs, List.cons_append, List.getD_cons_succ, List.getD_eq_getElem?_getD, List.getElem?_eq_getElem (by simp; omega)]
    exact hd _ (List.getElem_mem _)
  have hall : ∀ k, k < vs.length → vs.getD k 0 < 106 := by
    intro k hk
    rw [List.getD_eq_getElem?_getD, List.getElem?_eq_getElem hk]
    exact hv _ (List.getElem_mem _)
  obtain ⟨G, hG⟩ : ∃ G, G = vs.map w128 ++ [[2, 3, 3, 1, 1, 1]] := ⟨_, rfl⟩
  have hGl : G.length = vs.length + 1 := by rw [hG]; simp
  have hE : code128Widths vs = G.flatten ++ [2] := by
    rw [hG]; simp [code128Widths, code128Stop, List.flatMap_def]
  have hG6 : ∀ g ∈ G, g.length = 6 ∧ g.sum = 11 := by
    intro g hg
    rw [hG, List.mem_append, List.mem_map] at hg
    rcases hg with ⟨v, hv', rfl⟩ | hg
    · exact ⟨(w128_spec v (hv v hv')).1, w128_sum v (hv v hv')⟩
    · rw [List.mem_singleton.mp hg]; decide
  have hGv : ∀ k, k < vs.length → G.getD k [] = w128 (vs.getD k 0) := by
    intro k hk
    rw [hG, List.getD_eq_getElem?_getD, List.getElem?_append_left (by simpa using hk), List.getElem?_map,
      List.getElem?_eq_getElem hk, List.getD_eq_getElem?_getD, List.getElem?_eq_getElem hk]
    rfl
  have hEl : (code128Widths vs).length = 6 * vs.length + 7 := by
    rw [hE, List.length_append, flatten_length 6 G (fun g hg => (hG6 g hg).1), hGl]; simp; omega
  refine onlyWhole_of scanCode128 _ (fun w hw => (hpos w hw).1) (by omega) ?_ ?_
  · intro F x n i t hx hseen hF
    obtain ⟨m, hm, fl, fs, fp, fe⟩ := code128_seen F t hseen.pos hF
    obtain rfl := code128_unit _ F x n i m hpos hseen hx fl fs
    have hps := psum_seen _ F i (seen_eq _ F n i hx hseen)
    have hfits := hseen.fits
    have hev := hseen.even
    obtain ⟨p1, p2, p3, p6⟩ := start_sum F fs
    have hP : ∀ k, k ≤ vs.length + 1 → psum (code128Widths vs) (6 * k) = 11 * k := by
      intro k hk
      rw [hE]; exact psum_groups 6 11 G [2] hG6 k (by omega)
    have d6 := hps 5 (by omega)
    have q6 : F.getD (6 + 6 * m + 6) 0 = 2 := fe 6 (by omega)
    obtain ⟨s2, s3, s4, s5⟩ := stop_sum F m fp fe
    obtain ⟨f0, f1, f2, f345⟩ := fs
    have dF3 := psum_succ F 3
    have dF4 := psum_succ F 4
    have dF5 := psum_succ F 5
    obtain ⟨a, o, hi, ho⟩ : ∃ a o, i = 6 * a + o ∧ (o = 0 ∨ o = 2 ∨ o = 4) := ⟨i / 6, i % 6, by omega, by omega⟩
    rcases ho with rfl | rfl | rfl
    · -- aligned
      have hP0 := hP a (by omega)
      have hP1 := hP (a + 1) (by omega)
      have hs0 := psum_succ (code128Widths vs) (6 * a)
      rw [show i + 1 + 5 = 6 * (a + 1) by omega, show i + 1 = 6 * a + 1 by omega] at d6
      simp only [Nat.reduceAdd] at d6
      have hfirst : (code128Widths vs).getD i 0 = 2 := by
        rw [hi, Nat.add_zero]; omega
      have hget : ∀ k r, k < vs.length → r < 6 → (code128Widths vs).getD (6 * k + r) 0 = (w128 (vs.getD k 0)).getD r 0 := by
        intro k r hk hr
        rw [hE, getD_groups 6 G [2] (fun g hg => (hG6 g hg).1) k r (by omega) hr, hGv k hk]
      have hstop : a + 1 + m = vs.length := by
        rcases Nat.lt_or_ge (a + 1 + m) vs.length with hlt | hge
        · exfalso
          have key : ∀ v < 106, ¬ ((w128 v).getD 1 0 = 3 ∧ (w128 v).getD 2 0 = 3 ∧ (w128 v).getD 3 0 = 1 ∧
              (w128 v).getD 4 0 = 1 ∧ (w128 v).getD 5 0 = 1) := by decide
          have g : ∀ r, 0 < r → r < 6 → (w128 (vs.getD (a + 1 + m) 0)).getD r 0 = code128Stop.getD r 0 := by
            intro r hr hr'
            rw [← hget _ _ hlt hr', ← fe r (by omega), seen_eq _ F n i hx hseen _ (by omega) (by omega)]
            congr 1; omega
          exact key _ (hall _ hlt) ⟨g 1 (by omega) (by omega), g 2 (by omega) (by omega), g 3 (by omega) (by omega),
            g 4 (by omega) (by omega), g 5 (by omega) (by omega)⟩
        · omega
      have ha : a = 0 := by
        rcases Nat.eq_zero_or_pos a with h0 | h0
        · exact h0
        · exfalso
          have hlt := hlow a h0 (by omega)
          have key : ∀ v < 103, ¬ Start128 (w128 v) := by unfold Start128; decide
          refine key _ hlt ?_
          have g : ∀ r, r < 6 → (w128 (vs.getD a 0)).getD r 0 = F.getD r 0 := by
            intro r hr
            rw [← hget a r (by omega) hr]
            rcases Nat.eq_zero_or_pos r with rfl | hr0
            · rw [f0, ← hfirst]; congr 1; omega
            · rw [seen_eq _ F n i hx hseen r hr0 (by omega)]; congr 1; omega
          unfold Start128
          rw [g 0 (by omega), g 1 (by omega), g 2 (by omega), g 3 (by omega), g 4 (by omega), g 5 (by omega)]
          exact ⟨f0, f1, f2, f345⟩
      subst ha
      have hlen : F.length = (code128Widths vs).length := by omega
      have hlast : (code128Widths vs).getD (F.length - 1) 0 = 2 := by
        have := getD_shift G.flatten [2] 0
        rw [flatten_length 6 G (fun g hg => (hG6 g hg).1)] at this
        rw [hE, show F.length - 1 = 6 * G.length + 0 by omega, this]; rfl
      refine ⟨by omega, hlen, ?_, ?_⟩
      · rw [f0, ← hfirst, hi]
      · rw [hlast, show F.length - 1 = 6 + 6 * m + 6 by omega, q6]
    · exfalso
      have hP1 := hP (a + 1) (by omega)
      have hP2 := hP (a + 1 + m + 1) (by omega)
      have d4 := hps 3 (by omega)
      have d10 := hps (5 + 6 * m + 4) (by omega)
      rw [show i + 1 + 3 = 6 * (a + 1) by omega] at d4
      rw [show i + 1 + (5 + 6 * m + 4) = 6 * (a + 1 + m + 1) by omega,
        show 1 + (5 + 6 * m + 4) = 6 + 6 * m + 4 by omega] at d10
      simp only [Nat.reduceAdd] at *
      omega
    · exfalso
      have hP1 := hP (a + 1) (by omega)
      have hP2 := hP (a + 1 + m + 1) (by omega)
      have d2 := hps 1 (by omega)
      have d8 := hps (5 + 6 * m + 2) (by omega)
      rw [show i + 1 + 1 = 6 * (a + 1) by omega] at d2
      rw [show i + 1 + (5 + 6 * m + 2) = 6 * (a + 1 + m + 1) by omega,
        show 1 + (5 + 6 * m + 2) = 6 + 6 * m + 2 by omega] at d8
      simp only [Nat.reduceAdd] at *
      omega
  · intro F x n i t hx hseen hF
    exfalso
    obtain ⟨m, hm, fl, fs, fp, fe⟩ := code128_seen F t hseen.pos hF
    obtain rfl := code128_unit _ F x n i m (fun w hw => hpos w (List.mem_reverse.mp hw)) hseen hx fl fs
    have hps := psum_seen _ F i (seen_eq _ F n i hx hseen)
    have hfits := hseen.fits
    have hev := hseen.even
    rw [List.length_reverse] at hfits
    obtain ⟨p1, p2, p3, p6⟩ := start_sum F fs
    obtain ⟨G', hG'⟩ : ∃ G', G' = (G.map List.reverse).reverse := ⟨_, rfl⟩
    have hE' : (code128Widths vs).reverse = 2 :: (G'.flatten ++ []) := by
      rw [hE, hG', List.reverse_append, List.reverse_flatten]; simp
    have hG'l : G'.length = vs.length + 1 := by rw [hG']; simpa using hGl
    have hG'6 : ∀ g ∈ G', g.length = 6 ∧ g.sum = 11 := by
      intro g hg
      rw [hG', List.mem_reverse, List.mem_map] at hg
      obtain ⟨g', hg', rfl⟩ := hg
      rw [List.length_reverse, List.sum_reverse]
      exact hG6 g' hg'
    have hP : ∀ k, k ≤ vs.length + 1 → psum (code128Widths vs).reverse (1 + 6 * k) = 2 + 11 * k := by
      intro k hk
      have := psum_groups 6 11 G' [] hG'6 k (by omega)
      unfold psum at this ⊢
      rw [hE', Nat.add_comm 1, List.take_succ_cons, List.sum_cons, this]
    obtain ⟨s2, s3, s4, s5⟩ := stop_sum F m fp fe
    obtain ⟨f0, f1, f2, f345⟩ := fs
    have dF3 := psum_succ F 3
    have dF4 := psum_succ F 4
    have dF5 := psum_succ F 5
    obtain ⟨a, o, hi, ho⟩ : ∃ a o, i + 5 = 6 * a + o ∧ (o = 1 ∨ o = 3 ∨ o = 5) := ⟨(i + 5) / 6, (i + 5) % 6, by omega, by omega⟩
    have hP1 := hP a (by omega)
    have hP2 := hP (a + m + 1) (by omega)
    rcases ho with rfl | rfl | rfl
    · have d5 := hps 4 (by omega)
      have d11 := hps (5 + 6 * m + 5) (by omega)
      rw [show i + 1 + 4 = 1 + 6 * a by omega] at d5
      rw [show i + 1 + (5 + 6 * m + 5) = 1 + 6 * (a + m + 1) by omega,
        show 1 + (5 + 6 * m + 5) = 6 + 6 * m + 5 by omega] at d11
      simp only [Nat.reduceAdd] at *
      omega
    · have d3 := hps 2 (by omega)
      have d9 := hps (5 + 6 * m + 3) (by omega)
      rw [show i + 1 + 2 = 1 + 6 * a by omega] at d3
      rw [show i + 1 + (5 + 6 * m + 3) = 1 + 6 * (a + m + 1) by omega,
        show 1 + (5 + 6 * m + 3) = 6 + 6 * m + 3 by omega] at d9
      simp only [Nat.reduceAdd] at *
      omega
    · have hlt : a + m + 1 < vs.length + 1 := by omega
      have key : ∀ v < 106, ¬ ((w128 v).reverse.getD 0 0 = 3 ∧ (w128 v).reverse.getD 1 0 = 3 ∧ (w128 v).reverse.getD 2 0 = 1 ∧
          (w128 v).reverse.getD 3 0 = 1 ∧ (w128 v).reverse.getD 4 0 = 1) := by decide
      have hg : G'.getD (a + m + 1) [] = (w128 (vs.getD (vs.length - (a + m + 1)) 0)).reverse := by
        have := hGv (vs.length - (a + m + 1)) (by omega)
        rw [List.getD_eq_getElem?_getD] at this ⊢
        rw [hG', List.getElem?_reverse (by simp; omega), List.getElem?_map, List.length_map, hGl,
          show vs.length + 1 - 1 - (a + m + 1) = vs.length - (a + m + 1) by omega, ← this,
          List.getElem?_eq_getElem (by omega)]
        rfl
      have g : ∀ r, r < 5 → (w128 (vs.getD (vs.length - (a + m + 1)) 0)).reverse.getD r 0 = code128Stop.getD (r + 1) 0 := by
        intro r hr
        rw [← hg, ← getD_groups 6 G' [] (fun g hg => (hG'6 g hg).1) (a + m + 1) r (by omega) (by omega), ← fe (r + 1) (by omega),
          seen_eq _ F n i hx hseen _ (by omega) (by omega), hE',
          show i + (6 + 6 * m + (r + 1)) = (6 * (a + m + 1) + r) + 1 by omega, List.getD_cons_succ]
      exact key _ (hall _ (by omega)) ⟨g 0 (by omega), g 1 (by omega), g 2 (by omega), g 3 (by omega), g 4 (by omega)⟩

example : ∃ ms, Drawn .debug .code128 "ƁHI".toList ms ∧ handScan scanCode128 (crossing 4 ms 3) = some "ƁHI".toList ∧
    OnlyWhole scanCode128 ms ∧ handScan scanCode128 (crossing 4 (ms.take 56) 3) = none :=
  ⟨_, ⟨_, rfl, rfl⟩, by decide +kernel, C104_code128 .debug "ƁHI".toList _ ⟨_, rfl, rfl⟩, by decide +kernel⟩

/-! ## Codabar -/

/-- The widths of the letters, each with the gap that follows. -/
def letters8 : List (List Nat) :=
  [[1, 1, 2, 2, 1, 2, 1, 1], [1, 2, 1, 2, 1, 1, 2, 1], [1, 1, 1, 2, 1, 2, 2, 1], [1, 1, 1, 2, 2, 2, 1, 1]]

/-- A letter, but for the part of its first bar that is cut off. -/
def EndsAs (L w : List Nat) (o : Nat) : Prop := L.getD 0 0 ≤ w.getD o 0 ∧ ∀ r, r < 8 → 0 < r → w.getD (o + r) 0 = L.getD r 0

/-- A letter, but for the part of its last bar that is cut off. -/
def StartsAs (L w : List Nat) (o : Nat) : Prop := L.getD 6 0 ≤ w.getD (o + 6) 0 ∧ ∀ r, r < 6 → w.getD (o + r) 0 = L.getD r 0

instance (L w : List Nat) (o : Nat) : Decidable (EndsAs L w o) := by unfold EndsAs; infer_instance
instance (L w : List Nat) (o : Nat) : Decidable (StartsAs L w o) := by unfold StartsAs; infer_instance

theorem codabar_aligned : ∀ c ∈ codabarAlphabet, ∀ L ∈ letters8,
    (EndsAs L (wU (unitOf c) ++ [1]) 0 → c ∈ codabarLetters ∧ (wU (unitOf c)).getD 0 0 = L.getD 0 0) ∧
      (StartsAs L (wU (unitOf c) ++ [1]) 0 → c ∈ codabarLetters ∧ (wU (unitOf c)).getD 6 0 = L.getD 6 0) := by decide

theorem codabar_crossed : ∀ c ∈ codabarAlphabet, ∀ d ∈ codabarAlphabet, ∀ L ∈ letters8, ∀ o ∈ [2, 4, 6],
    ¬ StartsAs L (wU (unitOf c) ++ [1] ++ (wU (unitOf d) ++ [1])) o := by decide +kernel

theorem codabar_back : ∀ c ∈ codabarAlphabet, ∀ L ∈ letters8, ¬ EndsAs L ((wU (unitOf c)).reverse ++ [1]) 0 := by decide

/-- Two characters one after the other, backwards. -/
def backPair (c d : Char) : List Nat := (wU (unitOf c)).reverse ++ [1] ++ ((wU (unitOf d)).reverse ++ [1])

theorem codabar_back_2 : ∀ c ∈ codabarAlphabet, ∀ d ∈ codabarAlphabet, ∀ L ∈ letters8,
    EndsAs L (backPair c d) 2 ∨ StartsAs L (backPair c d) 2 → c ∈ codabarLetters := by decide +kernel

theorem codabar_back_4 : ∀ c ∈ codabarAlphabet, ∀ d ∈ codabarAlphabet, ∀ L ∈ letters8, ¬ EndsAs L (backPair c d) 4 := by
  decide +kernel

theorem codabar_back_6 : ∀ c ∈ codabarAlphabet, ∀ d ∈ codabarAlphabet, ∀ L ∈ letters8, EndsAs L (backPair c d) 6 →
    d ∈ codabarLetters := by decide +kernel

/-- The widths a Codabar reader that insists on the frame has seen. -/
theorem codabar_seen (F : List Nat) (t : List Char) (hF : ∀ w ∈ F, 0 < w) (h : scanCodabarData (paint F) = some t) :
    ∃ m, 1 ≤ m ∧ F.length = 8 * m + 7 ∧ (∃ L ∈ letters8, ∀ r, r < 8 → F.getD r 0 = L.getD r 0) ∧
      ∃ L ∈ letters8, ∀ r, r < 7 → F.getD (8 * m + r) 0 = L.getD r 0 := by
  unfold scanCodabarData at h
  rw [Option.bind_eq_some_iff] at h
  obtain ⟨u, h1, h2⟩ := h
  unfold scanCodabar at h1
  simp only [Option.bind_eq_bind, Option.bind_eq_some_iff] at h1
  obtain ⟨es, h1, h3⟩ := h1
  have hne : F ≠ [] := by rintro rfl; simp [paint, paintFrom, elements] at h1
  rw [elements_paint F hF hne, Option.some.injEq] at h1
  subst h1
  obtain ⟨ws, e1, e2, e3⟩ := readAllFrom_inv 8 readCodabarChar [] (F ++ [1]) _ (by decide) h3
  rw [List.nil_append] at e1
  have hlet : ∀ w c, readCodabarChar w = some c → c ∈ codabarLetters → w ∈ letters8 := by
    intro w c hw hc
    have : ∀ c ∈ codabarLetters, ∃ L ∈ letters8, readCodabarChar L = some c := by decide
    obtain ⟨L, hL, e⟩ := this c hc
    rw [gap_eq _ codabar_keys 7 _ (fun _ => rfl) w L c hw e]
    exact hL
  have hu : ∃ a v z, u = a :: (v ++ [z]) ∧ a ∈ codabarLetters ∧ z ∈ codabarLetters := by
    unfold codabarData at h2
    split at h2
    · cases h2
    · next a rest =>
      split at h2
      · cases h2
      · next z hz =>
        split at h2
        · next hc =>
          have hne : rest ≠ [] := by rintro rfl; simp at hz
          rw [List.getLast?_eq_some_getLast hne, Option.some.injEq] at hz
          exact ⟨a, rest.dropLast, z, by rw [← hz, List.dropLast_concat_getLast hne], hc.1, hc.2.1⟩
        · cases h2
  obtain ⟨a, v, z, rfl, ha, hz⟩ := hu
  cases ws with
  | nil => simp at e3
  | cons w0 ws =>
    rw [List.map_cons, List.map_cons, List.cons.injEq] at e3
    have hl : ws ≠ [] := by rintro rfl; simp at e3
    obtain ⟨mid, wz, rfl⟩ : ∃ mid wz, ws = mid ++ [wz] := ⟨ws.dropLast, ws.getLast hl, (List.dropLast_concat_getLast hl).symm⟩
    have e4 := e3.2
    rw [List.map_append, List.map_append] at e4
    have e5 := List.append_inj_right' e4 (by simp)
    rw [List.map_singleton, List.map_singleton, List.cons.injEq] at e5
    have hw0 := e2 w0 (by simp)
    have hwz := e2 wz (by simp)
    have hfl := flatten_length 8 (w0 :: (mid ++ [wz])) e2
    have hlen : F.length + 1 = 8 * (mid.length + 2) := by
      have := congrArg List.length e1
      rw [hfl] at this
      simpa using this
    have hget : ∀ k, k < F.length → F.getD k 0 = (w0 :: (mid ++ [wz])).flatten.getD k 0 := by
      intro k hk
      rw [← e1, getD_left _ _ k hk]
    refine ⟨mid.length + 1, by omega, by omega, ⟨w0, hlet _ _ e3.1 ha, ?_⟩, ⟨wz, hlet _ _ e5.1 hz, ?_⟩⟩
    · intro r hr
      rw [hget r (by omega), List.flatten_cons, getD_left _ _ r (by omega)]
    · intro r hr
      rw [hget _ (by omega)]
      have := getD_groups 8 (w0 :: (mid ++ [wz])) [] e2 (mid.length + 1) r (by simp) (by omega)
      rw [List.append_nil] at this
      have hw : (mid ++ [wz]).getD mid.length [] = wz := by
        rw [List.getD_eq_getElem?_getD, List.getElem?_append_right (Nat.le_refl _)]; simp
      rw [this, List.getD_cons_succ, hw]

theorem one_getD (p : Char → List Nat) (s : List Char) (E : List Nat) (hp : ∀ c, (p c).length = 8)
    (hE : E ++ [1] = (s.map p).flatten) (k j : Nat) (hk : k < s.length) (hj : j < 8) (h : 8 * k + j < E.length) :
    E.getD (8 * k + j) 0 = (p (s.getD k ' ')).getD j 0 := by
  rw [← getD_left E [1] _ h, hE, ← List.append_nil (s.map p).flatten,
    getD_groups 8 (s.map p) [] (fun g hg => by obtain ⟨c, -, rfl⟩ := List.mem_map.mp hg; exact hp c) k j (by simpa using hk) hj]
  congr 1
  simp only [List.getD_eq_getElem?_getD, List.getElem?_map, List.getElem?_eq_getElem hk, Option.map_some, Option.getD_some]

theorem pair_getD (p : Char → List Nat) (s : List Char) (E : List Nat) (hp : ∀ c, (p c).length = 8)
    (hE : E ++ [1] = (s.map p).flatten) (k j : Nat) (hk : k + 1 < s.length) (hj : j < 16) (h : 8 * k + j < E.length) :
    E.getD (8 * k + j) 0 = (p (s.getD k ' ') ++ p (s.getD (k + 1) ' ')).getD j 0 := by
  rcases Nat.lt_or_ge j 8 with h8 | h8
  · rw [getD_left _ _ j (by rw [hp]; exact h8), one_getD p s E hp hE k j (by omega) h8 h]
  · obtain ⟨r, rfl⟩ : ∃ r, j = 8 + r := ⟨j - 8, by omega⟩
    have := getD_shift (p (s.getD k ' ')) (p (s.getD (k + 1) ' ')) r
    rw [hp] at this
    rw [this, show 8 * k + (8 + r) = 8 * (k + 1) + r by omega, one_getD p s E hp hE (k + 1) r hk (by omega) (by omega)]

/-- What a reader that has seen a part of a Codabar picture knows about it. -/
theorem codabar_part (E F : List Nat) (x n i : Nat) (t : List Char) (hE : ∀ w ∈ E, 0 < w ∧ w ≤ 2) (hx : 0 < x)
    (h : Seen E F x n i) (hF : scanCodabarData (paint F) = some t) :
    n = x ∧ ∃ m, 1 ≤ m ∧ F.length = 8 * m + 7 ∧ (∃ L ∈ letters8, EndsAs L E i ∧ F.getD 0 0 = L.getD 0 0) ∧
      ∃ L ∈ letters8, StartsAs L E (i + 8 * m) ∧ F.getD (F.length - 1) 0 = L.getD 6 0 := by
  obtain ⟨m, hm, hl, ⟨L, hL, f1⟩, L', hL', f2⟩ := codabar_seen F t h.pos hF
  have hlet : ∀ L ∈ letters8, L.getD 7 0 = 1 ∧ L.getD 3 0 = 2 := by decide
  obtain rfl := seen_unit E F x n i 2 2 7 3 h hE (by omega) (by omega) (by omega) (by omega) (by omega)
    ((f1 7 (by omega)).trans (hlet L hL).1) ((f1 3 (by omega)).trans (hlet L hL).2) hx
  have hin := seen_eq E F n i hx h
  refine ⟨rfl, m, hm, hl, ⟨L, hL, ⟨?_, ?_⟩, f1 0 (by omega)⟩, L', hL', ⟨?_, ?_⟩, ?_⟩
  · rw [← f1 0 (by omega)]
    exact Nat.le_of_mul_le_mul_left h.first hx
  · intro r hr hr0
    rw [← hin r hr0 (by omega), f1 r hr]
  · rw [← f2 6 (by omega)]
    have := Nat.le_of_mul_le_mul_left h.last hx
    rw [show F.length - 1 = 8 * m + 6 by omega] at this
    rw [Nat.add_assoc]; exact this
  · intro r hr
    rw [← f2 r (by omega), hin _ (by omega) (by omega), Nat.add_assoc]
  · rw [← f2 6 (by omega)]; congr 1; omega

theorem endsAs_congr (L E w : List Nat) (i o : Nat) (h : ∀ r, r < 8 → E.getD (i + r) 0 = w.getD (o + r) 0) (hs : EndsAs L E i) :
    EndsAs L w o := by
  refine ⟨?_, fun r hr h0 => ?_⟩
  · have := h 0 (by omega)
    rw [Nat.add_zero, Nat.add_zero] at this
    rw [← this]; exact hs.1
  · rw [← h r hr]; exact hs.2 r hr h0

theorem startsAs_congr (L E w : List Nat) (i o : Nat) (h : ∀ r, r < 7 → E.getD (i + r) 0 = w.getD (o + r) 0) (hs : StartsAs L E i) :
    StartsAs L w o := by
  refine ⟨?_, fun r hr => ?_⟩
  · rw [← h 6 (by omega)]; exact hs.1
  · rw [← h r (by omega)]; exact hs.2 r hr

theorem codabar_sym_back (us : List Codabar.Unit) (u : Codabar.Unit) : (codabarSymWidths us u).reverse ++ [1] =
    ((us ++ [u]).reverse.map (fun u => (wU u).reverse ++ [1])).flatten := by
  induction us with
  | nil => simp [codabarSymWidths]
  | cons y us ih =>
    have : codabarSymWidths (y :: us) u = wU y ++ [1] ++ codabarSymWidths us u := by simp [codabarSymWidths]
    rw [this, List.cons_append, List.reverse_cons (a := y), List.map_append, List.flatten_append, ← ih]
    simp

/-- C104, Codabar: data framed by two letters, for a reader that insists on the frame. -/
theorem C104_codabar (b : Build) (a z : Char) (d : List Char) (ms : List Nat) (hd : ∀ c ∈ d, c ∉ codabarLetters)
    (h : Drawn b .codabar (a :: d ++ [z]) ms) : OnlyWhole scanCodabarData ms := by
  obtain ⟨x, hx, rfl⟩ := h
  obtain ⟨cs, c, hs, hA, e⟩ := codabar_symbol _ x hx
  rw [e]
  have hint : ∀ k, k < (a :: d ++ [z]).length → (a :: d ++ [z]).getD k ' ' ∈ codabarLetters → k = 0 ∨ k + 1 = (a :: d ++ [z]).length := by
    intro k hk hm
    cases k with
    | zero => exact Or.inl rfl
    | succ k =>
      rw [List.cons_append, List.getD_cons_succ] at hm
      simp only [List.cons_append, List.length_cons, List.length_append, List.length_nil] at hk ⊢
      rcases Nat.lt_or_ge k d.length with h1 | h1
      · rw [List.getD_eq_getElem?_getD, List.getElem?_append_left h1, List.getElem?_eq_getElem h1] at hm
        exact absurd hm (hd _ (List.getElem_mem h1))
      · omega
  have hN : 2 ≤ (a :: d ++ [z]).length := by simp
  generalize a :: d ++ [z] = s at *
  have hget : ∀ k, k < s.length → s.getD k ' ' ∈ codabarAlphabet := by
    intro k hk
    rw [List.getD_eq_getElem?_getD, List.getElem?_eq_getElem hk]
    exact hA _ (List.getElem_mem hk)
  have hpos := codabar_widths_pos (cs.map unitOf) (unitOf c)
  obtain ⟨p, hp⟩ : ∃ p : Char → List Nat, p = fun c => wU (unitOf c) ++ [1] := ⟨_, rfl⟩
  have hp8 : ∀ c, (p c).length = 8 := by intro c; rw [hp]; simp [(wU_spec _).2.1]
  obtain ⟨p', hp'⟩ : ∃ p : Char → List Nat, p = fun c => (wU (unitOf c)).reverse ++ [1] := ⟨_, rfl⟩
  have hp8' : ∀ c, (p' c).length = 8 := by intro c; rw [hp']; simp [(wU_spec _).2.1]
  have hE : codabarSymWidths (cs.map unitOf) (unitOf c) ++ [1] = (s.map p).flatten := by
    rw [hs, hp]; simp [codabarSymWidths, List.flatMap_def, Function.comp_def]
  have hE' : (codabarSymWidths (cs.map unitOf) (unitOf c)).reverse ++ [1] = (s.reverse.map p').flatten := by
    rw [codabar_sym_back, hs, hp']
    simp [Function.comp_def]
  have hlen : (codabarSymWidths (cs.map unitOf) (unitOf c)).length + 1 = 8 * s.length := by
    have := congrArg List.length hE
    rw [flatten_length 8 _ (fun g hg => by obtain ⟨c, -, rfl⟩ := List.mem_map.mp hg; exact hp8 c)] at this
    simpa using this
  generalize codabarSymWidths (cs.map unitOf) (unitOf c) = E at *
  refine onlyWhole_of scanCodabarData E (fun w hw => (hpos w hw).1) (by omega) ?_ ?_
  · intro F x n i t hx hseen hF
    obtain ⟨rfl, m, hm, fl, ⟨L, hL, hl, f0⟩, L', hL', hl', f6⟩ := codabar_part E F x n i t hpos hx hseen hF
    have hfits := hseen.fits
    have hev := hseen.even
    obtain ⟨k, o, hi, ho⟩ : ∃ k o, i = 8 * k + o ∧ (o = 0 ∨ o ∈ [2, 4, 6]) := ⟨i / 8, i % 8, by omega, by simp; omega⟩
    rcases ho with rfl | ho
    · have g1 := endsAs_congr L E (p (s.getD k ' ')) i 0 (fun r hr => by
        rw [hi, Nat.add_zero, Nat.zero_add, one_getD p s E hp8 hE k r (by omega) hr (by omega)]) hl
      have g2 := startsAs_congr L' E (p (s.getD (k + m) ' ')) (i + 8 * m) 0 (fun r hr => by
        rw [show i + 8 * m + r = 8 * (k + m) + r by omega, Nat.zero_add, one_getD p s E hp8 hE (k + m) r (by omega) (by omega) (by omega)]) hl'
      rw [hp] at g1 g2
      obtain ⟨c1, e1⟩ := (codabar_aligned _ (hget k (by omega)) L hL).1 g1
      obtain ⟨c2, e2⟩ := (codabar_aligned _ (hget (k + m) (by omega)) L' hL').2 g2
      have i1 := hint k (by omega) c1
      have i2 := hint (k + m) (by omega) c2
      have hk : k = 0 := by omega
      subst hk
      have o1 := one_getD p s E hp8 hE 0 0 (by omega) (by omega) (by omega)
      have o2 := one_getD p s E hp8 hE (0 + m) 6 (by omega) (by omega) (by omega)
      rw [hp] at o1 o2
      simp only at o1 o2
      rw [getD_left _ _ _ (by rw [(wU_spec _).2.1]; omega)] at o1 o2
      refine ⟨by omega, by omega, ?_, ?_⟩
      · rw [f0, ← e1, ← o1]
      · rw [f6, ← e2, ← o2]; congr 2; omega
    · exfalso
      have ho6 : 2 ≤ o ∧ o ≤ 6 := by simp at ho; omega
      have g2 := startsAs_congr L' E (p (s.getD (k + m) ' ') ++ p (s.getD (k + m + 1) ' ')) (i + 8 * m) o (fun r hr => by
        rw [show i + 8 * m + r = 8 * (k + m) + (o + r) by omega, pair_getD p s E hp8 hE (k + m) (o + r) (by omega) (by omega) (by omega)]) hl'
      rw [hp] at g2
      exact codabar_crossed _ (hget (k + m) (by omega)) _ (hget (k + m + 1) (by omega)) L' hL' o ho g2
  · intro F x n i t hx hseen hF
    exfalso
    obtain ⟨rfl, m, hm, fl, ⟨L, hL, hl, f0⟩, L', hL', hl', f6⟩ :=
      codabar_part E.reverse F x n i t (fun w hw => hpos w (List.mem_reverse.mp hw)) hx hseen hF
    have hfits := hseen.fits
    have hev := hseen.even
    rw [List.length_reverse] at hfits
    have hint' : ∀ k, k < s.length → s.reverse.getD k ' ' ∈ codabarLetters → k = 0 ∨ k + 1 = s.length := by
      intro k hk hm
      rw [List.getD_eq_getElem?_getD, List.getElem?_reverse hk, ← List.getD_eq_getElem?_getD] at hm
      have := hint _ (by omega) hm
      omega
    have hget' : ∀ k, k < s.length → s.reverse.getD k ' ' ∈ codabarAlphabet := by
      intro k hk
      rw [List.getD_eq_getElem?_getD, List.getElem?_reverse hk, ← List.getD_eq_getElem?_getD]
      exact hget _ (by omega)
    have hone := one_getD p' s.reverse E.reverse hp8' hE'
    have hpair := pair_getD p' s.reverse E.reverse hp8' hE'
    simp only [List.length_reverse] at hone hpair
    obtain ⟨k, o, hi, ho⟩ : ∃ k o, i = 8 * k + o ∧ (o = 0 ∨ o = 2 ∨ o = 4 ∨ o = 6) := ⟨i / 8, i % 8, by omega, by omega⟩
    have hEnds : 0 < o → EndsAs L (backPair (s.reverse.getD k ' ') (s.reverse.getD (k + 1) ' ')) o := by
      intro h0
      have := endsAs_congr L E.reverse (p' (s.reverse.getD k ' ') ++ p' (s.reverse.getD (k + 1) ' ')) i o (fun r hr => by
        rw [show i + r = 8 * k + (o + r) by omega, hpair k (o + r) (by omega) (by omega) (by omega)]) hl
      rw [hp'] at this
      exact this
    rcases ho with rfl | rfl | rfl | rfl
    · have g1 := endsAs_congr L E.reverse (p' (s.reverse.getD k ' ')) i 0 (fun r hr => by
        rw [hi, Nat.add_zero, Nat.zero_add, hone k r (by omega) hr (by omega)]) hl
      rw [hp'] at g1
      exact codabar_back _ (hget' k (by omega)) L hL g1
    · have c1 := codabar_back_2 _ (hget' k (by omega)) _ (hget' (k + 1) (by omega)) L hL (Or.inl (hEnds (by omega)))
      have g2 := startsAs_congr L' E.reverse (p' (s.reverse.getD (k + m) ' ') ++ p' (s.reverse.getD (k + m + 1) ' ')) (i + 8 * m) 2
        (fun r hr => by
          rw [show i + 8 * m + r = 8 * (k + m) + (2 + r) by omega, hpair (k + m) (2 + r) (by omega) (by omega) (by omega)]) hl'
      rw [hp'] at g2
      have c2 := codabar_back_2 _ (hget' (k + m) (by omega)) _ (hget' (k + m + 1) (by omega)) L' hL' (Or.inr g2)
      have := hint' k (by omega) c1
      have := hint' (k + m) (by omega) c2
      omega
    · exact codabar_back_4 _ (hget' k (by omega)) _ (hget' (k + 1) (by omega)) L hL (hEnds (by omega))
    · have c1 := codabar_back_6 _ (hget' k (by omega)) _ (hget' (k + 1) (by omega)) L hL (hEnds (by omega))
      have := hint' (k + 1) (by omega) c1
      omega

example : ∃ ms, Drawn .debug .codabar ('A' :: "40".toList ++ ['D']) ms ∧ handScan scanCodabarData (crossing 4 ms 3) = some "40".toList ∧
    OnlyWhole scanCodabarData ms ∧ handScan scanCodabar (crossing 4 (ms.take 31) 3) = some "A40".toList ∧
    handScan scanCodabarData (crossing 4 (ms.take 31) 3) = none :=
  ⟨_, ⟨_, rfl, rfl⟩, by decide +kernel, C104_codabar .debug 'A' 'D' "40".toList _ (by decide) ⟨_, rfl, rfl⟩,
    by decide +kernel, by decide +kernel⟩

/-! ## The other symbologies -/

/-- A part of a row, not the whole of it, that is read as `t`. -/
def MisreadPart {α : Type} (scan : List Nat → Option α) (ms : List Nat) (t : α) : Prop :=
  ∃ part, part <:+: ms ∧ part.length < ms.length ∧ handScan scan (crossing 2 part 2) = some t

theorem misread_of {α : Type} (scan : List Nat → Option α) (ms : List Nat) (t : α) (a n : Nat)
    (h : ((ms.drop a).take n).length < ms.length ∧ handScan scan (crossing 2 ((ms.drop a).take n) 2) = some t) :
    MisreadPart scan ms t :=
  ⟨_, ((List.take_prefix n (ms.drop a)).isInfix).trans (List.drop_suffix a ms).isInfix, h⟩

/-- C104. Every other symbology has texts of which a part is read as another text: nothing but the reader's knowing the length
or the frame of the text can help. -/
theorem C104_misread (b : Build) :
    (∃ ms, Drawn b .code39 "7727".toList ms ∧ MisreadPart scanCode39 ms ".".toList) ∧
    (∃ x ms, Code39.withChecksum "77227".toList = .ok x ∧ Code39.encode x = .ok ms ∧ MisreadPart scanCode39Checked ms ".".toList) ∧
    (∃ ms, Drawn b .code11 "399".toList ms ∧ MisreadPart scanCode11 ms "-".toList) ∧
    (∃ ms, Drawn b .stf "005".toList ms ∧ MisreadPart scanStf ms [0, 5]) ∧
    (∃ ms, Drawn b .itf "3312".toList ms ∧ MisreadPart scanItf ms [1, 2]) ∧
    (∃ ms, Drawn b .supp "20000".toList ms ∧ MisreadPart scanAddOn ms [2, 0]) ∧
    (∃ ms, Drawn b .codabar "A1A1A".toList ms ∧ MisreadPart scanCodabarData ms "1".toList) := by
  refine ⟨⟨_, ⟨_, Or.inl rfl, rfl⟩, misread_of _ _ _ 27 39 (by decide +kernel)⟩,
    ⟨_, _, rfl, rfl, misread_of _ _ _ 27 52 (by decide +kernel)⟩,
    ⟨_, ⟨_, rfl, rfl⟩, misread_of _ _ _ 4 31 (by decide +kernel)⟩,
    ⟨_, ⟨_, rfl, rfl⟩, misread_of _ _ _ 11 46 (by decide +kernel)⟩, ?_, ?_,
    ⟨_, ⟨_, rfl, rfl⟩, misread_of _ _ _ 0 31 (by decide +kernel)⟩⟩
  · cases b
    · exact ⟨_, ⟨_, rfl, rfl⟩, misread_of _ _ _ 17 27 (by decide +kernel)⟩
    · exact ⟨_, ⟨_, rfl, rfl⟩, misread_of _ _ _ 17 27 (by decide +kernel)⟩
  · cases b
    · exact ⟨_, ⟨_, rfl, rfl⟩, misread_of _ _ _ 0 20 (by decide +kernel)⟩
    · exact ⟨_, ⟨_, rfl, rfl⟩, misread_of _ _ _ 0 20 (by decide +kernel)⟩

example : ∃ ms, Drawn .debug .code39 "7727".toList ms ∧ ¬ OnlyWhole scanCode39 ms := by
  obtain ⟨ms, h, part, h1, h2, h3⟩ := (C104_misread .debug).1
  refine ⟨ms, h, fun ho => ?_⟩
  have e : stretch 1 ms = ms := by simp [stretch]
  have := ho 1 2 2 part _ (by decide) (by rw [e]; exact h1) h3
  rw [this, e] at h2
  omega

end Barcoders
