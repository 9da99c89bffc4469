import Verif.Spec.Measure
import Verif.Props.Pictures
import Verif.Props.Distinct

/-!
# C66, C67: element widths as a scanner measures them
-/

set_option autoImplicit false

namespace Barcoders
open Spec

/-! ## The widths of a drawn symbol -/

/-- Every drawn symbol is alternating elements of positive width, one of which is one module wide. -/
theorem drawn_widths (b : Build) (k : Kind) (s : List Char) (ms : List Nat) (h : Drawn b k s ms) :
    ∃ ws, ms = paint ws ∧ ws ≠ [] ∧ (∀ w ∈ ws, 0 < w) ∧ 1 ∈ ws := by
  cases k with
  | ean13 =>
    obtain ⟨x, hx, he⟩ := h
    obtain ⟨d0, ls, rs, h0, hls, hrs, ll, lr, -, e⟩ := ean13_symbol b s x hx
    rw [e, Outcome.ok.injEq] at he
    exact ⟨_, he.symm, halves_ne_nil _ _, fun w hw => (ean13Widths_pos d0 ls rs hls hrs w hw).1, by
      simp [ean13Widths, halvesWidths]⟩
  | ean8 =>
    obtain ⟨x, hx, he⟩ := h
    obtain ⟨ls, rs, hls, hrs, ll, lr, -, e⟩ := ean8_symbol b s x hx
    rw [e, Outcome.ok.injEq] at he
    exact ⟨_, he.symm, halves_ne_nil _ _, fun w hw => (halves_pos _ _ (flatMap_wA_pos _ hls) (flatMap_wA_pos _ hrs) w hw).1, by
      simp [halvesWidths]⟩
  | upca =>
    obtain ⟨x, hx, he⟩ := h
    obtain ⟨ls, rs, hls, hrs, ll, lr, -, e⟩ := upca_symbol b s x hx
    rw [e, Outcome.ok.injEq] at he
    exact ⟨_, he.symm, halves_ne_nil _ _, fun w hw => (halves_pos _ _ (flatMap_wA_pos _ hls) (flatMap_wA_pos _ hrs) w hw).1, by
      simp [halvesWidths]⟩
  | supp =>
    obtain ⟨x, hx, he⟩ := h
    obtain ⟨ws, e, hl, hd, -, -, h25⟩ := supp_symbol s x hx
    rw [e, Outcome.ok.injEq] at he
    obtain ⟨p, ps, rfl⟩ := List.exists_cons_of_ne_nil (l := ws) (by rintro rfl; simp at hl; omega)
    exact ⟨_, he.symm, by simp [suppWidths], fun w hw => (suppWidths_pos _ hd w hw).1, by simp [suppWidths]⟩
  | code39 =>
    obtain ⟨x, hx, he⟩ := h
    have : ∃ t, (∀ c ∈ t, c ∈ code39Alphabet) ∧ Code39.encode x = .ok (paint (code39Widths t)) := by
      rcases hx with hx | hx
      · exact ⟨_, code39_symbol s false x hx⟩
      · exact ⟨_, code39_symbol s true x hx⟩
    obtain ⟨t, ht, e⟩ := this
    rw [e, Outcome.ok.injEq] at he
    exact ⟨_, he.symm, by rw [code39Widths, List.flatMap_cons]; simp, fun w hw => (code39_widths_pos t ht w hw).1, by
      rw [code39Widths, List.flatMap_cons]; simp⟩
  | code93 =>
    obtain ⟨x, hx, he⟩ := h
    obtain ⟨hA, e⟩ := code93_symbol s x hx
    rw [e, Outcome.ok.injEq] at he
    exact ⟨_, he.symm, by simp [code93SymWidths], fun w hw => (code93_widths_pos _ hA w hw).1, by simp [code93SymWidths]⟩
  | code11 =>
    obtain ⟨x, hx, he⟩ := h
    obtain ⟨hA, e⟩ := code11_symbol s x hx
    rw [e, Outcome.ok.injEq] at he
    exact ⟨_, he.symm, by rw [code11SymWidths, List.flatMap_cons]; simp, fun w hw => (code11_widths_pos _ hA w hw).1, by
      rw [code11SymWidths, List.flatMap_cons]; simp⟩
  | codabar =>
    obtain ⟨x, hx, he⟩ := h
    obtain ⟨cs, c, rfl, hA, e⟩ := codabar_symbol s x hx
    rw [e] at he
    have h1 : ∀ c ∈ codabarAlphabet, 1 ∈ wU (unitOf c) := by decide
    have h1 := h1 c (hA c (by simp))
    have hm : 1 ∈ codabarSymWidths (cs.map unitOf) (unitOf c) := by
      rw [codabarSymWidths]; exact List.mem_append_right _ h1
    exact ⟨_, he.symm, List.ne_nil_of_mem hm, fun w hw => (codabar_widths_pos _ _ w hw).1, hm⟩
  | stf =>
    obtain ⟨x, hx, he⟩ := h
    obtain ⟨hD, e⟩ := stf_symbol s x hx
    rw [e, Outcome.ok.injEq] at he
    exact ⟨_, he.symm, by simp [stfWidths], fun w hw => (stf_pos _ (digits_lt s hD) w hw).1, by simp [stfWidths]⟩
  | itf =>
    obtain ⟨x, hx, he⟩ := h
    obtain ⟨ds, hd, hev, hlen, hD, hc, e⟩ := itf_symbol b s x hx
    rw [e, Outcome.ok.injEq] at he
    exact ⟨_, he.symm, by simp [itfWidths], fun w hw => (itf_pos ds hd w hw).1, by simp [itfWidths]⟩
  | code128 =>
    obtain ⟨x, hx, he⟩ := h
    obtain ⟨set, data, c, -, -, hv, e⟩ := code128_symbol b s x ms hx he
    exact ⟨_, e, by simp [code128Widths, code128Stop], fun w hw => (code128_widths_pos _ hv w hw).1, by
      simp [code128Widths, code128Stop]⟩

/-! ## C66: wide elements -/

/-- C66. Code 39, Code 11 and Codabar: every element is one or two modules wide, and both widths occur. -/
theorem C66_two_widths (b : Build) (k : Kind) (s : List Char) (ms : List Nat) (h : Drawn b k s ms)
    (hk : k = .code39 ∨ k = .code11 ∨ k = .codabar) :
    ∃ es, elements ms = some es ∧ (∀ w ∈ es, w = 1 ∨ w = 2) ∧ 1 ∈ es ∧ 2 ∈ es := by
  have key : ∀ ws : List Nat, (∀ w ∈ ws, 0 < w ∧ w ≤ 2) → 1 ∈ ws → 2 ∈ ws →
      ∃ es, elements (paint ws) = some es ∧ (∀ w ∈ es, w = 1 ∨ w = 2) ∧ 1 ∈ es ∧ 2 ∈ es := fun ws h1 h2 h3 =>
    ⟨ws, elements_paint ws (fun w hw => (h1 w hw).1) (List.ne_nil_of_mem h2), fun w hw => by have := h1 w hw; omega, h2, h3⟩
  rcases hk with rfl | rfl | rfl
  · obtain ⟨x, hx, he⟩ := h
    have : ∃ t, (∀ c ∈ t, c ∈ code39Alphabet) ∧ Code39.encode x = .ok (paint (code39Widths t)) := by
      rcases hx with hx | hx
      · exact ⟨_, code39_symbol s false x hx⟩
      · exact ⟨_, code39_symbol s true x hx⟩
    obtain ⟨t, ht, e⟩ := this
    rw [e, Outcome.ok.injEq] at he
    subst he
    have h1 : 1 ∈ w39 '*' ∧ 2 ∈ w39 '*' := by decide
    exact key _ (code39_widths_pos t ht) (List.mem_append_right _ h1.1) (List.mem_append_right _ h1.2)
  · obtain ⟨x, hx, he⟩ := h
    obtain ⟨hA, e⟩ := code11_symbol s x hx
    rw [e, Outcome.ok.injEq] at he
    subst he
    have h1 : 1 ∈ w11 '*' ∧ 2 ∈ w11 '*' := by decide
    exact key _ (code11_widths_pos _ hA) (List.mem_append_right _ h1.1) (List.mem_append_right _ h1.2)
  · obtain ⟨x, hx, he⟩ := h
    obtain ⟨cs, c, rfl, hA, e⟩ := codabar_symbol s x hx
    rw [e] at he
    subst he
    have h1 : ∀ c ∈ codabarAlphabet, 1 ∈ wU (unitOf c) ∧ 2 ∈ wU (unitOf c) := by decide
    have h1 := h1 c (hA c (by simp))
    exact key _ (codabar_widths_pos _ _) (List.mem_append_right _ h1.1) (List.mem_append_right _ h1.2)

example : ∃ ms, Drawn .debug .code11 "1".toList ms ∧ elements ms =
    some [1, 1, 2, 2, 1, 1, 2, 1, 1, 1, 2, 1, 2, 1, 1, 1, 2, 1, 1, 1, 2, 2, 1] := ⟨_, ⟨_, rfl, rfl⟩, by decide⟩

/-- C66. Interleaved 2 of 5: the wide elements of the digits are three modules wide, but the wide bar of the stop pattern is
two modules wide. -/
theorem C66_itf_widths (b : Build) (s : List Char) (ms : List Nat) (h : Drawn b .itf s ms) :
    ∃ front, elements ms = some (front ++ [2, 1, 1]) ∧ (∀ w ∈ front, w = 1 ∨ w = 3) ∧ 3 ∈ front := by
  obtain ⟨es, he, hm⟩ := drawn_marks b .itf s ms h
  obtain ⟨x, hx, he'⟩ := h
  obtain ⟨ds, hd, hev, hlen, hD, hc, e⟩ := itf_symbol b s x hx
  rw [e, Outcome.ok.injEq] at he'
  subst he'
  have hel := elements_paint (itfWidths ds) (fun w hw => (itf_pos ds hd w hw).1) (by simp [itfWidths])
  rw [hel, Option.some.injEq] at he
  subst he
  have h13 : ∀ a < 10, ∀ c < 10, ∀ w ∈ wItf (a, c), w = 1 ∨ w = 3 := by decide
  have hfront : ∀ w ∈ [1, 1, 1, 1] ++ (pairs ds).flatMap wItf, w = 1 ∨ w = 3 := by
    intro w hw
    rcases List.mem_append.mp hw with hw | hw
    · simp at hw; omega
    · obtain ⟨p, hp, hw⟩ := List.mem_flatMap.mp hw
      exact h13 p.1 (pairs_lt ds hd p hp).1 p.2 (pairs_lt ds hd p hp).2 w hw
  refine ⟨[1, 1, 1, 1] ++ (pairs ds).flatMap wItf, hel, hfront, ?_⟩
  apply Classical.byContradiction
  intro h3
  have h3w := hm.2.2.2.2.2.1
  have : widest (itfWidths ds) ≤ 2 := by
    refine widest_le _ 2 (fun w hw => ?_)
    rw [itfWidths, ← List.append_assoc] at hw
    rcases List.mem_append.mp hw with hw | hw
    · rcases hfront w hw with rfl | rfl
      · omega
      · exact absurd hw h3
    · simp at hw; omega
  omega

example : ∃ ms, Drawn .debug .itf "12".toList ms ∧
    elements ms = some ([1, 1, 1, 1, 3, 1, 1, 3, 1, 1, 1, 1, 3, 3] ++ [2, 1, 1]) := ⟨_, ⟨_, rfl, rfl⟩, by decide⟩

/-- C66. Standard 2 of 5: the wide bars of the digits are three modules wide, those of start and stop two. -/
theorem C66_stf_widths (b : Build) (s : List Char) (ms : List Nat) (h : Drawn b .stf s ms) :
    ∃ mid, elements ms = some ([2, 1, 2, 1, 1, 1] ++ mid ++ [2, 1, 1, 1, 2, 1]) ∧ (∀ w ∈ mid, w = 1 ∨ w = 3) ∧ 3 ∈ mid := by
  obtain ⟨x, hx, he⟩ := h
  have hne : s ≠ [] := by
    rintro rfl
    rw [stf_new] at hx
    simp [byteLen] at hx
  obtain ⟨hD, e⟩ := stf_symbol s x hx
  rw [e, Outcome.ok.injEq] at he
  subst he
  have hd := digits_lt s hD
  have h13 : ∀ d < 10, (∀ w ∈ wStf d, w = 1 ∨ w = 3) ∧ 3 ∈ wStf d := by decide
  refine ⟨(digitsOf s).flatMap wStf, elements_paint _ (fun w hw => (stf_pos _ hd w hw).1) (by simp [stfWidths]), ?_, ?_⟩
  · intro w hw
    obtain ⟨d, hm, hw⟩ := List.mem_flatMap.mp hw
    exact (h13 d (hd d hm)).1 w hw
  · obtain ⟨c, r, rfl⟩ := List.exists_cons_of_ne_nil hne
    have := (h13 (digitValue c) (hd _ (by simp [digitsOf]))).2
    simp [digitsOf, this]

example : ∃ ms, Drawn .debug .stf "1".toList ms ∧
    elements ms = some ([2, 1, 2, 1, 1, 1] ++ [3, 1, 1, 1, 1, 1, 1, 1, 3, 1] ++ [2, 1, 1, 1, 2, 1]) := ⟨_, ⟨_, rfl, rfl⟩, by decide⟩

/-- C66. So no 2 of 5 symbol has a single wide-to-narrow ratio. -/
theorem C66_tf_no_ratio (b : Build) (k : Kind) (s : List Char) (ms : List Nat) (h : Drawn b k s ms)
    (hk : k = .stf ∨ k = .itf) : ∃ es, elements ms = some es ∧ ¬ ∃ r, ∀ w ∈ es, w = 1 ∨ w = r := by
  rcases hk with rfl | rfl
  · obtain ⟨mid, h1, -, h3⟩ := C66_stf_widths b s ms h
    refine ⟨_, h1, ?_⟩
    rintro ⟨r, hr⟩
    have := hr 2 (by simp)
    have := hr 3 (by simp [h3])
    omega
  · obtain ⟨fr, h1, -, h3⟩ := C66_itf_widths b s ms h
    refine ⟨_, h1, ?_⟩
    rintro ⟨r, hr⟩
    have := hr 2 (by simp)
    have := hr 3 (by simp [h3])
    omega

example : ∃ ms, Drawn .debug .itf "12".toList ms ∧
    elements ms = some [1, 1, 1, 1, 3, 1, 1, 3, 1, 1, 1, 1, 3, 3, 2, 1, 1] :=
  ⟨_, ⟨_, rfl, rfl⟩, by decide⟩
example : ∃ ms, Drawn .release .stf "7".toList ms ∧
    elements ms = some [2, 1, 2, 1, 1, 1, 1, 1, 1, 1, 1, 1, 3, 1, 3, 1, 2, 1, 1, 1, 2, 1] :=
  ⟨_, ⟨_, rfl, rfl⟩, by decide⟩
example : ∃ ms, Drawn .debug .codabar "A1B".toList ms ∧
    elements ms = some [1, 1, 2, 2, 1, 2, 1, 1, 1, 1, 1, 1, 2, 2, 1, 1, 1, 1, 1, 2, 1, 2, 2] :=
  ⟨_, ⟨_, rfl, rfl⟩, by decide⟩

/-! ## C67: the module width need not be known -/

theorem stretch_paintFrom (x c : Nat) (ws : List Nat) : stretch x (paintFrom c ws) = paintFrom c (ws.map (· * x)) := by
  induction ws generalizing c with
  | nil => rfl
  | cons w ws ih =>
    have h1 : stretch x (List.replicate w c) = List.replicate (w * x) c := by
      clear ih
      induction w with
      | zero => simp [stretch]
      | succ w ih =>
        rw [List.replicate_succ, stretch, List.flatMap_cons]
        rw [stretch] at ih
        rw [ih, List.replicate_append_replicate, Nat.add_mul, Nat.one_mul, Nat.add_comm]
    rw [paintFrom, List.map_cons, paintFrom, ← ih, stretch, List.flatMap_append]
    rw [stretch] at h1
    rw [h1, stretch]

theorem narrowest_scaled (ws : List Nat) (x : Nat) (h : ∀ w ∈ ws, 0 < w) (h1 : 1 ∈ ws) : narrowest (ws.map (· * x)) = x := by
  have hge : ∀ ws : List Nat, ws ≠ [] → (∀ w ∈ ws, 0 < w) → x ≤ narrowest (ws.map (· * x)) := by
    intro ws
    induction ws with
    | nil => simp
    | cons w ws ih =>
      intro _ hp
      have hw : x ≤ w * x := Nat.le_mul_of_pos_left x (hp w (by simp))
      cases ws with
      | nil => exact hw
      | cons v vs =>
        have := ih (by simp) (fun u hu => hp u (by simp [hu]))
        rw [List.map_cons] at this ⊢
        rw [List.map_cons, narrowest]
        · omega
        · simp
  have hle : ∀ ws : List Nat, 1 ∈ ws → narrowest (ws.map (· * x)) ≤ x := by
    intro ws
    induction ws with
    | nil => simp
    | cons w ws ih =>
      intro hm
      cases ws with
      | nil => simp at hm; subst hm; simp [narrowest]
      | cons v vs =>
        rw [List.map_cons, List.map_cons, narrowest]
        · rcases List.mem_cons.mp hm with rfl | hm
          · omega
          · have := ih hm
            rw [List.map_cons] at this
            omega
        · simp
  exact Nat.le_antisymm (hle ws h1) (hge ws (List.ne_nil_of_mem h1) h)

theorem measure_stretch (x : Nat) (hx : 0 < x) (ws : List Nat) (h : ∀ w ∈ ws, 0 < w) (h1 : 1 ∈ ws) :
    measureRow (stretch x (paint ws)) = some (x, paint ws) := by
  have hpos : ∀ w ∈ ws.map (· * x), 0 < w := by
    intro w hw
    obtain ⟨v, hv, rfl⟩ := List.mem_map.mp hw
    exact Nat.mul_pos (h v hv) hx
  have hr : runs (stretch x (paint ws)) = colours 1 (ws.map (· * x)) := by
    rw [paint, stretch_paintFrom, runs_paintFrom 1 (by omega) _ hpos]
  have hall : ∀ (c : Nat) (ws : List Nat), (colours c (ws.map (· * x))).all (fun r => r.2 % x == 0) = true := by
    intro c ws
    induction ws generalizing c with
    | nil => rfl
    | cons w ws ih => simp [colours, ih]
  have hback : ∀ (c : Nat) (ws : List Nat), (colours c (ws.map (· * x))).flatMap (fun r => List.replicate (r.2 / x) r.1) = paintFrom c ws := by
    intro c ws
    induction ws generalizing c with
    | nil => rfl
    | cons w ws ih => simp [colours, paintFrom, ih, Nat.mul_div_cancel _ hx]
  simp only [measureRow]
  rw [hr, colours_snd, narrowest_scaled ws x h h1, if_pos ⟨hx, hall 1 ws⟩, hback]
  rfl

/-- C67. The module width of any drawn symbol, and the modules, can be recovered from any row of cells that shows it: the
narrowest element is one module. -/
theorem C67_measure (b : Build) (k : Kind) (s : List Char) (ms : List Nat) (h : Drawn b k s ms) (x : Nat) (hx : 0 < x) :
    measureRow (stretch x ms) = some (x, ms) := by
  obtain ⟨ws, rfl, -, hp, h1⟩ := drawn_widths b k s ms h
  exact measure_stretch x hx ws hp h1

example : ∃ ms, Drawn .debug .code39 "A".toList ms ∧ (stretch 3 ms).length = 114 ∧ measureRow (stretch 3 ms) = some (3, ms) :=
  ⟨_, ⟨_, Or.inl rfl, rfl⟩, by decide, by decide⟩

theorem drawn_binary (b : Build) (k : Kind) (s : List Char) (ms : List Nat) (h : Drawn b k s ms) : ∀ m ∈ ms, m = 0 ∨ m = 1 := by
  obtain ⟨ws, rfl, -⟩ := drawn_widths b k s ms h
  exact paintFrom_binary 1 (by omega) ws

/-- C67. Any line of the text drawn by `ASCII::generate` shows the module width and the modules. -/
theorem C67_ascii (b : Build) (k : Kind) (s : List Char) (ms : List Nat) (h : Drawn b k s ms) (g : Ascii.ASCII)
    (hh : 0 < g.height) (hx : 0 < g.xdim) :
    ∃ out, Ascii.generate g ms = .ok out ∧ (splitLines out).length = g.height ∧
      ∀ line ∈ splitLines out, (line.mapM readCell).bind measureRow = some (g.xdim, ms) := by
  have hb := drawn_binary b k s ms h
  refine ⟨_, C35_ascii_output g ms hb, ?_⟩
  obtain ⟨n, hn⟩ : ∃ n, g.height = n + 1 := ⟨g.height - 1, by omega⟩
  rw [hn, splitLines_join _ n (asciiRow_no_newline _ _)]
  refine ⟨List.length_replicate, ?_⟩
  intro line hl
  rw [List.eq_of_mem_replicate hl, asciiRow_cells g.xdim ms hb, Option.bind_some]
  exact C67_measure b k s ms h g.xdim hx

example : ∃ ms out, Drawn .debug .supp "05".toList ms ∧ Ascii.generate ⟨2, 3⟩ ms = .ok out ∧
    (splitLines out).map (fun l => (l.mapM readCell).bind measureRow) = [some (3, ms), some (3, ms)] :=
  ⟨_, _, ⟨_, rfl, rfl⟩, rfl, by decide +kernel⟩

theorem readAllFrom_uniform_inv (x : Nat) (acc L bits : List Nat) (ha : acc.length < x)
    (h : readAllFrom x uniform acc L = some bits) : acc ++ L = stretch x bits := by
  induction L generalizing acc bits with
  | nil =>
    rw [readAllFrom] at h
    split at h
    · cases h
      rename_i h0
      subst h0
      rfl
    · cases h
  | cons e L ih =>
    rw [readAllFrom] at h
    split at h
    · rename_i hlen
      cases hu : uniform (acc ++ [e]) with
      | none => rw [hu] at h; cases h
      | some m =>
        cases hr : readAllFrom x uniform [] L with
        | none => rw [hu, hr] at h; cases h
        | some ms =>
          rw [hu, hr] at h
          cases h
          have h1 := ih [] ms (by simp; omega) hr
          rw [List.nil_append] at h1
          have h2 : acc ++ [e] = List.replicate x m := by
            generalize hg : acc ++ [e] = g at hu
            have hgl : g.length = x := by rw [← hg]; simp; omega
            cases g with
            | nil => cases hu
            | cons a g =>
              simp only [uniform] at hu
              split at hu
              · cases hu
                rename_i hall
                rw [← hgl, List.length_cons, List.replicate_succ]
                congr 1
                rw [List.eq_replicate_iff]
                exact ⟨rfl, fun c hc => by simpa using List.all_eq_true.mp hall c hc⟩
              · cases hu
          rw [show acc ++ e :: L = (acc ++ [e]) ++ L by simp, h2, h1]
          rfl
    · rename_i hlen
      have := ih (acc ++ [e]) bits (by simp; omega) h
      simpa using this

/-- C67. Any line of pixels across the bars of an image shows the module width and the modules. -/
theorem C67_image (b : Build) (k : Kind) (s : List Char) (ms : List Nat) (h : Drawn b k s ms) (b' : Build) (g : Image.Image)
    (hx : 0 < g.xdim) (hne : g.foreground ≠ g.background) (hw : ms.length * g.xdim < 2 ^ 32)
    (hs : 4 * (ms.length * g.xdim) * g.height < 2 ^ 63) :
    ∃ buf, Image.generateBuffer b' g ms = .ok buf ∧ lineCount buf.w buf.h (headingOf g.rotation) = g.height ∧
      ∀ j < g.height, measureRow ((pictureLine buf.w buf.h buf.px j (headingOf g.rotation)).map
        (fun c => if c = g.background then 0 else 1)) = some (g.xdim, ms) := by
  obtain ⟨buf, h1, h2, h3⟩ := (C44_generators_agree ms (drawn_binary b k s ms h)).image b' g hx hne hw hs
  refine ⟨buf, h1, h2, fun j hj => ?_⟩
  have := readAllFrom_uniform_inv g.xdim [] _ ms hx (h3 j hj)
  rw [List.nil_append] at this
  rw [this]
  exact C67_measure b k s ms h g.xdim hx

/-- Seven cells per module. -/
example : ∃ ms, Drawn .debug .ean8 "5512345".toList ms ∧ measureRow (stretch 7 ms) = some (7, ms) ∧
    ((measureRow (stretch 7 ms)).map Prod.snd).bind scanEan8 = some [5, 5, 1, 2, 3, 4, 5, 7] :=
  ⟨_, ⟨_, rfl, rfl⟩, by decide +kernel, by decide +kernel⟩
/-- Without an element one module wide the module width could not be recovered. -/
example : measureRow (stretch 3 [1, 1, 0, 0, 0, 0, 1, 1]) = some (6, [1, 0, 0, 1]) := by decide

end Barcoders
