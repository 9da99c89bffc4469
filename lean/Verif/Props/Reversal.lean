import Verif.Props.Cross

/-!
# C34: no symbol is another symbol read backwards
-/

set_option autoImplicit false

namespace Barcoders

open Spec

theorem paint_reverse_odd (ws : List Nat) (h : ws.length % 2 = 1) : (paint ws).reverse = paint ws.reverse := by
  unfold paint
  rw [paintFrom_reverse 1 (by omega) ws]
  have : Spec.flip 1 (ws.length + 1) = 1 := by unfold Spec.flip; rw [if_pos (by omega)]
  rw [this]

/-- Equal modules, equal widths. -/
theorem paint_inj (ws vs : List Nat) (hw : ∀ w ∈ ws, 0 < w) (hv : ∀ w ∈ vs, 0 < w) (hne : ws ≠ []) (hne' : vs ≠ [])
    (h : paint ws = paint vs) : ws = vs := by
  have := congrArg elements h
  rw [elements_paint ws hw hne, elements_paint vs hv hne', Option.some.injEq] at this
  exact this

/-- A row of odd many widths that reads backwards as another has that one's widths reversed. -/
theorem reversed_widths (ws vs : List Nat) (k : Nat) (hw : ∀ w ∈ ws, 0 < w ∧ w ≤ k) (hv : ∀ w ∈ vs, 0 < w ∧ w ≤ k)
    (ho : vs.length % 2 = 1) (hne : ws ≠ []) (h : paint ws = (paint vs).reverse) : ws = vs.reverse := by
  rw [paint_reverse_odd vs ho] at h
  refine paint_inj _ _ (fun w hm => (hw w hm).1) (fun w hm => (hv w (List.mem_reverse.mp hm)).1) hne ?_ h
  intro h0
  rw [List.reverse_eq_nil_iff] at h0
  rw [h0] at ho
  simp at ho

theorem halves_reverse (l r : List Nat) : (halvesWidths l r).reverse = halvesWidths r.reverse l.reverse := by
  simp [halvesWidths]

theorem halves_left (l r l' r' : List Nat) (hl : l.length = l'.length) (h : halvesWidths l r = halvesWidths l' r') :
    l = l' := by
  unfold halvesWidths at h
  rw [List.append_right_inj] at h
  exact List.append_inj_left h hl

theorem wA_reverse (ds : List Nat) : (ds.flatMap wA).reverse = (ds.reverse.map (fun d => (true, d))).flatMap wAB := by
  rw [List.reverse_flatMap, List.flatMap_map]
  rfl

theorem wA_wAB (ds : List Nat) : ds.flatMap wA = (ds.map (fun d => (false, d))).flatMap wAB := by
  rw [List.flatMap_map]
  rfl

theorem wAB_inj (p q : Bool × Nat) (hp : p.2 < 10) (hq : q.2 < 10) (h : wAB p = wAB q) : p = q := by
  have h1 := (wAB_spec p.2 hp p.1).2
  have h2 := (wAB_spec q.2 hq q.1).2
  rw [show wAB (p.1, p.2) = wAB (q.1, q.2) from h, h2, Option.some.injEq] at h1
  exact h1.symm

theorem wAB_codes_inj (ps qs : List (Bool × Nat)) (hp : ∀ p ∈ ps, p.2 < 10) (hq : ∀ q ∈ qs, q.2 < 10)
    (h : ps.flatMap wAB = qs.flatMap wAB) : ps = qs :=
  flatMap_codes_inj 4 (by omega) wAB ps qs (fun p hm => (wAB_spec p.2 (hp p hm) p.1).1)
    (fun q hm => (wAB_spec q.2 (hq q hm) q.1).1) (fun p hm q hn => wAB_inj p q (hp p hm) (hq q hn)) h

theorem mapped_lt (s : Bool) (ds : List Nat) (h : Digits ds) : ∀ p ∈ ds.map (fun d => (s, d)), p.2 < 10 := by
  intro p hp
  obtain ⟨d, hd, rfl⟩ := List.mem_map.mp hp
  exact h d hd

theorem digits_reverse (ds : List Nat) (h : Digits ds) : Digits ds.reverse := fun d hd => h d (List.mem_reverse.mp hd)

/-- The reversal of a symbol with two halves of set-A digits has set-B digits on the left. -/
theorem halvesA_not_reversed (ls rs ls' rs' : List Nat) (hls : Digits ls) (hrs : Digits rs) (hls' : Digits ls')
    (hrs' : Digits rs') (hl : ls.length = rs'.length) (hne : ls ≠ []) :
    paint (halvesWidths (ls.flatMap wA) (rs.flatMap wA)) ≠
      (paint (halvesWidths (ls'.flatMap wA) (rs'.flatMap wA))).reverse := by
  intro h
  have h1 := reversed_widths _ _ 4 (halves_pos _ _ (flatMap_wA_pos _ hls) (flatMap_wA_pos _ hrs))
    (halves_pos _ _ (flatMap_wA_pos _ hls') (flatMap_wA_pos _ hrs')) (by
      simp [halvesWidths, wA_length_of _ hls', wA_length_of _ hrs']; omega) (halves_ne_nil _ _) h
  rw [halves_reverse] at h1
  have h2 := halves_left _ _ _ _ (by
    rw [List.length_reverse, wA_length_of _ hls, wA_length_of _ hrs', hl]) h1
  rw [wA_reverse, wA_wAB] at h2
  have h3 := wAB_codes_inj _ _ (mapped_lt _ _ hls) (mapped_lt _ _ (digits_reverse _ hrs')) h2
  obtain ⟨d, ds, rfl⟩ := List.exists_cons_of_ne_nil hne
  cases hr : rs'.reverse with
  | nil => rw [hr] at h3; simp at h3
  | cons e es => rw [hr] at h3; simp at h3

theorem ean13_not_reversed (d0 : Nat) (ls rs : List Nat) (d0' : Nat) (ls' rs' : List Nat) (h0 : d0 < 10) (h0' : d0' < 10)
    (hls : Digits ls) (hrs : Digits rs) (hls' : Digits ls') (hrs' : Digits rs') (ll : ls.length = 6)
    (ll' : ls'.length = 6) (lr' : rs'.length = 6) :
    paint (ean13Widths d0 ls rs) ≠ (paint (ean13Widths d0' ls' rs')).reverse := by
  intro h
  have hs := (parity_spec d0 h0).2.2.2
  have hs' := (parity_spec d0' h0').2.2.2
  have hz := zip_snd_lt (setsOf d0) ls hls
  have hz' := zip_snd_lt (setsOf d0') ls' hls'
  have h1 := reversed_widths _ _ 4 (ean13Widths_pos d0 ls rs hls hrs) (ean13Widths_pos d0' ls' rs' hls' hrs') (by
      simp [ean13Widths, halvesWidths, wAB_length_of _ hz', wA_length_of _ hrs', ll', lr', hs'.2.2]) (halves_ne_nil _ _) h
  rw [ean13Widths, ean13Widths, halves_reverse] at h1
  have h2 := halves_left _ _ _ _ (by
    rw [List.length_reverse, wAB_length_of _ hz, wA_length_of _ hrs', lr', List.length_zip, ll, hs.2.2]; rfl) h1
  rw [wA_reverse] at h2
  have h3 := wAB_codes_inj _ _ hz (mapped_lt _ _ (digits_reverse _ hrs')) h2
  rw [hs.1] at h3
  match ls, ll with
  | l :: ls, _ =>
    cases hr : rs'.reverse with
    | nil => rw [hr] at h3; simp at h3
    | cons e es => rw [hr] at h3; simp at h3

/-- C34. No accepted EAN-13 (EAN-8, UPC-A) symbol is an accepted symbol of the same kind read backwards. -/
theorem C34_ean_not_reversed (b b' : Build) (s t : List Char) (ms : List Nat) :
    (∀ x y, Ean13.new b s = .ok x → Ean13.new b' t = .ok y → Ean13.encode b x = .ok ms →
      Ean13.encode b' y ≠ .ok ms.reverse) ∧
    (∀ x y, Ean8.new b s = .ok x → Ean8.new b' t = .ok y → Ean8.encode b x = .ok ms →
      Ean8.encode b' y ≠ .ok ms.reverse) ∧
    (∀ x y, Upca.new b s = .ok x → Upca.new b' t = .ok y → Upca.encode b x = .ok ms →
      Upca.encode b' y ≠ .ok ms.reverse) := by
  refine ⟨fun x y hx hy ex ey => ?_, fun x y hx hy ex ey => ?_, fun x y hx hy ex ey => ?_⟩
  · obtain ⟨d0, ls, rs, h0, hls, hrs, ll, lr, -, e1⟩ := ean13_symbol b s x hx
    obtain ⟨d0', ls', rs', h0', hls', hrs', ll', lr', -, e2⟩ := ean13_symbol b' t y hy
    rw [e1] at ex
    cases ex
    rw [e2, Outcome.ok.injEq] at ey
    exact ean13_not_reversed _ _ _ _ _ _ h0' h0 hls' hrs' hls hrs ll' ll lr ey
  · obtain ⟨ls, rs, hls, hrs, ll, lr, -, e1⟩ := ean8_symbol b s x hx
    obtain ⟨ls', rs', hls', hrs', ll', lr', -, e2⟩ := ean8_symbol b' t y hy
    rw [e1] at ex
    cases ex
    rw [e2, Outcome.ok.injEq] at ey
    exact halvesA_not_reversed _ _ _ _ hls' hrs' hls hrs (by omega) (by intro h; rw [h] at ll'; simp at ll') ey
  · obtain ⟨ls, rs, hls, hrs, ll, lr, -, e1⟩ := upca_symbol b s x hx
    obtain ⟨ls', rs', hls', hrs', ll', lr', -, e2⟩ := upca_symbol b' t y hy
    rw [e1] at ex
    cases ex
    rw [e2, Outcome.ok.injEq] at ey
    exact halvesA_not_reversed _ _ _ _ hls' hrs' hls hrs (by omega) (by intro h; rw [h] at ll'; simp at ll') ey

example : ∃ x ms, Ean8.new .debug "5512345".toList = .ok x ∧ Ean8.encode .debug x = .ok ms ∧
    scanEan8 ms = some [5, 5, 1, 2, 3, 4, 5, 7] ∧ scanEan8 ms.reverse = none := ⟨_, _, rfl, rfl, by decide +kernel⟩

/-- If one row begins with the widths `p`, another ends with `q` of the same number, and `p` is not `q` reversed, the first
row is not the second reversed. -/
theorem not_reversed_of_guards (ws vs p q ws' vs' : List Nat) (k : Nat) (hw : ∀ w ∈ ws, 0 < w ∧ w ≤ k)
    (hv : ∀ w ∈ vs, 0 < w ∧ w ≤ k) (ho : vs.length % 2 = 1) (h1 : ws = p ++ ws') (h2 : vs = vs' ++ q)
    (hl : p.length = q.length) (hp : p ≠ []) (hne : p ≠ q.reverse) : paint ws ≠ (paint vs).reverse := by
  intro h
  have := reversed_widths ws vs k hw hv ho (by rw [h1]; simp [hp]) h
  rw [h1, h2, List.reverse_append] at this
  exact hne (List.append_inj_left this (by simpa using hl))

theorem code39_not_reversed (t u : List Char) (ht : ∀ c ∈ t, c ∈ code39Alphabet) (hu : ∀ c ∈ u, c ∈ code39Alphabet) :
    paint (code39Widths t) ≠ (paint (code39Widths u)).reverse := by
  refine not_reversed_of_guards _ _ (w39 '*') (w39 '*') ([1] ++ t.flatMap (fun c => w39 c ++ [1]) ++ w39 '*')
    (('*' :: u).flatMap (fun c => w39 c ++ [1])) 2
    (code39_widths_pos t ht) (code39_widths_pos u hu) ?_ ?_ rfl rfl (by decide) (by decide)
  · have hm := star_cons_mem _ _ hu
    have hl := flatMap_length 10 (fun c => w39 c ++ [1]) ('*' :: u) (fun c hc => by
      rw [List.length_append, (w39_spec c (hm c hc)).1]; rfl)
    have h9 : (w39 '*').length = 9 := by decide
    rw [code39Widths, List.length_append, hl, h9]; omega
  · simp only [code39Widths, List.flatMap_cons, List.append_assoc]

theorem code93_not_reversed (t u : List Char) (ht : ∀ c ∈ t, c ∈ code93Alphabet) (hu : ∀ c ∈ u, c ∈ code93Alphabet) :
    paint (code93SymWidths t) ≠ (paint (code93SymWidths u)).reverse := by
  refine not_reversed_of_guards _ _ (w93 '*') ((w93 '*').tail ++ [1]) ((t ++ ['*']).flatMap w93 ++ [1])
    (('*' :: u).flatMap w93 ++ [1]) 4 (code93_widths_pos t ht) (code93_widths_pos u hu) ?_ ?_ ?_ (by decide) (by decide)
    (by decide)
  · have hm := star_text_mem _ _ hu
    have hl := flatMap_length 6 w93 ('*' :: (u ++ ['*'])) (fun c hc => (w93_spec c (hm c hc)).1)
    rw [code93SymWidths, List.length_append, hl]; simp; omega
  · simp only [code93SymWidths, List.flatMap_cons, List.append_assoc]
  · have h6 : w93 '*' = [1] ++ (w93 '*').tail := by decide
    rw [code93SymWidths, ← List.cons_append, List.flatMap_append]
    simp only [List.flatMap_cons, List.flatMap_nil, List.append_nil, List.append_assoc]
    rw [← List.append_assoc [1] (w93 '*').tail, ← h6]

theorem code11_not_reversed (t u : List Char) (ht : ∀ c ∈ t, c ∈ code11Alphabet) (hu : ∀ c ∈ u, c ∈ code11Alphabet) :
    paint (code11SymWidths t) ≠ (paint (code11SymWidths u)).reverse := by
  refine not_reversed_of_guards _ _ (w11 '*') (w11 '*') ([1] ++ t.flatMap (fun c => w11 c ++ [1]) ++ w11 '*')
    (('*' :: u).flatMap (fun c => w11 c ++ [1])) 2
    (code11_widths_pos t ht) (code11_widths_pos u hu) ?_ ?_ rfl rfl (by decide) (by decide)
  · have hm := star_cons_mem _ _ hu
    have hl := flatMap_length 6 (fun c => w11 c ++ [1]) ('*' :: u) (fun c hc => by
      rw [List.length_append, (w11_spec c (hm c hc)).1]; rfl)
    have h9 : (w11 '*').length = 5 := by decide
    rw [code11SymWidths, List.length_append, hl, h9]; omega
  · simp only [code11SymWidths, List.flatMap_cons, List.append_assoc]

/-- C34. No accepted Code 39 (with or without check character), Code 93 or Code 11 symbol is another one of the same kind
read backwards. -/
theorem C34_text_not_reversed (s t : List Char) (ms : List Nat) :
    (∀ k k' x y, Code39.init s k = .ok x → Code39.init t k' = .ok y → Code39.encode x = .ok ms →
      Code39.encode y ≠ .ok ms.reverse) ∧
    (∀ x y, Code93.new s = .ok x → Code93.new t = .ok y → Code93.encode x = .ok ms → Code93.encode y ≠ .ok ms.reverse) ∧
    (∀ x y, Code11.new s = .ok x → Code11.new t = .ok y → Code11.encode x = .ok ms →
      Code11.encode y ≠ .ok ms.reverse) := by
  refine ⟨fun k k' x y hx hy ex ey => ?_, fun x y hx hy ex ey => ?_, fun x y hx hy ex ey => ?_⟩
  · obtain ⟨h1, e1⟩ := code39_symbol s k x hx
    obtain ⟨h2, e2⟩ := code39_symbol t k' y hy
    rw [e1] at ex
    cases ex
    rw [e2, Outcome.ok.injEq] at ey
    exact code39_not_reversed _ _ h2 h1 ey
  · obtain ⟨h1, e1⟩ := code93_symbol s x hx
    obtain ⟨h2, e2⟩ := code93_symbol t y hy
    rw [e1] at ex
    cases ex
    rw [e2, Outcome.ok.injEq] at ey
    exact code93_not_reversed _ _ h2 h1 ey
  · obtain ⟨h1, e1⟩ := code11_symbol s x hx
    obtain ⟨h2, e2⟩ := code11_symbol t y hy
    rw [e1] at ex
    cases ex
    rw [e2, Outcome.ok.injEq] at ey
    exact code11_not_reversed _ _ h2 h1 ey

example : ∃ x ms, Code11.new "12-1".toList = .ok x ∧ Code11.encode x = .ok ms ∧ scanCode11 ms = some "12-1".toList ∧
    scanCode11 ms.reverse = none := ⟨_, _, rfl, rfl, by decide +kernel⟩

/-- C34. No accepted 2 of 5 symbol is another one of the same kind read backwards. -/
theorem C34_tf_not_reversed (b b' : Build) (s t : List Char) (x y : TF.TF) (ms : List Nat) (ex : TF.encode x = .ok ms) :
    (TF.interleaved b s = .ok x → TF.interleaved b' t = .ok y → TF.encode y ≠ .ok ms.reverse) ∧
    (TF.standard s = .ok x → TF.standard t = .ok y → TF.encode y ≠ .ok ms.reverse) := by
  constructor
  · intro hx hy ey
    obtain ⟨ds, d1, v1, -, -, -, e1⟩ := itf_symbol b s x hx
    obtain ⟨es, d2, v2, -, -, -, e2⟩ := itf_symbol b' t y hy
    rw [e1] at ex
    cases ex
    rw [e2, Outcome.ok.injEq] at ey
    have hl := flatMap_length 10 wItf (pairs ds) (fun p h =>
      (wItf_spec p.1 (pairs_lt ds d1 p h).1 p.2 (pairs_lt ds d1 p h).2).1)
    refine not_reversed_of_guards (itfWidths es) (itfWidths ds) [1, 1, 1] [2, 1, 1] ([1] ++ ((pairs es).flatMap wItf ++ [2, 1, 1]))
      ([1, 1, 1, 1] ++ (pairs ds).flatMap wItf) 3 (itf_pos es d2) (itf_pos ds d1) ?_ rfl ?_ rfl (by decide) (by decide) ey
    · rw [itfWidths, List.length_append, List.length_append, hl]; simp; omega
    · simp [itfWidths]
  · intro hx hy ey
    have r1 := C32_stf_row s x ms hx ex
    have r2 := C32_stf_row t y _ hy ey
    have := r2.first
    rw [List.head?_reverse, r1.last] at this
    cases this

example : ∃ x ms, TF.interleaved .debug "1221".toList = .ok x ∧ TF.encode x = .ok ms ∧ scanItf ms = some [1, 2, 2, 1] ∧
    scanItf ms.reverse = none := ⟨_, _, rfl, rfl, by decide +kernel⟩

/-- C34. No Code 128 symbol that the library produces is another one read backwards. -/
theorem C34_code128_not_reversed (b b' : Build) (s t : List Char) (x y : Code128.Code128) (ms : List Nat)
    (hx : Code128.new s = .ok x) (hy : Code128.new t = .ok y) (ex : Code128.encode b x = .ok ms) :
    Code128.encode b' y ≠ .ok ms.reverse := by
  intro ey
  obtain ⟨set, data, c, -, -, h1, rfl⟩ := code128_symbol b s x ms hx ex
  obtain ⟨set', data', c', -, -, h2, h⟩ := code128_symbol b' t y _ hy ey
  refine not_reversed_of_guards (code128Widths (set'.start :: data' ++ [c'])) (code128Widths (set.start :: data ++ [c]))
    (w128 set'.start) (code128Stop.tail) ((data' ++ [c']).flatMap w128 ++ code128Stop)
    ((set.start :: data ++ [c]).flatMap w128 ++ [2]) 4 (code128_widths_pos _ h2) (code128_widths_pos _ h1) ?_ ?_ ?_ ?_ ?_ ?_
    h.symm
  · rw [code128Widths, List.length_append, w128_length _ h1]
    have : code128Stop.length = 7 := rfl
    omega
  · simp [code128Widths]
  · have : code128Stop = [2] ++ code128Stop.tail := by decide
    rw [code128Widths, List.append_assoc, ← this]
  · cases set' <;> decide
  · cases set' <;> decide
  · cases set' <;> decide

example : ∃ x ms, Code128.new "ÀABA".toList = .ok x ∧ Code128.encode .debug x = .ok ms ∧
    scanCode128 ms = some "ÀABA".toList ∧ scanCode128 ms.reverse = none := ⟨_, _, rfl, rfl, by decide +kernel⟩

theorem wU_mirror : ∀ c ∈ codabarAlphabet, ∀ d ∈ ['A', 'B', 'C', 'D'], wU (unitOf c) ≠ (wU (unitOf d)).reverse := by decide

/-- C34. A Codabar symbol whose data begins or ends with one of the letters `A` to `D` is never another Codabar symbol read
backwards. (The library does not insist on these letters: see `C34_codabar_mirror_image`.) -/
theorem C34_codabar_not_reversed (s t : List Char) (x y : Codabar.Codabar) (hx : Codabar.new s = .ok x)
    (hy : Codabar.new t = .ok y)
    (h : (∃ c ∈ ['A', 'B', 'C', 'D'], s.head? = some c) ∨ (∃ c ∈ ['A', 'B', 'C', 'D'], s.getLast? = some c)) :
    Codabar.encode y ≠ (Codabar.encode x).reverse := by
  intro he
  obtain ⟨cs, c, hs, hA, e1⟩ := codabar_symbol s x hx
  obtain ⟨ds, d, ht, hB, e2⟩ := codabar_symbol t y hy
  rw [e1, e2] at he
  have hlen : ∀ us : List Codabar.Unit, (us.flatMap (fun u => wU u ++ [1])).length = 8 * us.length := fun us =>
    flatMap_length 8 _ us (fun u _ => by rw [List.length_append, (wU_spec u).2.1]; rfl)
  have h7 := fun u => (wU_spec u).2.1
  have hw := reversed_widths _ _ 2 (codabar_widths_pos _ _) (codabar_widths_pos _ _) (by
    rw [codabarSymWidths, List.length_append, hlen, h7]; omega) (by
    intro h0
    have := congrArg List.length h0
    rw [codabarSymWidths, List.length_append, h7] at this
    simp at this) he
  -- the first seven widths and the last seven widths of a symbol
  have first : ∀ (l : List Char) (a e : Char), (l ++ [a]).head? = some e →
      ∃ r, codabarSymWidths (l.map unitOf) (unitOf a) = wU (unitOf e) ++ r := by
    intro l a e hh
    cases l with
    | nil =>
      simp only [List.nil_append, List.head?_cons, Option.some.injEq] at hh
      exact ⟨[], by simp [codabarSymWidths, hh]⟩
    | cons f l =>
      simp only [List.cons_append, List.head?_cons, Option.some.injEq] at hh
      subst hh
      exact ⟨_, by simp only [codabarSymWidths, List.map_cons, List.flatMap_cons, List.append_assoc]; rfl⟩
  rcases h with ⟨e, he, hh⟩ | ⟨e, he, hh⟩
  · obtain ⟨r, hr⟩ := first cs c e (hs ▸ hh)
    rw [hr, codabarSymWidths, List.reverse_append] at hw
    exact wU_mirror d (hB d (by rw [ht]; simp)) e he (List.append_inj_right' hw (by simp [h7]))
  · rw [hs, List.getLast?_concat, Option.some.injEq] at hh
    subst hh
    obtain ⟨f, hf⟩ : ∃ f, (ds ++ [d]).head? = some f := by cases ds <;> simp
    obtain ⟨r, hr⟩ := first ds d f hf
    rw [hr] at hw
    rw [codabarSymWidths, List.reverse_append] at hw
    have hm : f ∈ t := by rw [ht]; exact List.mem_of_mem_head? hf
    exact wU_mirror f (hB f hm) c he (List.append_inj_left hw (by simp [h7]))

example : ∃ x y, Codabar.new "A121A".toList = .ok x ∧ Codabar.new "A1212".toList = .ok y ∧
    Codabar.encode x ≠ (Codabar.encode x).reverse ∧ Codabar.encode y ≠ (Codabar.encode x).reverse ∧
    scanCodabar (Codabar.encode x).reverse = none := ⟨_, _, rfl, rfl, by decide +kernel⟩

/-- C34, a finding: Codabar data without start and stop letters is accepted, and then a symbol read backwards can be a
different valid symbol: `1234` reads as `7098`. -/
theorem C34_codabar_mirror_image :
    ∃ x y, Codabar.new "1234".toList = .ok x ∧ Codabar.new "7098".toList = .ok y ∧
      Codabar.encode y = (Codabar.encode x).reverse := ⟨_, _, rfl, rfl, by decide⟩

end Barcoders
