import Verif.Spec.HandScan
import Verif.Props.Turned
import Verif.Props.Measure
import Verif.Props.Shape

/-!
# C77: one reader for every magnification and every direction
-/

set_option autoImplicit false

namespace Barcoders
open Spec

/-- A reader for one kind of symbol gets `t` from the row `ms` on paper, whatever the module width and the quiet zones, and
whichever way round the paper is held. -/
def Readable {α : Type} (scan : List Nat → Option α) (ms : List Nat) (t : α) : Prop :=
  ∀ q x r, 0 < x → handScan scan (onPaper q x r ms) = some t ∧ handScan scan (onPaper q x r ms).reverse = some t

theorem strip_core (q r : Nat) (core c d : List Nat) (hc : core = 1 :: c) (hd : core.reverse = 1 :: d) :
    strip (List.replicate q 0 ++ core ++ List.replicate r 0) = core := by
  rw [strip, List.append_assoc, hc, List.cons_append, dropWhile_zeros, ← List.cons_append, ← hc, List.reverse_append, hd,
    List.reverse_replicate, dropWhile_zeros, ← hd, List.reverse_reverse]

theorem stretch_reverse (x : Nat) (ms : List Nat) : (stretch x ms).reverse = stretch x ms.reverse := by
  induction ms with
  | nil => rfl
  | cons m ms ih =>
    rw [stretch, List.flatMap_cons, List.reverse_append, List.reverse_replicate, List.reverse_cons]
    rw [stretch] at ih
    rw [ih, stretch, stretch, List.flatMap_append]
    simp

theorem stretch_append (x : Nat) (a b : List Nat) : stretch x (a ++ b) = stretch x a ++ stretch x b := by
  simp [stretch]

theorem stretch_zeros (x n : Nat) : stretch x (List.replicate n 0) = List.replicate (n * x) 0 := by
  induction n with
  | zero => simp [stretch]
  | succ n ih =>
    rw [List.replicate_succ, stretch, List.flatMap_cons]
    rw [stretch] at ih
    rw [ih, List.replicate_append_replicate]
    congr 1
    rw [Nat.add_mul]; omega

theorem stretch_head (x : Nat) (hx : 0 < x) (ms r : List Nat) (h : ms = 1 :: r) : ∃ r', stretch x ms = 1 :: r' := by
  obtain ⟨n, rfl⟩ : ∃ n, x = n + 1 := ⟨x - 1, by omega⟩
  exact ⟨_, by rw [h, stretch, List.flatMap_cons, List.replicate_succ]; rfl⟩

/-- What makes a row readable: it begins and ends in a bar, but for light modules at the end; a bar and a space are one module
wide; a scanner reads it forwards only. -/
structure Core {α : Type} (scan : List Nat → Option α) (ms : List Nat) (t : α) (us : List Nat) (k : Nat) : Prop where
  row : ms = paint us ++ List.replicate k 0
  odd : us.length % 2 = 1
  pos : ∀ w ∈ us, 0 < w
  bar : (1, 1) ∈ colours 1 us
  space : (0, 1) ∈ colours 1 us
  reads : scan (paint us) = some t
  turned : scan (paint us).reverse = none

def HasCore {α : Type} (scan : List Nat → Option α) (ms : List Nat) (t : α) : Prop := ∃ us k, Core scan ms t us k

/-- What a reader sees, from both ends. -/
theorem readable_of {α : Type} {scan : List Nat → Option α} {ms : List Nat} {t : α}
    (h : HasCore scan ms t) : Readable scan ms t := by
  obtain ⟨us, k, rfl, ho, hp, hb, -, hs, hn⟩ := h
  have h1 : 1 ∈ us := by
    have := List.mem_map_of_mem (f := Prod.snd) hb
    rwa [colours_snd] at this
  intro q x r hx
  have hne : us ≠ [] := by intro h; rw [h] at ho; simp at ho
  have hp' : ∀ w ∈ us.reverse, 0 < w := fun w hw => hp w (List.mem_reverse.mp hw)
  obtain ⟨c, hc⟩ := paint_head us hne hp
  obtain ⟨d, hd⟩ := paint_head us.reverse (by simpa using hne) hp'
  obtain ⟨c', hc'⟩ := stretch_head x hx _ c hc
  obtain ⟨d', hd'⟩ := stretch_head x hx _ d hd
  have hrev : (paint us).reverse = paint us.reverse := paint_reverse_odd us ho
  have hline : onPaper q x r (paint us ++ List.replicate k 0) =
      List.replicate q 0 ++ stretch x (paint us) ++ List.replicate (k * x + r) 0 := by
    rw [onPaper, stretch_append, stretch_zeros, List.append_assoc, List.append_assoc, List.append_assoc,
      List.replicate_append_replicate]
  have hrevl : (onPaper q x r (paint us ++ List.replicate k 0)).reverse =
      List.replicate (k * x + r) 0 ++ stretch x (paint us.reverse) ++ List.replicate q 0 := by
    rw [hline, List.reverse_append, List.reverse_append, stretch_reverse, hrev, List.reverse_replicate,
      List.reverse_replicate, List.append_assoc]
  have f : readLine scan (onPaper q x r (paint us ++ List.replicate k 0)) = some t := by
    rw [readLine, hline, strip_core q _ _ c' d' hc' (by rw [stretch_reverse, hrev, hd']), measure_stretch x hx us hp h1,
      Option.bind_some, hs]
  have g : readLine scan (onPaper q x r (paint us ++ List.replicate k 0)).reverse = none := by
    rw [readLine, hrevl, strip_core _ q _ d' c' hd' (by
      rw [stretch_reverse, ← hrev, List.reverse_reverse, hc']), measure_stretch x hx us.reverse hp'
        (List.mem_reverse.mpr h1), Option.bind_some, ← hrev, hn]
  constructor
  · rw [handScan, f]
  · rw [handScan, g, List.reverse_reverse]
    exact f

theorem odd_of_last (ws : List Nat) (hp : ∀ w ∈ ws, 0 < w) (h : (paint ws).getLast? = some 1) : ws.length % 2 = 1 := by
  by_cases ho : ws.length % 2 = 1
  · exact ho
  · exfalso
    have hne : ws ≠ [] := by rintro rfl; simp [paint, paintFrom] at h
    have hd := List.dropLast_concat_getLast hne
    have hlen : ws.dropLast.length % 2 = 1 := by rw [List.length_dropLast]; have := List.length_pos_iff.mpr hne; omega
    obtain ⟨n, hn⟩ : ∃ n, ws.getLast hne = n + 1 := ⟨ws.getLast hne - 1, by have := hp _ (List.getLast_mem hne); omega⟩
    have he : paint ws = paint ws.dropLast ++ List.replicate (ws.getLast hne) 0 := by
      conv => lhs; rw [← hd]
      rw [paint, paintFrom_append_odd 1 (by omega) _ _ hlen]
      simp [paintFrom, paint]
    rw [he, hn, List.replicate_succ', ← List.append_assoc, List.getLast?_concat] at h
    simp at h

theorem colours_append (c : Nat) (hc : c < 2) (ws vs : List Nat) :
    colours c (ws ++ vs) = colours c ws ++ colours (Spec.flip c ws.length) vs := by
  induction ws generalizing c with
  | nil => simp [colours, Spec.flip]
  | cons w ws ih =>
    rw [List.cons_append, colours, colours, ih (1 - c) (by omega), List.cons_append]
    congr 3
    simp only [Spec.flip, List.length_cons]
    split <;> split <;> omega

/-- Every drawn symbol has a bar and a space of one module. -/
theorem drawn_narrow (b : Build) (k : Kind) (s : List Char) (ms : List Nat) (h : Drawn b k s ms) :
    ∃ ws, ms = paint ws ∧ ws ≠ [] ∧ (∀ w ∈ ws, 0 < w) ∧ (1, 1) ∈ colours 1 ws ∧ (0, 1) ∈ colours 1 ws := by
  obtain ⟨vs, hvs, hne, hp, -⟩ := drawn_widths b k s ms h
  refine ⟨vs, hvs, hne, hp, ?_⟩
  have key : ∀ ws : List Nat, ws ≠ [] → (∀ w ∈ ws, 0 < w) → ms = paint ws →
      (1, 1) ∈ colours 1 ws → (0, 1) ∈ colours 1 ws → (1, 1) ∈ colours 1 vs ∧ (0, 1) ∈ colours 1 vs := by
    intro ws hne' hp' e h1 h2
    have e1 := elements_paint vs hp hne
    have e2 := elements_paint ws hp' hne'
    rw [← hvs] at e1
    rw [← e, e1, Option.some.injEq] at e2
    rw [e2]
    exact ⟨h1, h2⟩
  have split : ∀ a r : List Nat, a.length % 2 = 0 → ∀ p, p ∈ colours 1 r → p ∈ colours 1 (a ++ r) := by
    intro a r ha p hm
    rw [colours_append 1 (by omega), Spec.flip, if_pos ha]
    exact List.mem_append_right _ hm
  have same : ∀ {ws}, ms = paint ws → (∀ w ∈ ws, 0 < w) → ws ≠ [] → _ := fun {ws} e p n => key ws n p e
  cases k with
  | ean13 =>
    obtain ⟨x, hx, he⟩ := h
    obtain ⟨d0, ls, rs, h0, hls, hrs, ll, lr, -, e⟩ := ean13_symbol b s x hx
    rw [e, Outcome.ok.injEq] at he
    exact same he.symm (fun w hw => (ean13Widths_pos d0 ls rs hls hrs w hw).1) (halves_ne_nil _ _)
      (by simp [ean13Widths, halvesWidths, colours]) (by simp [ean13Widths, halvesWidths, colours])
  | ean8 =>
    obtain ⟨x, hx, he⟩ := h
    obtain ⟨ls, rs, hls, hrs, ll, lr, -, e⟩ := ean8_symbol b s x hx
    rw [e, Outcome.ok.injEq] at he
    exact same he.symm (fun w hw => (halves_pos _ _ (flatMap_wA_pos _ hls) (flatMap_wA_pos _ hrs) w hw).1)
      (halves_ne_nil _ _) (by simp [halvesWidths, colours]) (by simp [halvesWidths, colours])
  | upca =>
    obtain ⟨x, hx, he⟩ := h
    obtain ⟨ls, rs, hls, hrs, ll, lr, -, e⟩ := upca_symbol b s x hx
    rw [e, Outcome.ok.injEq] at he
    exact same he.symm (fun w hw => (halves_pos _ _ (flatMap_wA_pos _ hls) (flatMap_wA_pos _ hrs) w hw).1)
      (halves_ne_nil _ _) (by simp [halvesWidths, colours]) (by simp [halvesWidths, colours])
  | supp =>
    obtain ⟨x, hx, he⟩ := h
    obtain ⟨ws, e, hl, hd, -, -, h25⟩ := supp_symbol s x hx
    rw [e, Outcome.ok.injEq] at he
    obtain ⟨p, ps, rfl⟩ := List.exists_cons_of_ne_nil (l := ws) (by rintro rfl; simp at hl; omega)
    exact same he.symm (fun w hw => (suppWidths_pos _ hd w hw).1) (by simp [suppWidths])
      (by simp [suppWidths, colours]) (by simp [suppWidths, colours])
  | code39 =>
    obtain ⟨x, hx, he⟩ := h
    have : ∃ t, (∀ c ∈ t, c ∈ code39Alphabet) ∧ Code39.encode x = .ok (paint (code39Widths t)) := by
      rcases hx with hx | hx
      · exact ⟨_, code39_symbol s false x hx⟩
      · exact ⟨_, code39_symbol s true x hx⟩
    obtain ⟨t, ht, e⟩ := this
    rw [e, Outcome.ok.injEq] at he
    have hw : w39 '*' = [1, 2, 1, 1, 2, 1, 2, 1, 1] := by decide
    exact same he.symm (fun w hw => (code39_widths_pos t ht w hw).1)
      (by rw [code39Widths, List.flatMap_cons]; simp) (by rw [code39Widths, List.flatMap_cons, hw]; simp [colours])
      (by rw [code39Widths, List.flatMap_cons, hw]; simp [colours])
  | code93 =>
    obtain ⟨x, hx, he⟩ := h
    obtain ⟨hA, e⟩ := code93_symbol s x hx
    rw [e, Outcome.ok.injEq] at he
    have hw : w93 '*' = [1, 1, 1, 1, 4, 1] := by decide
    exact same he.symm (fun w hw => (code93_widths_pos _ hA w hw).1) (by simp [code93SymWidths])
      (by simp [code93SymWidths, hw, colours]) (by simp [code93SymWidths, hw, colours])
  | code11 =>
    obtain ⟨x, hx, he⟩ := h
    obtain ⟨hA, e⟩ := code11_symbol s x hx
    rw [e, Outcome.ok.injEq] at he
    have hw : w11 '*' = [1, 1, 2, 2, 1] := by decide
    exact same he.symm (fun w hw => (code11_widths_pos _ hA w hw).1)
      (by rw [code11SymWidths, List.flatMap_cons]; simp) (by rw [code11SymWidths, List.flatMap_cons, hw]; simp [colours])
      (by rw [code11SymWidths, List.flatMap_cons, hw]; simp [colours])
  | codabar =>
    obtain ⟨x, hx, he⟩ := h
    obtain ⟨cs, c, rfl, hA, e⟩ := codabar_symbol s x hx
    rw [e] at he
    have h1 : ∀ c ∈ codabarAlphabet, (1, 1) ∈ colours 1 (wU (unitOf c)) ∧ (0, 1) ∈ colours 1 (wU (unitOf c)) := by decide
    have h1 := h1 c (hA c (by simp))
    have hev : (List.flatMap (fun u => wU u ++ [1]) (cs.map unitOf)).length % 2 = 0 := by
      have : ∀ us : List Codabar.Unit, (us.flatMap (fun u => wU u ++ [1])).length % 2 = 0 := by
        intro us
        induction us with
        | nil => rfl
        | cons u us ih =>
          have : (wU u ++ [1]).length = 8 := by cases u <;> rfl
          rw [List.flatMap_cons, List.length_append, this]
          omega
      exact this _
    have hne' : codabarSymWidths (cs.map unitOf) (unitOf c) ≠ [] := by
      have : wU (unitOf c) ≠ [] := by intro h; rw [h] at h1; simp [colours] at h1
      rw [codabarSymWidths]
      simp [this]
    exact same he.symm (fun w hw => (codabar_widths_pos _ _ w hw).1) hne'
      (split _ _ hev _ h1.1) (split _ _ hev _ h1.2)
  | stf =>
    obtain ⟨x, hx, he⟩ := h
    obtain ⟨hD, e⟩ := stf_symbol s x hx
    rw [e, Outcome.ok.injEq] at he
    exact same he.symm (fun w hw => (stf_pos _ (digits_lt s hD) w hw).1) (by simp [stfWidths])
      (by simp [stfWidths, colours]) (by simp [stfWidths, colours])
  | itf =>
    obtain ⟨x, hx, he⟩ := h
    obtain ⟨ds, hd, hev, hlen, hD, hc, e⟩ := itf_symbol b s x hx
    rw [e, Outcome.ok.injEq] at he
    exact same he.symm (fun w hw => (itf_pos ds hd w hw).1) (by simp [itfWidths])
      (by simp [itfWidths, colours]) (by simp [itfWidths, colours])
  | code128 =>
    obtain ⟨x, hx, he⟩ := h
    obtain ⟨set, data, c, -, -, hv, e⟩ := code128_symbol b s x ms hx he
    have hev : ((CodeSet.start set :: data ++ [c]).flatMap w128).length % 2 = 0 := by
      have : ∀ vs : List Nat, (∀ v ∈ vs, v < 106) → (vs.flatMap w128).length % 2 = 0 := by
        intro vs
        induction vs with
        | nil => intro _; rfl
        | cons v vs ih =>
          intro h
          have h6 : ∀ v < 106, (w128 v).length = 6 := by decide
          rw [List.flatMap_cons, List.length_append, h6 v (h v (by simp))]
          have := ih (fun v hv => h v (by simp [hv]))
          omega
      exact this _ hv
    exact same e (fun w hw => (code128_widths_pos _ hv w hw).1) (by simp [code128Widths, code128Stop])
      (split _ _ hev _ (by decide)) (split _ _ hev _ (by decide))

/-- Rows that end in a bar. -/
theorem core_row {α : Type} (b : Build) (k : Kind) (s : List Char) (ms : List Nat) (h : Drawn b k s ms)
    (hl : ms.getLast? = some 1) (scan : List Nat → Option α) (t : α) (hs : scan ms = some t)
    (hn : scan (turned ms) = none) : HasCore scan ms t := by
  obtain ⟨ws, rfl, hne, hp, h1, h0⟩ := drawn_narrow b k s ms h
  have ho := odd_of_last ws hp hl
  have ht := (turned_paint ws hp hne).1
  rw [upToBar_of_odd ws ho, ← paint_reverse_odd ws ho] at ht
  rw [ht] at hn
  exact ⟨ws, 0, by simp, ho, hp, h1, h0, hs, hn⟩

theorem core_retail (b : Build) (s : List Char) (ms : List Nat) :
    (Drawn b .ean13 s ms → HasCore scanEan13 ms ((digitsOf s).take 12 ++ [gs1Digit ((digitsOf s).take 12)])) ∧
    (Drawn b .ean8 s ms → HasCore scanEan8 ms ((digitsOf s).take 7 ++ [gs1Digit ((digitsOf s).take 7)])) ∧
    (Drawn b .upca s ms → HasCore scanUpca ms ((digitsOf s).take 11 ++ [gs1Digit ((digitsOf s).take 11)])) ∧
    (Drawn b .supp s ms → HasCore scanAddOn ms (digitsOf s)) := by
  obtain ⟨t1, t2, t3, t4⟩ := C76_retail b s ms
  obtain ⟨r1, r2, r3⟩ := C32_ean_rows b b s ms
  refine ⟨fun h => ?_, fun h => ?_, fun h => ?_, fun h => ?_⟩
  · have hd := h
    obtain ⟨x, hx, e⟩ := h
    obtain ⟨ms', e', hs⟩ := C02_ean13_scan b s x hx
    rw [e, Outcome.ok.injEq] at e'
    subst e'
    exact core_row b .ean13 s ms hd (r1 x hx e).last _ _ hs (t1 hd)
  · have hd := h
    obtain ⟨x, hx, e⟩ := h
    obtain ⟨ms', e', hs⟩ := C07_ean8_scan b s x hx
    rw [e, Outcome.ok.injEq] at e'
    subst e'
    exact core_row b .ean8 s ms hd (r2 x hx e).last _ _ hs (t2 hd)
  · have hd := h
    obtain ⟨x, hx, e⟩ := h
    obtain ⟨ms', e', hs⟩ := C09_upca_scan b s x hx
    rw [e, Outcome.ok.injEq] at e'
    subst e'
    exact core_row b .upca s ms hd (r3 x hx e).last _ _ hs (t3 hd)
  · have hd := h
    obtain ⟨x, hx, e⟩ := h
    obtain ⟨ms', e', hs⟩ := C12_eansupp_scan b s x hx
    rw [e, Outcome.ok.injEq] at e'
    subst e'
    exact core_row b .supp s ms hd (C32_supp_row b s x ms hx e).last _ _ hs (t4 hd)

theorem core_text (b : Build) (s : List Char) (ms : List Nat) :
    (∀ x, Code39.new s = .ok x → Code39.encode x = .ok ms → HasCore scanCode39 ms s) ∧
    (∀ x, Code39.withChecksum s = .ok x → Code39.encode x = .ok ms → HasCore scanCode39Checked ms s) ∧
    (Drawn b .code93 s ms → HasCore scanCode93 ms s) ∧
    (Drawn b .code11 s ms → HasCore scanCode11 ms s) ∧
    (s.length ≤ 6489 → Drawn b .code128 s ms →
      HasCore scanCode128 ms (code128Regroup s) ∧ (Code128StrictForm s → HasCore scanCode128 ms s)) := by
  obtain ⟨t1, t2, t3, -, -, t4⟩ := C76_text b s ms
  refine ⟨fun x hx e => ?_, fun x hx e => ?_, fun h => ?_, fun h => ?_, fun hl h => ?_⟩
  · have hd : Drawn b .code39 s ms := ⟨x, Or.inl hx, e⟩
    obtain ⟨ms', e', hs⟩ := C14_code39_scan s x hx
    rw [e, Outcome.ok.injEq] at e'
    subst e'
    exact core_row b .code39 s ms hd ((C32_code39_row s x ms e).1 hx).last _ _ hs (t1 hd).1
  · have hd : Drawn b .code39 s ms := ⟨x, Or.inr hx, e⟩
    obtain ⟨ms', e', -, hs⟩ := C14_code39_checksum_scan s x hx
    rw [e, Outcome.ok.injEq] at e'
    subst e'
    exact core_row b .code39 s ms hd ((C32_code39_row s x ms e).2 hx).last _ _ hs (t1 hd).2
  · have hd := h
    obtain ⟨x, hx, e⟩ := h
    obtain ⟨ms', e', hs⟩ := C17_code93_scan s x hx
    rw [e, Outcome.ok.injEq] at e'
    subst e'
    exact core_row b .code93 s ms hd (C32_code93_row s x ms hx e).last _ _ hs (t2 hd)
  · have hd := h
    obtain ⟨x, hx, e⟩ := h
    obtain ⟨ms', e', hs⟩ := C20_code11_scan s x hx
    rw [e, Outcome.ok.injEq] at e'
    subst e'
    obtain ⟨t, -, -, hr⟩ := C32_code11_row s x ms hx e
    exact core_row b .code11 s ms hd hr.last _ _ hs (t3 hd)
  · have hd := h
    obtain ⟨x, hx, e⟩ := h
    obtain ⟨n, vs, -, -, -, hrow⟩ := C32_code128_row b s x ms hx e
    refine ⟨?_, fun hf => ?_⟩
    · obtain ⟨ms', e', hs⟩ := C28_code128_scan_regrouped_partial b s x hx hl
      rw [e, Outcome.ok.injEq] at e'
      subst e'
      exact core_row b .code128 s ms hd hrow.last _ _ hs (t4 hl hd)
    · obtain ⟨ms', e', hs⟩ := (C28_code128_scan_iff b s x hx hl).mpr hf
      rw [e, Outcome.ok.injEq] at e'
      subst e'
      exact core_row b .code128 s ms hd hrow.last _ _ hs (t4 hl hd)

theorem core_two_of_five (b : Build) (s : List Char) (ms : List Nat) :
    (Drawn b .stf s ms → HasCore scanStf ms (digitsOf s)) ∧
    (Drawn b .itf s ms → ∃ ds, HasCore scanItf ms ds ∧
      ((s.length % 2 = 0 ∧ ds = digitsOf s) ∨ (s.length % 2 = 1 ∧ ∃ c < 10, ds = digitsOf s ++ [c]))) := by
  obtain ⟨-, -, -, t1, t2, -⟩ := C76_text b s ms
  refine ⟨fun h => ?_, fun h => ?_⟩
  · have ht := t1 h
    obtain ⟨x, hx, e⟩ := h
    obtain ⟨hD, e'⟩ := stf_symbol s x hx
    rw [e, Outcome.ok.injEq] at e'
    subst e'
    have hd := digits_lt s hD
    have hp := stf_pos _ hd
    have he := stfWidths_even _ hd
    obtain ⟨us, hus⟩ : ∃ us, us = [2, 1, 2, 1, 1, 1] ++ ((digitsOf s).flatMap wStf ++ [2, 1, 1, 1, 2]) := ⟨_, rfl⟩
    have hw : stfWidths (digitsOf s) = us ++ [1] := by rw [stfWidths, hus]; simp
    rw [hw] at hp he ht ⊢
    have ho : us.length % 2 = 1 := by rw [List.length_append, List.length_singleton] at he; omega
    have hp' : ∀ w ∈ us, 0 < w := fun w h => (hp w (by simp [h])).1
    have hne : us ≠ [] := by rintro rfl; simp at ho
    have hm : paint (us ++ [1]) = paint us ++ List.replicate 1 0 := by
      rw [paint, paintFrom_append_odd 1 (by omega) _ _ ho]
      simp [paintFrom, paint]
    have hu : upToBar (us ++ [1]) = us := by
      unfold upToBar
      rw [if_pos he, List.dropLast_concat]
    have hs := scanStf_paint _ hd
    rw [hw] at hs
    have hsame : scanStf (paint us) = scanStf (paint (us ++ [1])) := by
      rw [scanStf, scanStf, elements_paint us hp' hne,
        elements_paint _ (fun w h => (hp w h).1) (by simp)]
      simp only [Option.bind_eq_bind, Option.bind_some]
      rw [if_neg (by omega), if_pos he, List.dropLast_concat]
    rw [(turned_paint _ (fun w h => (hp w h).1) (by simp)).1, hu, ← paint_reverse_odd us ho] at ht
    rw [hm]
    exact ⟨us, 1, rfl, ho, hp', by rw [hus]; simp [colours], by rw [hus]; simp [colours], hsame.trans hs, ht⟩
  · have hd := h
    obtain ⟨x, hx, e⟩ := h
    obtain ⟨ms', ds, e', hs, hc⟩ := C25_itf_scan b s x hx
    rw [e, Outcome.ok.injEq] at e'
    subst e'
    exact ⟨ds, core_row b .itf s ms hd (C32_itf_row b s x ms hx e).last _ _ hs (t2 hd), hc⟩

/-- C77. Retail symbols. -/
theorem C77_retail (b : Build) (s : List Char) (ms : List Nat) :
    (Drawn b .ean13 s ms → Readable scanEan13 ms ((digitsOf s).take 12 ++ [gs1Digit ((digitsOf s).take 12)])) ∧
    (Drawn b .ean8 s ms → Readable scanEan8 ms ((digitsOf s).take 7 ++ [gs1Digit ((digitsOf s).take 7)])) ∧
    (Drawn b .upca s ms → Readable scanUpca ms ((digitsOf s).take 11 ++ [gs1Digit ((digitsOf s).take 11)])) ∧
    (Drawn b .supp s ms → Readable scanAddOn ms (digitsOf s)) := by
  obtain ⟨h1, h2, h3, h4⟩ := core_retail b s ms
  exact ⟨fun h => readable_of (h1 h), fun h => readable_of (h2 h), fun h => readable_of (h3 h), fun h => readable_of (h4 h)⟩

example : ∃ ms, Drawn .debug .upca "61234567890".toList ms ∧
    handScan scanUpca (onPaper 9 3 4 ms).reverse = some [6, 1, 2, 3, 4, 5, 6, 7, 8, 9, 0, 7] := ⟨_, ⟨_, rfl, rfl⟩, by decide +kernel⟩

/-- C77. Code 39, plain and with check character, Code 93, Code 11 and Code 128. -/
theorem C77_text (b : Build) (s : List Char) (ms : List Nat) :
    (∀ x, Code39.new s = .ok x → Code39.encode x = .ok ms → Readable scanCode39 ms s) ∧
    (∀ x, Code39.withChecksum s = .ok x → Code39.encode x = .ok ms → Readable scanCode39Checked ms s) ∧
    (Drawn b .code93 s ms → Readable scanCode93 ms s) ∧
    (Drawn b .code11 s ms → Readable scanCode11 ms s) ∧
    (s.length ≤ 6489 → Drawn b .code128 s ms →
      Readable scanCode128 ms (code128Regroup s) ∧ (Code128StrictForm s → Readable scanCode128 ms s)) := by
  obtain ⟨h1, h2, h3, h4, h5⟩ := core_text b s ms
  exact ⟨fun x hx e => readable_of (h1 x hx e), fun x hx e => readable_of (h2 x hx e), fun h => readable_of (h3 h),
    fun h => readable_of (h4 h), fun hl h => ⟨readable_of (h5 hl h).1, fun hf => readable_of ((h5 hl h).2 hf)⟩⟩

example : ∃ ms, Drawn .debug .code93 "A1".toList ms ∧ handScan scanCode93 (onPaper 4 2 1 ms).reverse = some "A1".toList ∧
    scanCode93 (onPaper 4 2 1 ms).reverse = none := ⟨_, ⟨_, rfl, rfl⟩, by decide +kernel, by decide +kernel⟩

/-- C77. The 2 of 5 codes. The space that ends a Standard 2 of 5 row is lost in the quiet zone. Interleaved 2 of 5 symbols
read as the digits, followed by one more when their number is odd. -/
theorem C77_two_of_five (b : Build) (s : List Char) (ms : List Nat) :
    (Drawn b .stf s ms → Readable scanStf ms (digitsOf s)) ∧
    (Drawn b .itf s ms → ∃ ds, Readable scanItf ms ds ∧
      ((s.length % 2 = 0 ∧ ds = digitsOf s) ∨ (s.length % 2 = 1 ∧ ∃ c < 10, ds = digitsOf s ++ [c]))) := by
  obtain ⟨h1, h2⟩ := core_two_of_five b s ms
  refine ⟨fun h => readable_of (h1 h), fun h => ?_⟩
  obtain ⟨ds, hc, hd⟩ := h2 h
  exact ⟨ds, readable_of hc, hd⟩

example : ∃ ms, Drawn .debug .itf "123".toList ms ∧ handScan scanItf (onPaper 9 3 4 ms).reverse = some [1, 2, 3, 6] :=
  ⟨_, ⟨_, rfl, rfl⟩, by decide +kernel⟩

/-! ## Pictures -/

/-- The opposite direction. -/
def opposite : Heading → Heading
  | .right => .left
  | .left => .right
  | .up => .down
  | .down => .up

theorem range_map_reverse {α : Type} (n : Nat) (f : Nat → α) :
    ((List.range n).map f).reverse = (List.range n).map (fun i => f (n - 1 - i)) := by
  apply List.ext_getElem
  · simp
  · intro i h1 h2
    simp at h1 h2
    simp [List.getElem_reverse]

theorem pictureLine_opposite {α : Type} (w h : Nat) (px : Nat → Nat → α) (j : Nat) (d : Heading) :
    pictureLine w h px j (opposite d) = (pictureLine w h px j d).reverse := by
  cases d
  · exact (range_map_reverse w (fun i => px i j)).symm
  · exact (range_map_reverse h (fun i => px j i)).symm
  · rw [show pictureLine w h px j .left = (pictureLine w h px j .right).reverse from (range_map_reverse w (fun i => px i j)).symm,
      List.reverse_reverse]; rfl
  · rw [show pictureLine w h px j .up = (pictureLine w h px j .down).reverse from (range_map_reverse h (fun i => px j i)).symm,
      List.reverse_reverse]; rfl

/-- C77. Every line of pixels across the bars of a generated image gives the data in both directions, whatever the rotation,
the module width and the colours. -/
theorem C77_image {α : Type} (b : Build) (k : Kind) (s : List Char) (ms : List Nat) (h : Drawn b k s ms)
    (scan : List Nat → Option α) (t : α) (hr : Readable scan ms t) (b' : Build) (g : Image.Image)
    (hx : 0 < g.xdim) (hne : g.foreground ≠ g.background) (hw : ms.length * g.xdim < 2 ^ 32)
    (hs : 4 * (ms.length * g.xdim) * g.height < 2 ^ 63) :
    ∃ buf, Image.generateBuffer b' g ms = .ok buf ∧
      ((g.rotation = .zero ∨ g.rotation = .oneEighty) → buf.h = g.height ∧ ∀ j < buf.h, ∀ d ∈ [Heading.right, .left],
        handScan scan ((pictureLine buf.w buf.h buf.px j d).map (fun c => if c = g.background then 0 else 1)) = some t) ∧
      ((g.rotation = .ninety ∨ g.rotation = .twoSeventy) → buf.w = g.height ∧ ∀ j < buf.w, ∀ d ∈ [Heading.down, .up],
        handScan scan ((pictureLine buf.w buf.h buf.px j d).map (fun c => if c = g.background then 0 else 1)) = some t) := by
  obtain ⟨buf, h1, h2, h3⟩ := (C44_generators_agree ms (drawn_binary b k s ms h)).image b' g hx hne hw hs
  have key : ∀ j < g.height, ∀ d, d = headingOf g.rotation ∨ d = opposite (headingOf g.rotation) →
      handScan scan ((pictureLine buf.w buf.h buf.px j d).map (fun c => if c = g.background then 0 else 1)) = some t := by
    intro j hj d hd
    have hl := readAllFrom_uniform_inv g.xdim [] _ ms hx (h3 j hj)
    rw [List.nil_append] at hl
    have hp : onPaper 0 g.xdim 0 ms = stretch g.xdim ms := by simp [onPaper]
    obtain ⟨e1, e2⟩ := hr 0 g.xdim 0 hx
    rw [hp] at e1 e2
    rcases hd with rfl | rfl
    · rw [hl, e1]
    · rw [pictureLine_opposite, List.map_reverse, hl, e2]
  refine ⟨buf, h1, fun hrot => ?_, fun hrot => ?_⟩
  · rcases hrot with hrot | hrot <;> rw [hrot] at h2 key
    · refine ⟨h2, fun j hj d hd => key j (by rw [← h2]; exact hj) d ?_⟩
      simpa [headingOf, opposite] using hd
    · refine ⟨h2, fun j hj d hd => key j (by rw [← h2]; exact hj) d ?_⟩
      simpa [headingOf, opposite, or_comm] using hd
  · rcases hrot with hrot | hrot <;> rw [hrot] at h2 key
    · refine ⟨h2, fun j hj d hd => key j (by rw [← h2]; exact hj) d ?_⟩
      simpa [headingOf, opposite] using hd
    · refine ⟨h2, fun j hj d hd => key j (by rw [← h2]; exact hj) d ?_⟩
      simpa [headingOf, opposite, or_comm] using hd

/-- An EAN-8 at three cells per module, seen from the right. -/
example : ∃ ms, Drawn .debug .ean8 "5512345".toList ms ∧ readLine scanEan8 (onPaper 9 3 5 ms).reverse = none ∧
    handScan scanEan8 (onPaper 9 3 5 ms).reverse = some [5, 5, 1, 2, 3, 4, 5, 7] :=
  ⟨_, ⟨_, rfl, rfl⟩, by decide +kernel, by decide +kernel⟩
/-- The space ending a Standard 2 of 5 row is not told from the paper. -/
example : ∃ ms, Drawn .debug .stf "12".toList ms ∧ strip ms ≠ ms ∧ handScan scanStf (onPaper 4 2 1 ms).reverse = some [1, 2] :=
  ⟨_, ⟨_, rfl, rfl⟩, by decide, by decide +kernel⟩
/-- A reader that always tried the wrong end first would need the symbols not to be readable from there. -/
example : readLine (fun ms => some ms) (onPaper 2 2 2 [1, 0, 1, 1]) = some [1, 0, 1, 1] ∧
    handScan (fun ms => some ms) (onPaper 2 2 2 [1, 0, 1, 1]).reverse = some [1, 1, 0, 1] := by decide

end Barcoders
