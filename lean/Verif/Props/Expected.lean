import Verif.Spec.Expected
import Verif.Props.Part
import Verif.Props.FewModules

/-!
# C121: a reader that knows how many characters to expect
-/

set_option autoImplicit false

namespace Barcoders
open Spec

theorem onlyText_of {β : Type} (scan : List Nat → Option (List β)) (E : List Nat) (hE : ∀ w ∈ E, 0 < w) (ho : E.length % 2 = 1)
    (t : List β)
    (h1 : ∀ F x n i u, 0 < x → Seen E F x n i → scan (paint F) = some u → u.length = t.length → u = t)
    (h2 : ∀ F x n i u, 0 < x → Seen E.reverse F x n i → scan (paint F) = some u → u.length = t.length → u = t) :
    OnlyItsText scan (paint E) t := by
  intro x q r p u hx hp h hl
  unfold handScan at h
  split at h
  · rename_i t' e
    rw [Option.some.injEq] at h
    subst h
    obtain ⟨F, n, i, hs, hr, -⟩ := read_part scan E hE x q r hx p t' hp e
    exact h1 F x n i t' hx hs hr hl
  · have hrev : (crossing q p r).reverse = crossing r p.reverse q := by
      rw [crossing, crossing, List.reverse_append, List.reverse_append, List.reverse_replicate, List.reverse_replicate,
        List.append_assoc]
    have hst : (stretch x (paint E)).reverse = stretch x (paint E.reverse) := by
      rw [stretch_reverse, paint_reverse_odd E ho]
    rw [hrev] at h
    have hp' : p.reverse <:+: stretch x (paint E.reverse) := by
      rw [← hst]; exact List.reverse_infix.mpr hp
    obtain ⟨F, n, i, hs, hr, -⟩ := read_part scan E.reverse (fun w hw => hE w (List.mem_reverse.mp hw)) x r q hx p.reverse u hp' h
    exact h2 F x n i u hx hs hr hl

/-- A light module at the end of the row makes no difference. -/
theorem onlyText_light {β : Type} (scan : List Nat → Option (List β)) (ms : List Nat) (t : List β) (h : OnlyItsText scan ms t) :
    OnlyItsText scan (ms ++ [0]) t := by
  intro x q r p u hx hp hs hl
  obtain ⟨a, b, hab⟩ := hp
  have hz : stretch x [0] = List.replicate x 0 := by simp [stretch]
  rw [stretch_append, hz, List.append_eq_append_iff] at hab
  rcases hab with ⟨c, h1, h2⟩ | ⟨c, h1, h2⟩
  · exact h x q r p u hx ⟨a, c, h1.symm⟩ hs hl
  · obtain ⟨-, hc, -⟩ := List.replicate_eq_append_iff.mp h2
    rw [List.append_eq_append_iff] at h1
    rcases h1 with ⟨d, h3, h4⟩ | ⟨d, h3, h4⟩
    · refine h x q (c.length + r) d u hx ⟨a, [], by rw [List.append_nil]; exact h3.symm⟩ ?_ hl
      rw [← hs, h4, crossing, crossing, ← List.replicate_append_replicate, ← hc]
      simp only [List.append_assoc]
    · have hp : p = List.replicate p.length 0 := by
        rw [hc] at h4
        exact (List.replicate_eq_append_iff.mp h4).2.2
      refine h x (q + p.length) r [] u hx List.nil_infix ?_ hl
      rw [← hs, crossing, crossing, ← List.replicate_append_replicate, ← hp, List.append_nil]

/-- Same unit, same ends, same number of elements: the same widths. -/
theorem seen_all (E F : List Nat) (x i : Nat) (hx : 0 < x) (h : Seen E F x x i) (hl : F.length = E.length)
    (h0 : F.getD 0 0 = E.getD 0 0) (h1 : F.getD (F.length - 1) 0 = E.getD (F.length - 1) 0) : F = E := by
  have hi : i = 0 := by have := h.fits; omega
  subst hi
  refine getD_ext _ _ hl fun k hk => ?_
  by_cases hk0 : k = 0
  · subst hk0; exact h0
  · by_cases hk1 : k + 1 < F.length
    · have := Nat.eq_of_mul_eq_mul_left hx (h.inner k (by omega) hk1)
      rwa [Nat.zero_add] at this
    · rw [show k = F.length - 1 by omega]; exact h1

theorem getD_end (M Q : List Nat) (j : Nat) (h : j < Q.length) : (M ++ Q).getD ((M ++ Q).length - 1 - j) 0 = Q.getD (Q.length - 1 - j) 0 := by
  rw [List.length_append, show M.length + Q.length - 1 - j = M.length + (Q.length - 1 - j) by omega, getD_shift]

/-- Symbols whose rows all begin and end alike, and whose number of elements is settled by the number of characters. -/
theorem onlyText_ends {β : Type} (scan : List Nat → Option (List β)) (E : List Nat) (hE : ∀ w ∈ E, 0 < w) (ho : E.length % 2 = 1)
    (t : List β) (hscan : scan (paint E) = some t) (h5 : 5 ≤ E.length)
    (hF : ∀ F u, (∀ w ∈ F, 0 < w) → F.length % 2 = 1 → scan (paint F) = some u → u.length = t.length → F.length = E.length ∧
      F.getD 1 0 = E.getD 1 0 ∧
      (∀ x n, 0 < x → n * F.getD 0 0 ≤ x * E.getD 0 0 → n = x → F.getD 0 0 = E.getD 0 0) ∧
      (∀ x n, 0 < x → n * F.getD (E.length - 1) 0 ≤ x * E.getD (E.length - 1) 0 → n = x →
        F.getD (E.length - 1) 0 = E.getD (E.length - 1) 0) ∧
      (F.getD 1 0 * E.getD (E.length - 3) 0 ≠ F.getD 2 0 * E.getD (E.length - 2) 0)) :
    OnlyItsText scan (paint E) t := by
  refine onlyText_of scan E hE ho t (fun F x n i u hx hs hr hl => ?_) (fun F x n i u hx hs hr hl => ?_)
  · obtain ⟨g1, g2, g3, g4, -⟩ := hF F u hs.pos hs.odd hr hl
    have hi : i = 0 := by have := hs.fits; omega
    subst hi
    have e1 := hs.inner 1 (by omega) (by omega)
    rw [Nat.zero_add, g2] at e1
    have hn : n = x := Nat.eq_of_mul_eq_mul_right (getD_pos E hE 1 (by omega)) e1
    subst hn
    have hl := hs.last
    rw [Nat.zero_add, g1] at hl
    have := seen_all E F n 0 hx hs g1 (g3 n n hx hs.first rfl) (by rw [g1]; exact g4 n n hx hl rfl)
    rw [this, hscan, Option.some.injEq] at hr
    exact hr.symm
  · exfalso
    obtain ⟨g1, g2, g3, g4, g5⟩ := hF F u hs.pos hs.odd hr hl
    have hi : i = 0 := by have := hs.fits; rw [List.length_reverse] at this; omega
    subst hi
    have e1 := hs.inner 1 (by omega) (by omega)
    have e2 := hs.inner 2 (by omega) (by omega)
    rw [Nat.zero_add, getD_reverse E _ (by omega), show E.length - 1 - 1 = E.length - 2 by omega] at e1
    rw [Nat.zero_add, getD_reverse E _ (by omega), show E.length - 1 - 2 = E.length - 3 by omega] at e2
    apply g5
    have hm : n * x * (F.getD 1 0 * E.getD (E.length - 3) 0) = n * x * (F.getD 2 0 * E.getD (E.length - 2) 0) := by
      calc n * x * (F.getD 1 0 * E.getD (E.length - 3) 0) = (n * F.getD 1 0) * (x * E.getD (E.length - 3) 0) := by ac_rfl
        _ = (x * E.getD (E.length - 2) 0) * (n * F.getD 2 0) := by rw [e1, e2]
        _ = _ := by ac_rfl
    exact Nat.eq_of_mul_eq_mul_left (Nat.mul_pos hs.unit hx) hm

/-! ## Code 39 and Code 11 -/

theorem code39_ends (t : List Char) (ht : ∀ c ∈ t, c ∈ code39Alphabet) : (code39Widths t).length = 10 * t.length + 19 ∧
    (code39Widths t).getD 0 0 = 1 ∧ (code39Widths t).getD 1 0 = 2 ∧ (code39Widths t).getD 2 0 = 1 ∧
    (code39Widths t).getD ((code39Widths t).length - 1) 0 = 1 ∧ (code39Widths t).getD ((code39Widths t).length - 2) 0 = 1 ∧
    (code39Widths t).getD ((code39Widths t).length - 3) 0 = 2 := by
  have hs : w39 '*' = [1, 2, 1, 1, 2, 1, 2, 1, 1] := by decide
  have hf : code39Widths t = ([1, 2, 1, 1, 2, 1, 2, 1, 1, 1] ++ t.flatMap (fun c => w39 c ++ [1])) ++ [1, 2, 1, 1, 2, 1, 2, 1, 1] := by
    rw [code39Widths, List.flatMap_cons, hs]; simp
  have hl : (t.flatMap (fun c => w39 c ++ [1])).length = 10 * t.length :=
    flatMap_length 10 _ t (fun c hc => by rw [List.length_append, (w39_spec c (by simp [ht c hc])).1]; rfl)
  rw [hf]
  refine ⟨?_, rfl, rfl, rfl, ?_, ?_, ?_⟩
  · simp only [List.length_append, List.length_cons, List.length_nil, hl]; omega
  · exact getD_end _ _ 0 (by simp)
  · exact getD_end _ _ 1 (by simp)
  · exact getD_end _ _ 2 (by simp)

theorem code11_ends (t : List Char) (ht : ∀ c ∈ t, c ∈ code11Alphabet) : (code11SymWidths t).length = 6 * t.length + 11 ∧
    (code11SymWidths t).getD 0 0 = 1 ∧ (code11SymWidths t).getD 1 0 = 1 ∧ (code11SymWidths t).getD 2 0 = 2 ∧
    (code11SymWidths t).getD ((code11SymWidths t).length - 1) 0 = 1 ∧ (code11SymWidths t).getD ((code11SymWidths t).length - 2) 0 = 2 ∧
    (code11SymWidths t).getD ((code11SymWidths t).length - 3) 0 = 2 := by
  have hs : w11 '*' = [1, 1, 2, 2, 1] := by decide
  have hf : code11SymWidths t = ([1, 1, 2, 2, 1, 1] ++ t.flatMap (fun c => w11 c ++ [1])) ++ [1, 1, 2, 2, 1] := by
    rw [code11SymWidths, List.flatMap_cons, hs]; simp
  have hl : (t.flatMap (fun c => w11 c ++ [1])).length = 6 * t.length :=
    flatMap_length 6 _ t (fun c hc => by rw [List.length_append, (w11_spec c (by simp [ht c hc])).1]; rfl)
  rw [hf]
  refine ⟨?_, rfl, rfl, rfl, ?_, ?_, ?_⟩
  · simp only [List.length_append, List.length_cons, List.length_nil, hl]; omega
  · exact getD_end _ _ 0 (by simp)
  · exact getD_end _ _ 1 (by simp)
  · exact getD_end _ _ 2 (by simp)

theorem code11_read_symbol (ms : List Nat) (t : List Char) (h : scanCode11 ms = some t) :
    (∀ c ∈ code11Text t, c ∈ code11Alphabet) ∧ ms = paint (code11SymWidths (code11Text t)) := by
  have hA := scanCode11_chars ms t h
  refine ⟨code11_text_mem t hA, scanCode11_inj ms _ t h ?_⟩
  rw [scanCode11, readCode11_paint _ (code11_text_mem t hA), Option.bind_some, verifyCode11_text]

theorem ne_nil_of_odd (F : List Nat) (h : F.length % 2 = 1) : F ≠ [] := by rintro rfl; simp at h

theorem code39_only {F : List Nat} {u t : List Char} (ht : ∀ c ∈ t, c ∈ code39Alphabet) (hp : ∀ w ∈ F, 0 < w) (ho : F.length % 2 = 1)
    (h : scanCode39 (paint F) = some u) (hl : u.length = t.length) : F.length = (code39Widths t).length ∧
      F.getD 1 0 = (code39Widths t).getD 1 0 ∧ F.getD 0 0 = (code39Widths t).getD 0 0 ∧
      F.getD ((code39Widths t).length - 1) 0 = (code39Widths t).getD ((code39Widths t).length - 1) 0 ∧
      F.getD 1 0 * (code39Widths t).getD ((code39Widths t).length - 3) 0 ≠
        F.getD 2 0 * (code39Widths t).getD ((code39Widths t).length - 2) 0 := by
  have hu := scanCode39_chars _ _ h
  have hF := code39_read_symbol _ _ h
  obtain ⟨a1, a2, a3, a4, a5, a6, a7⟩ := code39_ends u hu
  obtain ⟨b1, b2, b3, b4, b5, b6, b7⟩ := code39_ends t ht
  have hF := paint_inj F _ hp (fun w hw => (code39_widths_pos u hu w hw).1) (ne_nil_of_odd F ho) (by
    intro e; rw [e] at a1; simp at a1) hF
  rw [hF]
  have hll : (code39Widths u).length = (code39Widths t).length := by rw [a1, b1, hl]
  rw [hll] at a5
  exact ⟨hll, by rw [a3, b3], by rw [a2, b2], by rw [a5, b5], by rw [a3, b7, a4, b6]; decide⟩

/-- C121. Code 39, without and with check character. -/
theorem C121_code39 (s : List Char) (x : Code39.Code39) (ms : List Nat) (he : Code39.encode x = .ok ms) :
    (Code39.new s = .ok x → OnlyItsText scanCode39 ms s) ∧
    (Code39.withChecksum s = .ok x → OnlyItsText scanCode39 ms (s ++ [code39Check s]) ∧ OnlyItsText scanCode39Checked ms s) := by
  have key : ∀ t, (∀ c ∈ t, c ∈ code39Alphabet) → OnlyItsText scanCode39 (paint (code39Widths t)) t := by
    intro t ht
    have b1 := (code39_ends t ht).1
    refine onlyText_ends _ _ (fun w hw => (code39_widths_pos t ht w hw).1) (by omega) t (scanCode39_paint t ht) (by omega) ?_
    intro F u hp ho h hl
    obtain ⟨g1, g2, g3, g4, g5⟩ := code39_only ht hp ho h hl
    exact ⟨g1, g2, fun _ _ _ _ _ => g3, fun _ _ _ _ _ => g4, g5⟩
  refine ⟨fun hx => ?_, fun hx => ⟨?_, ?_⟩⟩
  · obtain ⟨hA, e⟩ := code39_symbol s false x hx
    rw [e, Outcome.ok.injEq] at he
    subst he
    exact key _ hA
  · obtain ⟨hA, e⟩ := code39_symbol s true x hx
    rw [e, Outcome.ok.injEq] at he
    subst he
    exact key _ hA
  · obtain ⟨hA, e⟩ := code39_symbol s true x hx
    rw [e, Outcome.ok.injEq] at he
    subst he
    simp only [if_true] at hA ⊢
    have b1 := (code39_ends _ hA).1
    refine onlyText_ends _ _ (fun w hw => (code39_widths_pos _ hA w hw).1) (by omega) s
      (checked_of_scan _ _ (scanCode39_paint _ hA)) (by omega) ?_
    intro F u hp ho h hl
    obtain ⟨g1, g2, g3, g4, g5⟩ := code39_only hA hp ho (scanCode39Checked_inv _ _ h) (by simp [hl])
    exact ⟨g1, g2, fun _ _ _ _ _ => g3, fun _ _ _ _ _ => g4, g5⟩

example : ∃ x ms, Code39.new "7727".toList = .ok x ∧ Code39.encode x = .ok ms ∧ OnlyItsText scanCode39 ms "7727".toList ∧
    MisreadPart scanCode39 ms ".".toList :=
  ⟨_, _, rfl, rfl, (C121_code39 _ _ _ rfl).1 rfl, misread_of _ _ _ 27 39 (by decide +kernel)⟩

/-- C121. Code 11. -/
theorem C121_code11 (b : Build) (s : List Char) (ms : List Nat) (h : Drawn b .code11 s ms) : OnlyItsText scanCode11 ms s := by
  obtain ⟨x, hx, he⟩ := h
  obtain ⟨ms', h1, h2⟩ := C20_code11_scan s x hx
  rw [he, Outcome.ok.injEq] at h1
  subst h1
  obtain ⟨ht, rfl⟩ := code11_read_symbol ms s h2
  obtain ⟨b1, b2, b3, b4, b5, b6, b7⟩ := code11_ends _ ht
  refine onlyText_ends _ _ (fun w hw => (code11_widths_pos _ ht w hw).1) (by omega) s h2 (by omega) ?_
  intro F u hp ho h hl
  obtain ⟨hu, hF⟩ := code11_read_symbol _ _ h
  obtain ⟨a1, a2, a3, a4, a5, a6, a7⟩ := code11_ends _ hu
  have hF := paint_inj F _ hp (fun w hw => (code11_widths_pos _ hu w hw).1) (ne_nil_of_odd F ho) (by
    intro e; rw [e] at a1; simp at a1) hF
  subst hF
  have hll : (code11SymWidths (code11Text u)).length = (code11SymWidths (code11Text s)).length := by
    rw [a1, b1, code11Text_length, code11Text_length, hl]
  rw [hll] at a5
  exact ⟨hll, by rw [a3, b3], fun _ _ _ _ _ => by rw [a2, b2], fun _ _ _ _ _ => by rw [a5, b5], by rw [a3, b7, a4, b6]; decide⟩

example : ∃ ms, Drawn .debug .code11 "399".toList ms ∧ OnlyItsText scanCode11 ms "399".toList ∧ MisreadPart scanCode11 ms "-".toList :=
  ⟨_, ⟨_, rfl, rfl⟩, C121_code11 .debug _ _ ⟨_, rfl, rfl⟩, misread_of _ _ _ 4 31 (by decide +kernel)⟩

/-! ## Two of five -/

theorem getD_classify (E : List Nat) (k : Nat) (h : k < E.length) : (E.map classify).getD k 0 = classify (E.getD k 0) := by
  simp only [List.getD_eq_getElem?_getD, List.getElem?_map, List.getElem?_eq_getElem h, Option.map_some, Option.getD_some]

theorem classify_eq (F E : List Nat) (h : F.map classify = E.map classify) (hp : ∀ w ∈ F, 0 < w) : F.length = E.length ∧
    (∀ k, k < F.length → E.getD k 0 = 1 → F.getD k 0 = 1) ∧ (∀ k, k < F.length → 2 ≤ E.getD k 0 → 2 ≤ F.getD k 0) := by
  have hl := congrArg List.length h
  rw [List.length_map, List.length_map] at hl
  have hk : ∀ k, k < F.length → classify (F.getD k 0) = classify (E.getD k 0) := by
    intro k hk
    rw [← getD_classify F k hk, h, getD_classify E k (by omega)]
  refine ⟨hl, fun k h1 h2 => ?_, fun k h1 h2 => ?_⟩
  · have := hk k h1
    have hpos := getD_pos F hp k h1
    rw [h2] at this
    simp only [classify] at this
    split at this
    · omega
    · simp at this
  · have := hk k h1
    simp only [classify] at this
    rw [if_neg (by omega : ¬ E.getD k 0 ≤ 1)] at this
    split at this
    · simp at this
    · omega

theorem itf_ends (ds : List Nat) (hd : Digits ds) (he : ds.length % 2 = 0) : (itfWidths ds).length = 5 * ds.length + 7 ∧
    (itfWidths ds).getD 0 0 = 1 ∧ (itfWidths ds).getD 1 0 = 1 ∧ (itfWidths ds).getD 2 0 = 1 ∧
    (itfWidths ds).getD ((itfWidths ds).length - 1) 0 = 1 ∧ (itfWidths ds).getD ((itfWidths ds).length - 2) 0 = 1 ∧
    (itfWidths ds).getD ((itfWidths ds).length - 3) 0 = 2 := by
  have hf : itfWidths ds = ([1, 1, 1, 1] ++ (pairs ds).flatMap wItf) ++ [2, 1, 1] := by simp [itfWidths]
  have hl : ((pairs ds).flatMap wItf).length = 10 * (pairs ds).length :=
    flatMap_length 10 _ _ (fun p hp => (wItf_spec p.1 (pairs_lt ds hd p hp).1 p.2 (pairs_lt ds hd p hp).2).1)
  have hpl := pairs_length ds
  rw [hf]
  refine ⟨?_, rfl, rfl, rfl, ?_, ?_, ?_⟩
  · simp only [List.length_append, List.length_cons, List.length_nil, hl, hpl]; omega
  · exact getD_end _ _ 0 (by simp)
  · exact getD_end _ _ 1 (by simp)
  · exact getD_end _ _ 2 (by simp)

/-- The widths of a Standard 2 of 5 symbol up to its last bar. -/
def stfBars (ds : List Nat) : List Nat := [2, 1, 2, 1, 1, 1] ++ (ds.flatMap wStf ++ [2, 1, 1, 1, 2])

theorem stf_ends (ds : List Nat) (hd : Digits ds) : (stfBars ds).length = 10 * ds.length + 11 ∧
    (stfBars ds).getD 0 0 = 2 ∧ (stfBars ds).getD 1 0 = 1 ∧ (stfBars ds).getD 2 0 = 2 ∧
    (stfBars ds).getD ((stfBars ds).length - 1) 0 = 2 ∧ (stfBars ds).getD ((stfBars ds).length - 2) 0 = 1 ∧
    (stfBars ds).getD ((stfBars ds).length - 3) 0 = 1 := by
  have hf : stfBars ds = ([2, 1, 2, 1, 1, 1] ++ ds.flatMap wStf) ++ [2, 1, 1, 1, 2] := by simp [stfBars]
  have hl : (ds.flatMap wStf).length = 10 * ds.length := flatMap_length 10 _ _ (fun d h => (wStf_spec d (hd d h)).1)
  rw [hf]
  refine ⟨?_, rfl, rfl, rfl, ?_, ?_, ?_⟩
  · simp only [List.length_append, List.length_cons, List.length_nil, hl]; omega
  · exact getD_end _ _ 0 (by simp)
  · exact getD_end _ _ 1 (by simp)
  · exact getD_end _ _ 2 (by simp)

theorem stf_bars (ds : List Nat) (hd : Digits ds) : (∀ w ∈ stfBars ds, 0 < w) ∧ paint (stfWidths ds) = paint (stfBars ds) ++ [0] ∧
    scanStf (paint (stfBars ds)) = some ds := by
  have hf : stfWidths ds = stfBars ds ++ [1] := by simp [stfWidths, stfBars]
  have hl := (stf_ends ds hd).1
  have hp : ∀ w ∈ stfBars ds, 0 < w := fun w hw => (stf_pos ds hd w (by rw [hf]; simp [hw])).1
  have ho : (stfBars ds).length % 2 = 1 := by omega
  refine ⟨hp, ?_, ?_⟩
  · rw [hf, paint, paintFrom_append_odd 1 (by omega) _ _ ho]; rfl
  · rw [← scanStf_paint ds hd, scanStf, scanStf, elements_paint _ hp (ne_nil_of_odd _ ho),
      elements_paint _ (fun w hw => (stf_pos ds hd w hw).1) (by simp [hf])]
    simp only [Option.bind_eq_bind, Option.bind_some]
    rw [if_neg (by omega), if_pos (by rw [hf, List.length_append, List.length_singleton]; omega), hf, List.dropLast_concat]

/-- C121. Standard and Interleaved 2 of 5. -/
theorem C121_two_of_five (b : Build) (s : List Char) (ms : List Nat) :
    (Drawn b .stf s ms → OnlyItsText scanStf ms (digitsOf s)) ∧
    (Drawn b .itf s ms → ∃ ds, OnlyItsText scanItf ms ds ∧
      ((s.length % 2 = 0 ∧ ds = digitsOf s) ∨ (s.length % 2 = 1 ∧ ∃ c < 10, ds = digitsOf s ++ [c]))) := by
  refine ⟨?_, ?_⟩
  · rintro ⟨x, hx, he⟩
    obtain ⟨hA, e⟩ := stf_symbol s x hx
    rw [e, Outcome.ok.injEq] at he
    subst he
    have hd := digits_lt s hA
    generalize digitsOf s = ds at hd
    obtain ⟨p1, p2, p3⟩ := stf_bars ds hd
    obtain ⟨b1, b2, b3, b4, b5, b6, b7⟩ := stf_ends ds hd
    rw [p2]
    apply onlyText_light
    refine onlyText_ends _ _ p1 (by omega) ds p3 (by omega) ?_
    intro F u hp ho h hl
    have hu := scanStf_digits _ _ h
    obtain ⟨q1, q2, q3⟩ := stf_bars u hu
    obtain ⟨a1, a2, a3, a4, a5, a6, a7⟩ := stf_ends u hu
    have hn := scanStf_inj _ _ u h q3
    have hou : (stfBars u).length % 2 = 1 := by omega
    rw [narrowWideBars, narrowWideBars, elements_paint F hp (ne_nil_of_odd F ho), elements_paint _ q1 (ne_nil_of_odd _ hou),
      Option.map_some, Option.map_some, Option.some.injEq, if_neg (by omega), if_neg (by omega)] at hn
    obtain ⟨c1, c2, c3⟩ := classify_eq F _ hn hp
    have hll : F.length = (stfBars ds).length := by rw [c1, a1, b1, hl]
    have f1 := c2 1 (by omega) a3
    have f0 := c3 0 (by omega) (by omega)
    have f2 := c3 2 (by omega) (by omega)
    have fl := c3 (F.length - 1) (by omega) (by rw [c1]; omega)
    rw [hll] at fl
    refine ⟨hll, by rw [f1, b3], ?_, ?_, ?_⟩
    · rintro x n hx hle rfl
      have := Nat.le_of_mul_le_mul_left hle hx
      omega
    · rintro x n hx hle rfl
      have := Nat.le_of_mul_le_mul_left hle hx
      omega
    · rw [f1, b6, b7]; omega
  · rintro ⟨x, hx, he⟩
    obtain ⟨ds, hd, hev, -, -, hc, e⟩ := itf_symbol b s x hx
    rw [e, Outcome.ok.injEq] at he
    subst he
    refine ⟨ds, ?_, hc⟩
    obtain ⟨b1, b2, b3, b4, b5, b6, b7⟩ := itf_ends ds hd hev
    refine onlyText_ends _ _ (fun w hw => (itf_pos ds hd w hw).1) (by omega) ds (scanItf_paint ds hd hev) (by omega) ?_
    intro F u hp ho h hl
    obtain ⟨hu, hue⟩ := scanItf_digits _ _ h
    obtain ⟨a1, a2, a3, a4, a5, a6, a7⟩ := itf_ends u hu hue
    have hn := scanItf_inj _ _ u h (scanItf_paint u hu hue)
    have hou : (itfWidths u).length % 2 = 1 := by omega
    rw [narrowWide, narrowWide, elements_paint F hp (ne_nil_of_odd F ho),
      elements_paint _ (fun w hw => (itf_pos u hu w hw).1) (ne_nil_of_odd _ hou),
      Option.map_some, Option.map_some, Option.some.injEq] at hn
    obtain ⟨c1, c2, c3⟩ := classify_eq F _ hn hp
    have hll : F.length = (itfWidths ds).length := by rw [c1, a1, b1, hl]
    have f1 := c2 1 (by omega) a3
    have f0 := c2 0 (by omega) a2
    have f2 := c2 2 (by omega) a4
    have fl := c2 (F.length - 1) (by omega) (by rw [c1]; exact a5)
    rw [hll] at fl
    exact ⟨hll, by rw [f1, b3], fun _ _ _ _ _ => by rw [f0, b2], fun _ _ _ _ _ => by rw [fl, b5], by rw [f1, f2, b6, b7]; decide⟩

example : ∃ ms, Drawn .debug .stf "005".toList ms ∧ OnlyItsText scanStf ms [0, 0, 5] ∧ MisreadPart scanStf ms [0, 5] :=
  ⟨_, ⟨_, rfl, rfl⟩, (C121_two_of_five .debug "005".toList _).1 ⟨_, rfl, rfl⟩, misread_of _ _ _ 11 46 (by decide +kernel)⟩

/-! ## Add-ons -/

theorem wAB_four7 (p : Bool × Nat) (h : p.2 < 10) :
    ∃ a b c d, wAB p = [a, b, c, d] ∧ a + b + c + d = 7 ∧ 0 < a ∧ 0 < b ∧ 0 < c ∧ 0 < d := by
  obtain ⟨a, b, c, d, e⟩ := wAB_four p h
  have hs := wAB_sum p.2 h p.1
  have hp := wAB_pos p.2 h p.1
  rw [show wAB (p.1, p.2) = wAB p from rfl, e] at hs hp
  refine ⟨a, b, c, d, e, by simp only [List.sum_cons, List.sum_nil] at hs; omega, ?_⟩
  exact ⟨(hp a (by simp)).1, (hp b (by simp)).1, (hp c (by simp)).1, (hp d (by simp)).1⟩

theorem wAB_3112 : ∀ s, ∀ d < 10, (wAB (s, d) = [3, 1, 1, 2] → s = false ∧ d = 9) ∧ (wAB (s, d) = [3, 2, 1, 1] → s = false ∧ d = 0) := by
  decide
theorem addOn2_forward (a1 b1 c1 d1 a2 b2 c2 d2 s1 t1 u1 v1 s2 t2 u2 v2 x n : Nat) (hx : 0 < x) (he2 : a2 + b2 + c2 + d2 = 7) (hf2 : s2 + t2 + u2 + v2 = 7)
    (h : Seen [1, 1, 2, a1, b1, c1, d1, 1, 1, a2, b2, c2, d2] [1, 1, 2, s1, t1, u1, v1, 1, 1, s2, t2, u2, v2] x n 0) :
    [1, 1, 2, s1, t1, u1, v1, 1, 1, s2, t2, u2, v2] = ([1, 1, 2, a1, b1, c1, d1, 1, 1, a2, b2, c2, d2] : List Nat) := by
  have hn : n * 1 = x * 1 := h.inner 1 (by omega) (by simp)
  have hn : n = x := by omega
  subst hn
  have k3 : s1 = a1 := Nat.eq_of_mul_eq_mul_left hx (h.inner 3 (by omega) (by simp))
  have k4 : t1 = b1 := Nat.eq_of_mul_eq_mul_left hx (h.inner 4 (by omega) (by simp))
  have k5 : u1 = c1 := Nat.eq_of_mul_eq_mul_left hx (h.inner 5 (by omega) (by simp))
  have k6 : v1 = d1 := Nat.eq_of_mul_eq_mul_left hx (h.inner 6 (by omega) (by simp))
  have k9 : s2 = a2 := Nat.eq_of_mul_eq_mul_left hx (h.inner 9 (by omega) (by simp))
  have k10 : t2 = b2 := Nat.eq_of_mul_eq_mul_left hx (h.inner 10 (by omega) (by simp))
  have k11 : u2 = c2 := Nat.eq_of_mul_eq_mul_left hx (h.inner 11 (by omega) (by simp))
  have kl : v2 = d2 := by omega
  rw [k3, k4, k5, k6, k9, k10, k11, kl]

theorem addOn2_backward (a1 b1 c1 d1 a2 b2 c2 d2 s1 t1 u1 v1 s2 t2 u2 v2 x n : Nat) (hx : 0 < x) (he1 : a1 + b1 + c1 + d1 = 7) (he2 : a2 + b2 + c2 + d2 = 7) (hf1 : s1 + t1 + u1 + v1 = 7) (hf2 : s2 + t2 + u2 + v2 = 7)
    (pc : 0 < c1) (pt : 0 < t1) (pv : 0 < v2)
    (h : Seen [d2, c2, b2, a2, 1, 1, d1, c1, b1, a1, 2, 1, 1] [1, 1, 2, s1, t1, u1, v1, 1, 1, s2, t2, u2, v2] x n 0) :
    [s1, t1, u1, v1] = [3, 1, 1, 2] ∧ [s2, t2, u2, v2] = [3, 2, 1, 1] := by
  have h4 : n * t1 = x * 1 := h.inner 4 (by omega) (by simp)
  have h7 : n * 1 = x * c1 := h.inner 7 (by omega) (by simp)
  have hn : n = x := by
    have i1 : n * 1 ≤ n * t1 := Nat.mul_le_mul_left n pt
    have i2 : x * 1 ≤ x * c1 := Nat.mul_le_mul_left x pc
    omega
  subst hn
  clear h4 h7
  have k1 : 1 = c2 := Nat.eq_of_mul_eq_mul_left hx (h.inner 1 (by omega) (by simp))
  have k2 : 2 = b2 := Nat.eq_of_mul_eq_mul_left hx (h.inner 2 (by omega) (by simp))
  have k3 : s1 = a2 := Nat.eq_of_mul_eq_mul_left hx (h.inner 3 (by omega) (by simp))
  have k4 : t1 = 1 := Nat.eq_of_mul_eq_mul_left hx (h.inner 4 (by omega) (by simp))
  have k5 : u1 = 1 := Nat.eq_of_mul_eq_mul_left hx (h.inner 5 (by omega) (by simp))
  have k6 : v1 = d1 := Nat.eq_of_mul_eq_mul_left hx (h.inner 6 (by omega) (by simp))
  have k7 : 1 = c1 := Nat.eq_of_mul_eq_mul_left hx (h.inner 7 (by omega) (by simp))
  have k8 : 1 = b1 := Nat.eq_of_mul_eq_mul_left hx (h.inner 8 (by omega) (by simp))
  have k9 : s2 = a1 := Nat.eq_of_mul_eq_mul_left hx (h.inner 9 (by omega) (by simp))
  have k10 : t2 = 2 := Nat.eq_of_mul_eq_mul_left hx (h.inner 10 (by omega) (by simp))
  have k11 : u2 = 1 := Nat.eq_of_mul_eq_mul_left hx (h.inner 11 (by omega) (by simp))
  have kl : v2 ≤ 1 := Nat.le_of_mul_le_mul_left h.last hx
  clear h
  simp only [List.cons.injEq, and_true]
  omega

theorem addOn5_forward (a1 b1 c1 d1 a2 b2 c2 d2 a3 b3 c3 d3 a4 b4 c4 d4 a5 b5 c5 d5 s1 t1 u1 v1 s2 t2 u2 v2 s3 t3 u3 v3 s4 t4 u4 v4 s5 t5 u5 v5 x n : Nat) (hx : 0 < x) (he5 : a5 + b5 + c5 + d5 = 7) (hf5 : s5 + t5 + u5 + v5 = 7)
    (h : Seen [1, 1, 2, a1, b1, c1, d1, 1, 1, a2, b2, c2, d2, 1, 1, a3, b3, c3, d3, 1, 1, a4, b4, c4, d4, 1, 1, a5, b5, c5, d5] [1, 1, 2, s1, t1, u1, v1, 1, 1, s2, t2, u2, v2, 1, 1, s3, t3, u3, v3, 1, 1, s4, t4, u4, v4, 1, 1, s5, t5, u5, v5] x n 0) :
    [1, 1, 2, s1, t1, u1, v1, 1, 1, s2, t2, u2, v2, 1, 1, s3, t3, u3, v3, 1, 1, s4, t4, u4, v4, 1, 1, s5, t5, u5, v5] = ([1, 1, 2, a1, b1, c1, d1, 1, 1, a2, b2, c2, d2, 1, 1, a3, b3, c3, d3, 1, 1, a4, b4, c4, d4, 1, 1, a5, b5, c5, d5] : List Nat) := by
  have hn : n * 1 = x * 1 := h.inner 1 (by omega) (by simp)
  have hn : n = x := by omega
  subst hn
  have k3 : s1 = a1 := Nat.eq_of_mul_eq_mul_left hx (h.inner 3 (by omega) (by simp))
  have k4 : t1 = b1 := Nat.eq_of_mul_eq_mul_left hx (h.inner 4 (by omega) (by simp))
  have k5 : u1 = c1 := Nat.eq_of_mul_eq_mul_left hx (h.inner 5 (by omega) (by simp))
  have k6 : v1 = d1 := Nat.eq_of_mul_eq_mul_left hx (h.inner 6 (by omega) (by simp))
  have k9 : s2 = a2 := Nat.eq_of_mul_eq_mul_left hx (h.inner 9 (by omega) (by simp))
  have k10 : t2 = b2 := Nat.eq_of_mul_eq_mul_left hx (h.inner 10 (by omega) (by simp))
  have k11 : u2 = c2 := Nat.eq_of_mul_eq_mul_left hx (h.inner 11 (by omega) (by simp))
  have k12 : v2 = d2 := Nat.eq_of_mul_eq_mul_left hx (h.inner 12 (by omega) (by simp))
  have k15 : s3 = a3 := Nat.eq_of_mul_eq_mul_left hx (h.inner 15 (by omega) (by simp))
  have k16 : t3 = b3 := Nat.eq_of_mul_eq_mul_left hx (h.inner 16 (by omega) (by simp))
  have k17 : u3 = c3 := Nat.eq_of_mul_eq_mul_left hx (h.inner 17 (by omega) (by simp))
  have k18 : v3 = d3 := Nat.eq_of_mul_eq_mul_left hx (h.inner 18 (by omega) (by simp))
  have k21 : s4 = a4 := Nat.eq_of_mul_eq_mul_left hx (h.inner 21 (by omega) (by simp))
  have k22 : t4 = b4 := Nat.eq_of_mul_eq_mul_left hx (h.inner 22 (by omega) (by simp))
  have k23 : u4 = c4 := Nat.eq_of_mul_eq_mul_left hx (h.inner 23 (by omega) (by simp))
  have k24 : v4 = d4 := Nat.eq_of_mul_eq_mul_left hx (h.inner 24 (by omega) (by simp))
  have k27 : s5 = a5 := Nat.eq_of_mul_eq_mul_left hx (h.inner 27 (by omega) (by simp))
  have k28 : t5 = b5 := Nat.eq_of_mul_eq_mul_left hx (h.inner 28 (by omega) (by simp))
  have k29 : u5 = c5 := Nat.eq_of_mul_eq_mul_left hx (h.inner 29 (by omega) (by simp))
  have kl : v5 = d5 := by omega
  rw [k3, k4, k5, k6, k9, k10, k11, k12, k15, k16, k17, k18, k21, k22, k23, k24, k27, k28, k29, kl]

theorem addOn5_backward (a1 b1 c1 d1 a2 b2 c2 d2 a3 b3 c3 d3 a4 b4 c4 d4 a5 b5 c5 d5 s1 t1 u1 v1 s2 t2 u2 v2 s3 t3 u3 v3 s4 t4 u4 v4 s5 t5 u5 v5 x n : Nat) (hx : 0 < x) (he1 : a1 + b1 + c1 + d1 = 7) (he2 : a2 + b2 + c2 + d2 = 7) (he3 : a3 + b3 + c3 + d3 = 7) (he4 : a4 + b4 + c4 + d4 = 7) (he5 : a5 + b5 + c5 + d5 = 7) (hf1 : s1 + t1 + u1 + v1 = 7) (hf2 : s2 + t2 + u2 + v2 = 7) (hf3 : s3 + t3 + u3 + v3 = 7) (hf4 : s4 + t4 + u4 + v4 = 7) (hf5 : s5 + t5 + u5 + v5 = 7)
    (pc : 0 < c4) (pt : 0 < t1) (pv : 0 < v5)
    (h : Seen [d5, c5, b5, a5, 1, 1, d4, c4, b4, a4, 1, 1, d3, c3, b3, a3, 1, 1, d2, c2, b2, a2, 1, 1, d1, c1, b1, a1, 2, 1, 1] [1, 1, 2, s1, t1, u1, v1, 1, 1, s2, t2, u2, v2, 1, 1, s3, t3, u3, v3, 1, 1, s4, t4, u4, v4, 1, 1, s5, t5, u5, v5] x n 0) :
    [s1, t1, u1, v1] = [3, 1, 1, 2] ∧ [s2, t2, u2, v2] = [3, 1, 1, 2] ∧ [s3, t3, u3, v3] = [3, 1, 1, 2] ∧ [s4, t4, u4, v4] = [3, 1, 1, 2] ∧ [s5, t5, u5, v5] = [3, 2, 1, 1] := by
  have h4 : n * t1 = x * 1 := h.inner 4 (by omega) (by simp)
  have h7 : n * 1 = x * c4 := h.inner 7 (by omega) (by simp)
  have hn : n = x := by
    have i1 : n * 1 ≤ n * t1 := Nat.mul_le_mul_left n pt
    have i2 : x * 1 ≤ x * c4 := Nat.mul_le_mul_left x pc
    omega
  subst hn
  clear h4 h7
  have k1 : 1 = c5 := Nat.eq_of_mul_eq_mul_left hx (h.inner 1 (by omega) (by simp))
  have k2 : 2 = b5 := Nat.eq_of_mul_eq_mul_left hx (h.inner 2 (by omega) (by simp))
  have k3 : s1 = a5 := Nat.eq_of_mul_eq_mul_left hx (h.inner 3 (by omega) (by simp))
  have k4 : t1 = 1 := Nat.eq_of_mul_eq_mul_left hx (h.inner 4 (by omega) (by simp))
  have k5 : u1 = 1 := Nat.eq_of_mul_eq_mul_left hx (h.inner 5 (by omega) (by simp))
  have k6 : v1 = d4 := Nat.eq_of_mul_eq_mul_left hx (h.inner 6 (by omega) (by simp))
  have k7 : 1 = c4 := Nat.eq_of_mul_eq_mul_left hx (h.inner 7 (by omega) (by simp))
  have k8 : 1 = b4 := Nat.eq_of_mul_eq_mul_left hx (h.inner 8 (by omega) (by simp))
  have k9 : s2 = a4 := Nat.eq_of_mul_eq_mul_left hx (h.inner 9 (by omega) (by simp))
  have k10 : t2 = 1 := Nat.eq_of_mul_eq_mul_left hx (h.inner 10 (by omega) (by simp))
  have k11 : u2 = 1 := Nat.eq_of_mul_eq_mul_left hx (h.inner 11 (by omega) (by simp))
  have k12 : v2 = d3 := Nat.eq_of_mul_eq_mul_left hx (h.inner 12 (by omega) (by simp))
  have k13 : 1 = c3 := Nat.eq_of_mul_eq_mul_left hx (h.inner 13 (by omega) (by simp))
  have k14 : 1 = b3 := Nat.eq_of_mul_eq_mul_left hx (h.inner 14 (by omega) (by simp))
  have k15 : s3 = a3 := Nat.eq_of_mul_eq_mul_left hx (h.inner 15 (by omega) (by simp))
  have k16 : t3 = 1 := Nat.eq_of_mul_eq_mul_left hx (h.inner 16 (by omega) (by simp))
  have k17 : u3 = 1 := Nat.eq_of_mul_eq_mul_left hx (h.inner 17 (by omega) (by simp))
  have k18 : v3 = d2 := Nat.eq_of_mul_eq_mul_left hx (h.inner 18 (by omega) (by simp))
  have k19 : 1 = c2 := Nat.eq_of_mul_eq_mul_left hx (h.inner 19 (by omega) (by simp))
  have k20 : 1 = b2 := Nat.eq_of_mul_eq_mul_left hx (h.inner 20 (by omega) (by simp))
  have k21 : s4 = a2 := Nat.eq_of_mul_eq_mul_left hx (h.inner 21 (by omega) (by simp))
  have k22 : t4 = 1 := Nat.eq_of_mul_eq_mul_left hx (h.inner 22 (by omega) (by simp))
  have k23 : u4 = 1 := Nat.eq_of_mul_eq_mul_left hx (h.inner 23 (by omega) (by simp))
  have k24 : v4 = d1 := Nat.eq_of_mul_eq_mul_left hx (h.inner 24 (by omega) (by simp))
  have k25 : 1 = c1 := Nat.eq_of_mul_eq_mul_left hx (h.inner 25 (by omega) (by simp))
  have k26 : 1 = b1 := Nat.eq_of_mul_eq_mul_left hx (h.inner 26 (by omega) (by simp))
  have k27 : s5 = a1 := Nat.eq_of_mul_eq_mul_left hx (h.inner 27 (by omega) (by simp))
  have k28 : t5 = 2 := Nat.eq_of_mul_eq_mul_left hx (h.inner 28 (by omega) (by simp))
  have k29 : u5 = 1 := Nat.eq_of_mul_eq_mul_left hx (h.inner 29 (by omega) (by simp))
  have kl : v5 ≤ 1 := Nat.le_of_mul_le_mul_left h.last hx
  clear h
  simp only [List.cons.injEq, and_true]
  omega

/-- C121. Add-ons of two and of five digits. -/
theorem C121_supp (b : Build) (s : List Char) (ms : List Nat) (h : Drawn b .supp s ms) : OnlyItsText scanAddOn ms (digitsOf s) := by
  obtain ⟨x, hx, he⟩ := h
  obtain ⟨ws, h1, h2, h3, h4, -, h6⟩ := supp_symbol s x hx
  rw [h1 b, Outcome.ok.injEq] at he
  subst he
  have hlen : (digitsOf s).length = ws.length := by rw [h2]; simp [digitsOf]
  have hwl : ws.length = 2 ∨ ws.length = 5 := by omega
  generalize digitsOf s = t at *
  clear h1 h2 h6 hx
  have hread : ∀ (F u : List Nat), (∀ w ∈ F, 0 < w) → F.length % 2 = 1 → scanAddOn (paint F) = some u → ∃ vs, F = suppWidths vs ∧
      vs.length = u.length ∧ (∀ p ∈ vs, p.2 < 10) ∧ addOnOk (vs.map Prod.fst) (vs.map Prod.snd) = true := by
    intro F u hp ho hF
    obtain ⟨s', e1, x', hx', he'⟩ := (C75_supp b (paint F) u).mp hF
    obtain ⟨vs, g1, g2, g3, g4, g5⟩ := supp_symbol_sets s' x' hx'
    rw [g1 b, Outcome.ok.injEq] at he'
    refine ⟨vs, paint_inj F _ hp (fun w hw => (suppWidths_pos vs g4 w hw).1) (ne_nil_of_odd F ho) ?_ he'.symm, ?_, g4, g5⟩
    · match vs, g2 with
      | v :: vs, _ => simp [suppWidths]
    · rw [g3, ← e1]; simp [digitsOf]
  have hodd : (suppWidths ws).length % 2 = 1 := by
    rcases hwl with hwl | hwl
    · match ws, hwl with
      | [p, q], _ =>
        simp [suppWidths, (wAB_spec p.2 (h3 p (by simp)) p.1).1, (wAB_spec q.2 (h3 q (by simp)) q.1).1]
    · match ws, hwl with
      | [p, q, r, y, z], _ =>
        simp [suppWidths, (wAB_spec p.2 (h3 p (by simp)) p.1).1, (wAB_spec q.2 (h3 q (by simp)) q.1).1,
          (wAB_spec r.2 (h3 r (by simp)) r.1).1, (wAB_spec y.2 (h3 y (by simp)) y.1).1, (wAB_spec z.2 (h3 z (by simp)) z.1).1]
  refine onlyText_of _ _ (fun w hw => (suppWidths_pos ws h3 w hw).1) hodd t (fun F x n i u hx hs hr hl => ?_)
    (fun F x n i u hx hs hr hl => ?_)
  · suffices hFE : F = suppWidths ws by
      rw [hFE, h4, Option.some.injEq] at hr
      exact hr.symm
    obtain ⟨vs, rfl, g2, g3, g4⟩ := hread F u hs.pos hs.odd hr
    rcases hwl with hwl | hwl
    · match ws, hwl, vs, (by omega : vs.length = 2) with
      | [p1, p2], _, [q1, q2], _ =>
        obtain ⟨a1, b1, c1, d1, e1, i1, -⟩ := wAB_four7 p1 (h3 p1 (by simp))
        obtain ⟨a2, b2, c2, d2, e2, i2, -⟩ := wAB_four7 p2 (h3 p2 (by simp))
        obtain ⟨s1, t1, u1, v1, f1, j1, -⟩ := wAB_four7 q1 (g3 q1 (by simp))
        obtain ⟨s2, t2, u2, v2, f2, j2, -⟩ := wAB_four7 q2 (g3 q2 (by simp))
        have hE : suppWidths [p1, p2] = [1, 1, 2, a1, b1, c1, d1, 1, 1, a2, b2, c2, d2] := by simp [suppWidths, e1, e2]
        have hF : suppWidths [q1, q2] = [1, 1, 2, s1, t1, u1, v1, 1, 1, s2, t2, u2, v2] := by simp [suppWidths, f1, f2]
        rw [hE, hF] at hs ⊢
        have hi : i = 0 := by have := hs.fits; simp at this; omega
        subst hi
        exact addOn2_forward _ _ _ _ _ _ _ _ _ _ _ _ _ _ _ _ x n hx i2 j2 hs
    · match ws, hwl, vs, (by omega : vs.length = 5) with
      | [p1, p2, p3, p4, p5], _, [q1, q2, q3, q4, q5], _ =>
        obtain ⟨a1, b1, c1, d1, e1, i1, -⟩ := wAB_four7 p1 (h3 p1 (by simp))
        obtain ⟨a2, b2, c2, d2, e2, i2, -⟩ := wAB_four7 p2 (h3 p2 (by simp))
        obtain ⟨a3, b3, c3, d3, e3, i3, -⟩ := wAB_four7 p3 (h3 p3 (by simp))
        obtain ⟨a4, b4, c4, d4, e4, i4, -⟩ := wAB_four7 p4 (h3 p4 (by simp))
        obtain ⟨a5, b5, c5, d5, e5, i5, -⟩ := wAB_four7 p5 (h3 p5 (by simp))
        obtain ⟨s1, t1, u1, v1, f1, j1, -⟩ := wAB_four7 q1 (g3 q1 (by simp))
        obtain ⟨s2, t2, u2, v2, f2, j2, -⟩ := wAB_four7 q2 (g3 q2 (by simp))
        obtain ⟨s3, t3, u3, v3, f3, j3, -⟩ := wAB_four7 q3 (g3 q3 (by simp))
        obtain ⟨s4, t4, u4, v4, f4, j4, -⟩ := wAB_four7 q4 (g3 q4 (by simp))
        obtain ⟨s5, t5, u5, v5, f5, j5, -⟩ := wAB_four7 q5 (g3 q5 (by simp))
        have hE : suppWidths [p1, p2, p3, p4, p5] = [1, 1, 2, a1, b1, c1, d1, 1, 1, a2, b2, c2, d2, 1, 1, a3, b3, c3, d3, 1, 1,
            a4, b4, c4, d4, 1, 1, a5, b5, c5, d5] := by simp [suppWidths, e1, e2, e3, e4, e5]
        have hF : suppWidths [q1, q2, q3, q4, q5] = [1, 1, 2, s1, t1, u1, v1, 1, 1, s2, t2, u2, v2, 1, 1, s3, t3, u3, v3, 1, 1,
            s4, t4, u4, v4, 1, 1, s5, t5, u5, v5] := by simp [suppWidths, f1, f2, f3, f4, f5]
        rw [hE, hF] at hs ⊢
        have hi : i = 0 := by have := hs.fits; simp at this; omega
        subst hi
        exact addOn5_forward _ _ _ _ _ _ _ _ _ _ _ _ _ _ _ _ _ _ _ _ _ _ _ _ _ _ _ _ _ _ _ _ _ _ _ _ _ _ _ _ x n hx i5 j5 hs
  · exfalso
    obtain ⟨vs, rfl, g2, g3, g4⟩ := hread F u hs.pos hs.odd hr
    have nine : ∀ q ∈ vs, wAB q = [3, 1, 1, 2] → q = (false, 9) := fun q hq e => by
      have := (wAB_3112 q.1 q.2 (g3 q hq)).1 e
      exact Prod.ext this.1 this.2
    have zero : ∀ q ∈ vs, wAB q = [3, 2, 1, 1] → q = (false, 0) := fun q hq e => by
      have := (wAB_3112 q.1 q.2 (g3 q hq)).2 e
      exact Prod.ext this.1 this.2
    rcases hwl with hwl | hwl
    · match ws, hwl, vs, (by omega : vs.length = 2) with
      | [p1, p2], _, [q1, q2], _ =>
        obtain ⟨a1, b1, c1, d1, e1, i1, -, -, r1, -⟩ := wAB_four7 p1 (h3 p1 (by simp))
        obtain ⟨a2, b2, c2, d2, e2, i2, -⟩ := wAB_four7 p2 (h3 p2 (by simp))
        obtain ⟨s1, t1, u1, v1, f1, j1, -, y1, -⟩ := wAB_four7 q1 (g3 q1 (by simp))
        obtain ⟨s2, t2, u2, v2, f2, j2, -, -, -, z1⟩ := wAB_four7 q2 (g3 q2 (by simp))
        have hE : (suppWidths [p1, p2]).reverse = [d2, c2, b2, a2, 1, 1, d1, c1, b1, a1, 2, 1, 1] := by simp [suppWidths, e1, e2]
        have hF : suppWidths [q1, q2] = [1, 1, 2, s1, t1, u1, v1, 1, 1, s2, t2, u2, v2] := by simp [suppWidths, f1, f2]
        rw [hE, hF] at hs
        have hi : i = 0 := by have := hs.fits; simp at this; omega
        subst hi
        obtain ⟨m1, m2⟩ := addOn2_backward _ _ _ _ _ _ _ _ _ _ _ _ _ _ _ _ x n hx i1 i2 j1 j2 r1 y1 z1 hs
        rw [nine q1 (by simp) (f1.trans m1), zero q2 (by simp) (f2.trans m2)] at g4
        revert g4
        decide
    · match ws, hwl, vs, (by omega : vs.length = 5) with
      | [p1, p2, p3, p4, p5], _, [q1, q2, q3, q4, q5], _ =>
        obtain ⟨a1, b1, c1, d1, e1, i1, -⟩ := wAB_four7 p1 (h3 p1 (by simp))
        obtain ⟨a2, b2, c2, d2, e2, i2, -⟩ := wAB_four7 p2 (h3 p2 (by simp))
        obtain ⟨a3, b3, c3, d3, e3, i3, -⟩ := wAB_four7 p3 (h3 p3 (by simp))
        obtain ⟨a4, b4, c4, d4, e4, i4, -, -, r1, -⟩ := wAB_four7 p4 (h3 p4 (by simp))
        obtain ⟨a5, b5, c5, d5, e5, i5, -⟩ := wAB_four7 p5 (h3 p5 (by simp))
        obtain ⟨s1, t1, u1, v1, f1, j1, -, y1, -⟩ := wAB_four7 q1 (g3 q1 (by simp))
        obtain ⟨s2, t2, u2, v2, f2, j2, -⟩ := wAB_four7 q2 (g3 q2 (by simp))
        obtain ⟨s3, t3, u3, v3, f3, j3, -⟩ := wAB_four7 q3 (g3 q3 (by simp))
        obtain ⟨s4, t4, u4, v4, f4, j4, -⟩ := wAB_four7 q4 (g3 q4 (by simp))
        obtain ⟨s5, t5, u5, v5, f5, j5, -, -, -, z1⟩ := wAB_four7 q5 (g3 q5 (by simp))
        have hE : (suppWidths [p1, p2, p3, p4, p5]).reverse = [d5, c5, b5, a5, 1, 1, d4, c4, b4, a4, 1, 1, d3, c3, b3, a3, 1, 1,
            d2, c2, b2, a2, 1, 1, d1, c1, b1, a1, 2, 1, 1] := by simp [suppWidths, e1, e2, e3, e4, e5]
        have hF : suppWidths [q1, q2, q3, q4, q5] = [1, 1, 2, s1, t1, u1, v1, 1, 1, s2, t2, u2, v2, 1, 1, s3, t3, u3, v3, 1, 1,
            s4, t4, u4, v4, 1, 1, s5, t5, u5, v5] := by simp [suppWidths, f1, f2, f3, f4, f5]
        rw [hE, hF] at hs
        have hi : i = 0 := by have := hs.fits; simp at this; omega
        subst hi
        obtain ⟨m1, m2, m3, m4, m5⟩ := addOn5_backward _ _ _ _ _ _ _ _ _ _ _ _ _ _ _ _ _ _ _ _ _ _ _ _ _ _ _ _ _ _ _ _ _ _ _ _ _ _ _ _
          x n hx i1 i2 i3 i4 i5 j1 j2 j3 j4 j5 r1 y1 z1 hs
        rw [nine q1 (by simp) (f1.trans m1), nine q2 (by simp) (f2.trans m2), nine q3 (by simp) (f3.trans m3),
          nine q4 (by simp) (f4.trans m4), zero q5 (by simp) (f5.trans m5)] at g4
        revert g4
        decide

example : ∃ ms, Drawn .debug .supp "20000".toList ms ∧ OnlyItsText scanAddOn ms [2, 0, 0, 0, 0] ∧ MisreadPart scanAddOn ms [2, 0] :=
  ⟨_, ⟨_, rfl, rfl⟩, C121_supp .debug "20000".toList _ ⟨_, rfl, rfl⟩, misread_of _ _ _ 0 20 (by decide +kernel)⟩

end Barcoders
