import Verif.Spec.Ink
import Verif.Props.Exact
import Verif.Props.Shape

/-!
# Ink that is only added or only lost (C119)
-/

set_option autoImplicit false

namespace Barcoders
open Spec

theorem ink_append (a b : List Nat) : ink (a ++ b) = ink a + ink b := List.countP_append

/-- As much ink, in the same places, is the same row. -/
theorem inkAdded_eq : ∀ (a b : List Nat), (∀ x ∈ a, x = 0 ∨ x = 1) → (∀ x ∈ b, x = 0 ∨ x = 1) → InkAdded a b → ink b ≤ ink a → a = b := by
  have key : ∀ (a b : List Nat), (∀ x ∈ a, x = 0 ∨ x = 1) → (∀ x ∈ b, x = 0 ∨ x = 1) → InkAdded a b →
      ink a ≤ ink b ∧ (ink b ≤ ink a → a = b) := by
    intro a
    induction a with
    | nil =>
      intro b _ _ h
      have : b = [] := List.length_eq_zero_iff.mp h.1.symm
      subst this
      exact ⟨Nat.le_refl _, fun _ => rfl⟩
    | cons x a ih =>
      intro b ha hb h
      cases b with
      | nil => cases h.1
      | cons y b =>
        have ht : InkAdded a b := ⟨by simpa using h.1, fun i hi => by simpa using h.2 (i + 1) (by simpa using hi)⟩
        obtain ⟨h1, h2⟩ := ih b (fun z hz => ha z (by simp [hz])) (fun z hz => hb z (by simp [hz])) ht
        have h0 := h.2 0
        simp only [List.getElem?_cons_zero, Option.some.injEq] at h0
        have hx := ha x (by simp)
        have hy := hb y (by simp)
        unfold ink at *
        rw [List.countP_cons, List.countP_cons]
        rcases hx with rfl | rfl <;> rcases hy with rfl | rfl <;> simp at h0 ⊢
        · exact ⟨h1, h2⟩
        · exact ⟨by omega, by omega⟩
        · exact ⟨by omega, fun h3 => h2 (by omega)⟩
  exact fun a b ha hb h => (key a b ha hb h).2

theorem ink_groups {α : Type} (w : α → List Nat) (n k : Nat) (hn : n % 2 = 0) (l : List α)
    (h : ∀ a ∈ l, (w a).length = n ∧ ink (paintFrom 1 (w a)) = k) : ink (paintFrom 1 (l.flatMap w)) = k * l.length := by
  induction l with
  | nil => rfl
  | cons a l ih =>
    have h1 := h a (by simp)
    rw [List.flatMap_cons, paintFrom_append_even 1 (by omega) _ _ (by rw [h1.1]; exact hn), ink_append, h1.2,
      ih (fun b hb => h b (by simp [hb])), List.length_cons]
    rw [Nat.mul_succ]; omega

theorem wStf_ink : ∀ d < 10, ink (paintFrom 1 (wStf d)) = 9 := by decide

theorem wItf_ink : ∀ a < 10, ∀ b < 10, ink (paintFrom 1 (wItf (a, b))) = 9 := by decide

theorem stf_ink (ds : List Nat) (hd : Digits ds) : ink (paint (stfWidths ds)) = 9 * ds.length + 10 := by
  have hl := flatMap_length 10 wStf ds (fun d h => (wStf_spec d (hd d h)).1)
  have h1 := ink_groups wStf 10 9 rfl ds (fun d h => ⟨(wStf_spec d (hd d h)).1, wStf_ink d (hd d h)⟩)
  have h2 : ink (paintFrom 1 [2, 1, 2, 1, 1, 1]) = 5 := by decide
  have h3 : ink (paintFrom 1 [2, 1, 1, 1, 2, 1]) = 5 := by decide
  rw [paint, stfWidths, paintFrom_append_even 1 (by omega) _ _ rfl, paintFrom_append_even 1 (by omega) _ _ (by omega), ink_append,
    ink_append, h1, h2, h3]
  omega

theorem itf_ink (ds : List Nat) (hd : Digits ds) (he : ds.length % 2 = 0) :
    2 * ink (paint (itfWidths ds)) = 9 * ds.length + 10 := by
  have hw : ∀ p ∈ pairs ds, (wItf p).length = 10 ∧ ink (paintFrom 1 (wItf p)) = 9 := fun p h =>
    ⟨(wItf_spec p.1 (pairs_lt ds hd p h).1 p.2 (pairs_lt ds hd p h).2).1, wItf_ink p.1 (pairs_lt ds hd p h).1 p.2 (pairs_lt ds hd p h).2⟩
  have hl := flatMap_length 10 wItf (pairs ds) (fun p h => (hw p h).1)
  have h1 := ink_groups wItf 10 9 rfl (pairs ds) hw
  have h2 : ink (paintFrom 1 [1, 1, 1, 1]) = 2 := by decide
  have h3 : ink (paintFrom 1 [2, 1, 1]) = 3 := by decide
  have hp := pairs_length ds
  rw [paint, itfWidths, paintFrom_append_even 1 (by omega) _ _ rfl, paintFrom_append_even 1 (by omega) _ _ (by omega), ink_append,
    ink_append, h1, h2, h3]
  omega

theorem w39_ink : ∀ c ∈ '*' :: code39Alphabet, ink (paintFrom 1 (w39 c ++ [1])) + (if c ∈ lightCode39 then 2 else 0) = 7 := by decide

theorem code39_groups_ink (t : List Char) (h : ∀ c ∈ t, c ∈ '*' :: code39Alphabet) :
    ink (paintFrom 1 (t.flatMap (fun c => w39 c ++ [1]))) + 2 * t.countP (· ∈ lightCode39) = 7 * t.length := by
  induction t with
  | nil => rfl
  | cons c t ih =>
    have h1 := w39_ink c (h c (by simp))
    have h2 := ih (fun b hb => h b (by simp [hb]))
    have h3 := (w39_spec c (h c (by simp))).1
    rw [List.flatMap_cons, paintFrom_append_even 1 (by omega) _ _ (by rw [List.length_append, h3]; rfl), ink_append,
      List.countP_cons, List.length_cons]
    by_cases hc : c ∈ lightCode39 <;> simp only [hc, if_true, if_false, decide_true, decide_false, Bool.false_eq_true] at h1 ⊢ <;> omega

theorem code39_ink (t : List Char) (h : ∀ c ∈ t, c ∈ code39Alphabet) :
    ink (paint (code39Widths t)) + 2 * t.countP (· ∈ lightCode39) = 7 * t.length + 14 := by
  have hm := star_cons_mem _ _ h
  have h1 := code39_groups_ink ('*' :: t) hm
  have hl := flatMap_length 10 (fun c => w39 c ++ [1]) ('*' :: t) (fun c hc => by
    rw [List.length_append, (w39_spec c (hm c hc)).1]; rfl)
  have h9 : ink (paintFrom 1 (w39 '*')) = 7 := by decide
  have hs : decide ('*' ∈ lightCode39) = false := by decide
  rw [List.countP_cons, hs, List.length_cons] at h1
  simp only [Bool.false_eq_true, if_false] at h1
  rw [paint, code39Widths, paintFrom_append_even 1 (by omega) _ _ (by rw [hl]; omega), ink_append, h9]
  omega

/-- The Codabar characters with one wide bar and one or two wide spaces. -/
def fiveInk : List Char := "0123456789-$ABCD".toList

theorem wU_ink : ∀ c ∈ fiveInk, ink (paintFrom 1 (wU (unitOf c))) = 5 ∧ ink (paintFrom 1 (wU (unitOf c) ++ [1])) = 5 := by decide

theorem codabar_ink (cs : List Char) (c : Char) (h : ∀ d ∈ cs ++ [c], d ∈ fiveInk) :
    ink (paint (codabarSymWidths (cs.map unitOf) (unitOf c))) = 5 * (cs ++ [c]).length := by
  have hw : ∀ d ∈ cs, (wU (unitOf d) ++ [1]).length = 8 := fun d _ => by rw [List.length_append, (wU_spec (unitOf d)).2.1]; rfl
  have hl := flatMap_length 8 (fun d => wU (unitOf d) ++ [1]) cs hw
  have h1 := ink_groups (fun d => wU (unitOf d) ++ [1]) 8 5 rfl cs
    (fun d hd => ⟨hw d hd, (wU_ink d (h d (by simp [hd]))).2⟩)
  rw [paint, codabarSymWidths, List.flatMap_map, paintFrom_append_even 1 (by omega) _ _ (by rw [hl]; omega), ink_append, h1,
    (wU_ink c (h c (by simp))).1, List.length_append, List.length_singleton]
  omega

/-- A Code 39 symbol, with or without check character, read without regard to the check character. -/
theorem code39_drawn (b : Build) (s : List Char) (ms : List Nat) (h : Drawn b .code39 s ms) :
    ∃ t, (∀ c ∈ t, c ∈ code39Alphabet) ∧ ms = paint (code39Widths t) ∧ scanCode39 ms = some t := by
  obtain ⟨x, hx | hx, he⟩ := h
  · obtain ⟨h1, h2⟩ := code39_symbol s false x hx
    obtain ⟨ms', h3, h4⟩ := C14_code39_scan s x hx
    rw [he, Outcome.ok.injEq] at h2 h3
    subst h3
    exact ⟨s, h1, h2, h4⟩
  · obtain ⟨h1, h2⟩ := code39_symbol s true x hx
    obtain ⟨ms', h3, h4⟩ := C14_code39_checksum_scan s x hx
    rw [he, Outcome.ok.injEq] at h2 h3
    subst h3
    exact ⟨_, h1, h2, h4.1⟩

/-- A drawn Codabar text of the sixteen characters of equal ink: its length and its ink. -/
theorem codabar_five (b : Build) (s : List Char) (ms : List Nat) (h : Drawn b .codabar s ms) (hs : ∀ c ∈ s, c ∈ fiveInk) :
    (∀ m ∈ ms, m = 0 ∨ m = 1) ∧ ink ms = 5 * s.length ∧ ms.length + 1 = 10 * s.length + (s.map codabarExtra).sum := by
  obtain ⟨x, hx, rfl⟩ := h
  obtain ⟨cs, c, rfl, hA, he⟩ := codabar_symbol s x hx
  have hr := codabar_row cs c hA
  rw [he]
  refine ⟨hr.binary, codabar_ink cs c hs, ?_⟩
  rw [hr.length]
  simp only [List.length_append, List.length_singleton]
  omega

theorem framed_extra (a z : Char) (m : List Char) (ha : a ∈ "ABCD".toList) (hz : z ∈ "ABCD".toList)
    (hm : ∀ c ∈ m, c ∈ "0123456789-$".toList) :
    (∀ c ∈ a :: (m ++ [z]), c ∈ fiveInk) ∧ ((a :: (m ++ [z])).map codabarExtra).sum = 2 := by
  have h1 : ∀ c ∈ "ABCD".toList, c ∈ fiveInk ∧ codabarExtra c = 1 := by decide
  have h2 : ∀ c ∈ "0123456789-$".toList, c ∈ fiveInk ∧ codabarExtra c = 0 := by decide
  have h3 : (m.map codabarExtra).sum = 0 := by
    induction m with
    | nil => rfl
    | cons c m ih =>
      rw [List.map_cons, List.sum_cons, (h2 c (hm c (by simp))).2, ih (fun d hd => hm d (by simp [hd]))]
  constructor
  · intro c hc
    rcases List.mem_cons.mp hc with rfl | hc
    · exact (h1 c ha).1
    · rcases List.mem_append.mp hc with hc | hc
      · exact (h2 c (hm c hc)).1
      · rw [List.mem_singleton.mp hc]; exact (h1 z hz).1
  · rw [List.map_cons, List.map_append, List.sum_cons, List.sum_append, h3, (h1 a ha).2]
    simp only [List.map_cons, List.map_nil, List.sum_cons, List.sum_nil, (h1 z hz).2]
    omega

/-- C119. How much ink a symbol takes: Standard 2 of 5 nine modules for every digit and ten for the frame, Interleaved 2 of 5
nine for every pair and five; Code 39 seven for every character (five for `$`, `/`, `+`, `%`); Codabar five for every digit,
dash, dollar sign and letter. -/
theorem C119_ink (b : Build) (s : List Char) (ms : List Nat) :
    (Drawn b .stf s ms → ink ms = 9 * s.length + 10) ∧
    (Drawn b .itf s ms → ink ms = 9 * ((s.length + 1) / 2) + 5) ∧
    (Drawn b .code39 s ms → ∃ t, scanCode39 ms = some t ∧ ink ms + 2 * t.countP (· ∈ lightCode39) = 7 * (t.length + 2)) ∧
    (Drawn b .codabar s ms → (∀ c ∈ s, c ∈ "0123456789-$ABCD".toList) → ink ms = 5 * s.length) := by
  refine ⟨?_, ?_, ?_, fun h hs => (codabar_five b s ms h hs).2.1⟩
  · rintro ⟨x, hx, he⟩
    obtain ⟨hD, h1⟩ := stf_symbol s x hx
    rw [he, Outcome.ok.injEq] at h1
    rw [h1, stf_ink _ (digits_lt s hD)]
    simp [digitsOf]
  · rintro ⟨x, hx, he⟩
    obtain ⟨ds, hd, hev, hl, -, -, h1⟩ := itf_symbol b s x hx
    rw [he, Outcome.ok.injEq] at h1
    have := itf_ink ds hd hev
    rw [h1]
    omega
  · intro h
    obtain ⟨t, h1, h2, h3⟩ := code39_drawn b s ms h
    refine ⟨t, h3, ?_⟩
    have := code39_ink t h1
    rw [h2]
    omega

example : ∃ ms, Drawn .debug .stf "0123".toList ms ∧ ink ms = 46 ∧ ms.length = 72 := ⟨_, ⟨_, rfl, rfl⟩, by decide, by decide⟩
example : ∃ ms, Drawn .debug .code39 "A$".toList ms ∧ ink ms = 26 := ⟨_, ⟨_, Or.inl rfl, rfl⟩, by decide⟩

/-- C119. Adding ink to a 2 of 5 symbol (either kind) never gives another one. -/
theorem C119_two_of_five (b : Build) (k : Kind) (hk : k = .stf ∨ k = .itf) (s s' : List Char) (ms ms' : List Nat)
    (h : Drawn b k s ms) (h' : Drawn b k s' ms') (ha : InkAdded ms ms') : ms = ms' := by
  rcases hk with rfl | rfl
  · have e1 := (C119_ink b s ms).1 h
    have e2 := (C119_ink b s' ms').1 h'
    obtain ⟨x, hx, he⟩ := h
    obtain ⟨x', hx', he'⟩ := h'
    obtain ⟨hD, h1⟩ := stf_symbol s x hx
    obtain ⟨hD', h1'⟩ := stf_symbol s' x' hx'
    rw [he, Outcome.ok.injEq] at h1
    rw [he', Outcome.ok.injEq] at h1'
    have r := stf_row _ (digits_lt s hD)
    have r' := stf_row _ (digits_lt s' hD')
    rw [← h1] at r
    rw [← h1'] at r'
    have l := r.length
    have l' := r'.length
    have := ha.1
    simp only [digitsOf, List.length_map] at l l'
    exact inkAdded_eq ms ms' r.binary r'.binary ha (by omega)
  · have e1 := (C119_ink b s ms).2.1 h
    have e2 := (C119_ink b s' ms').2.1 h'
    obtain ⟨x, hx, he⟩ := h
    obtain ⟨x', hx', he'⟩ := h'
    obtain ⟨ds, hd, hev, hl, -, -, h1⟩ := itf_symbol b s x hx
    obtain ⟨ds', hd', hev', hl', -, -, h1'⟩ := itf_symbol b s' x' hx'
    rw [he, Outcome.ok.injEq] at h1
    rw [he', Outcome.ok.injEq] at h1'
    have r := itf_row ds hd hev
    have r' := itf_row ds' hd' hev'
    rw [← h1] at r
    rw [← h1'] at r'
    have l := r.length
    have l' := r'.length
    have := ha.1
    exact inkAdded_eq ms ms' r.binary r'.binary ha (by omega)

example : ∃ ms ms', Drawn .debug .stf "12".toList ms ∧ Drawn .debug .stf "34".toList ms' ∧ ms.length = ms'.length ∧ ¬ InkAdded ms ms' :=
  ⟨_, _, ⟨_, rfl, rfl⟩, ⟨_, rfl, rfl⟩, by decide, fun ha => absurd
    (C119_two_of_five .debug .stf (Or.inl rfl) "12".toList "34".toList _ _ ⟨_, rfl, rfl⟩ ⟨_, rfl, rfl⟩ ha) (by decide)⟩

/-- C119. Adding ink to a Code 39 symbol in which none of `$`, `/`, `+`, `%` is drawn never gives another one. -/
theorem C119_code39 (b : Build) (s s' t : List Char) (ms ms' : List Nat) (h : Drawn b .code39 s ms) (h' : Drawn b .code39 s' ms')
    (ht : scanCode39 ms = some t) (hn : ∀ c ∈ t, c ∉ lightCode39) (ha : InkAdded ms ms') : ms = ms' := by
  obtain ⟨u, h1, h2, h3⟩ := code39_drawn b s ms h
  obtain ⟨u', h1', h2', h3'⟩ := code39_drawn b s' ms' h'
  rw [ht, Option.some.injEq] at h3
  subst h3
  have e := code39_ink t h1
  have e' := code39_ink u' h1'
  have r := code39_row t h1
  have r' := code39_row u' h1'
  rw [← h2] at e r
  rw [← h2'] at e' r'
  have l := r.length
  have l' := r'.length
  have := ha.1
  have h0 : t.countP (· ∈ lightCode39) = 0 := by
    rw [List.countP_eq_zero]
    intro c hc
    simpa using hn c hc
  exact inkAdded_eq ms ms' r.binary r'.binary ha (by omega)

example : ∃ ms ms', Drawn .debug .code39 "A1".toList ms ∧ Drawn .debug .code39 "B1".toList ms' ∧ ms.length = ms'.length ∧
    ¬ InkAdded ms ms' :=
  ⟨_, _, ⟨_, Or.inl rfl, rfl⟩, ⟨_, Or.inl rfl, rfl⟩, by decide, fun ha => absurd
    (C119_code39 .debug "A1".toList "B1".toList "A1".toList _ _ ⟨_, Or.inl rfl, rfl⟩ ⟨_, Or.inl rfl, rfl⟩ (by decide +kernel) (by decide) ha)
    (by decide)⟩

/-- C119. Adding ink to a Codabar symbol of digits, dashes and dollar signs between two letters never gives another one. -/
theorem C119_codabar (b : Build) (a z a' z' : Char) (m m' : List Char) (ms ms' : List Nat)
    (hl : a ∈ "ABCD".toList ∧ z ∈ "ABCD".toList ∧ a' ∈ "ABCD".toList ∧ z' ∈ "ABCD".toList)
    (hm : ∀ c ∈ m, c ∈ "0123456789-$".toList) (hm' : ∀ c ∈ m', c ∈ "0123456789-$".toList)
    (h : Drawn b .codabar (a :: (m ++ [z])) ms) (h' : Drawn b .codabar (a' :: (m' ++ [z'])) ms') (ha : InkAdded ms ms') : ms = ms' := by
  obtain ⟨f1, f2⟩ := framed_extra a z m hl.1 hl.2.1 hm
  obtain ⟨f1', f2'⟩ := framed_extra a' z' m' hl.2.2.1 hl.2.2.2 hm'
  obtain ⟨g1, g2, g3⟩ := codabar_five b _ ms h f1
  obtain ⟨g1', g2', g3'⟩ := codabar_five b _ ms' h' f1'
  have := ha.1
  exact inkAdded_eq ms ms' g1 g1' ha (by omega)

example : ∃ ms ms', Drawn .debug .codabar "A1-B".toList ms ∧ Drawn .debug .codabar "C20D".toList ms' ∧ ms.length = ms'.length ∧
    ¬ InkAdded ms ms' :=
  ⟨_, _, ⟨_, rfl, rfl⟩, ⟨_, rfl, rfl⟩, by decide, fun ha => absurd
    (C119_codabar .debug 'A' 'B' 'C' 'D' "1-".toList "20".toList _ _ (by decide) (by decide) (by decide) ⟨_, rfl, rfl⟩ ⟨_, rfl, rfl⟩ ha)
    (by decide)⟩

theorem overprint_added : ∀ (a b : List Nat), a.length = b.length → InkAdded a (overprint a b) ∧ InkAdded b (overprint a b) := by
  intro a b h
  unfold overprint
  refine ⟨⟨by simp [h], fun i hi => ?_⟩, ⟨by simp [h], fun i hi => ?_⟩⟩
  · obtain ⟨hlt, he⟩ := List.getElem?_eq_some_iff.mp hi
    rw [List.getElem?_zipWith, hi, List.getElem?_eq_getElem (by omega : i < b.length)]
    simp
  · obtain ⟨hlt, he⟩ := List.getElem?_eq_some_iff.mp hi
    rw [List.getElem?_zipWith, hi, List.getElem?_eq_getElem (by omega : i < a.length)]
    simp

/-- C119. Two different 2 of 5 symbols of the same length (of either kind), printed on top of each other, or two different
Code 39 symbols without `$`, `/`, `+`, `%`, are not a third symbol. -/
theorem C119_overprint (b : Build) (s s' u : List Char) (ms ms' : List Nat) (hl : ms.length = ms'.length) (hne : ms ≠ ms') :
    (∀ k, k = .stf ∨ k = .itf → Drawn b k s ms → Drawn b k s' ms' → ¬ Drawn b k u (overprint ms ms')) ∧
    (Drawn b .code39 s ms → Drawn b .code39 s' ms' → ∀ t t', scanCode39 ms = some t → scanCode39 ms' = some t' →
      (∀ c ∈ t ++ t', c ∉ lightCode39) → ¬ Drawn b .code39 u (overprint ms ms')) := by
  obtain ⟨h1, h2⟩ := overprint_added ms ms' hl
  refine ⟨fun k hk h h' hu => hne ?_, fun h h' t t' ht ht' hn hu => hne ?_⟩
  · exact (C119_two_of_five b k hk s u ms _ h hu h1).trans (C119_two_of_five b k hk s' u ms' _ h' hu h2).symm
  · exact (C119_code39 b s u t ms _ h hu ht (fun c hc => hn c (by simp [hc])) h1).trans
      (C119_code39 b s' u t' ms' _ h' hu ht' (fun c hc => hn c (by simp [hc])) h2).symm

example : ∃ ms ms', Drawn .debug .itf "12".toList ms ∧ Drawn .debug .itf "13".toList ms' ∧ ms.length = ms'.length ∧ ms ≠ ms' ∧
    scanItf (overprint ms ms') = none :=
  ⟨_, _, ⟨_, rfl, rfl⟩, ⟨_, rfl, rfl⟩, by decide, by decide, by decide +kernel⟩

theorem inkAdded_of (a b : List Nat) (h : a.length = b.length ∧ (a.zip b).all (fun p => p.1 != 1 || p.2 == 1) = true) : InkAdded a b := by
  refine ⟨h.1, fun i hi => ?_⟩
  obtain ⟨hlt, he⟩ := List.getElem?_eq_some_iff.mp hi
  have hb : i < b.length := by rw [← h.1]; exact hlt
  have hz : (a.zip b)[i]? = some (1, b[i]) := by
    rw [List.getElem?_zip_eq_some]
    exact ⟨hi, List.getElem?_eq_getElem hb⟩
  have := List.all_eq_true.mp h.2 _ (List.mem_of_getElem? hz)
  rw [List.getElem?_eq_getElem hb]
  simpa using this

/-- C119. The other symbologies are not protected: there are pairs of different texts of which one symbol becomes the other
by added ink alone - also with `$`, `/`, `+` or `%` in Code 39 and with `:`, `/`, `.` or inner letters in Codabar. -/
theorem C119_others : ∀ p ∈ [(Kind.ean13, "0140000000003".toList, "0380000000003".toList), (.upca, "140000000003".toList, "380000000003".toList),
      (.ean8, "14000003".toList, "38000003".toList), (.supp, "10400".toList, "36400".toList), (.supp, "93".toList, "23".toList),
      (.code39, "$".toList, "5".toList), (.code93, "0".toList, "[".toList), (.code11, "2".toList, "1".toList),
      (.codabar, "C".toList, ":".toList), (.code128, "\u0181#".toList, "\u0181,".toList)],
    ∃ ms ms', Drawn .debug p.1 p.2.1 ms ∧ Drawn .debug p.1 p.2.2 ms' ∧ ms ≠ ms' ∧ InkAdded ms ms' := by
  simp only [List.mem_cons, List.not_mem_nil, or_false, forall_eq_or_imp, forall_eq]
  refine ⟨⟨_, _, ⟨_, rfl, rfl⟩, ⟨_, rfl, rfl⟩, by decide, inkAdded_of _ _ (by decide)⟩,
    ⟨_, _, ⟨_, rfl, rfl⟩, ⟨_, rfl, rfl⟩, by decide, inkAdded_of _ _ (by decide)⟩,
    ⟨_, _, ⟨_, rfl, rfl⟩, ⟨_, rfl, rfl⟩, by decide, inkAdded_of _ _ (by decide)⟩,
    ⟨_, _, ⟨_, rfl, rfl⟩, ⟨_, rfl, rfl⟩, by decide, inkAdded_of _ _ (by decide)⟩,
    ⟨_, _, ⟨_, rfl, rfl⟩, ⟨_, rfl, rfl⟩, by decide, inkAdded_of _ _ (by decide)⟩,
    ⟨_, _, ⟨_, Or.inl rfl, rfl⟩, ⟨_, Or.inl rfl, rfl⟩, by decide, inkAdded_of _ _ (by decide)⟩,
    ⟨_, _, ⟨_, rfl, rfl⟩, ⟨_, rfl, rfl⟩, by decide, inkAdded_of _ _ (by decide)⟩,
    ⟨_, _, ⟨_, rfl, rfl⟩, ⟨_, rfl, rfl⟩, by decide, inkAdded_of _ _ (by decide)⟩,
    ⟨_, _, ⟨_, rfl, rfl⟩, ⟨_, rfl, rfl⟩, by decide, inkAdded_of _ _ (by decide)⟩,
    ⟨_, _, ⟨_, rfl, rfl⟩, ⟨_, rfl, rfl⟩, by decide, inkAdded_of _ _ (by decide)⟩⟩

end Barcoders
