import Verif.Spec.Damage
import Verif.Props.Scratch
import Verif.Props.OneModule
import Verif.Props.OneModuleTF
import Verif.Props.HandScan
set_option autoImplicit false

/-! C96: damaged pictures. -/

namespace Barcoders
open Spec

/-! ## Sampling -/

theorem scratched_index {α : Type} (n : Nat) (l l' : List α) (h : Scratched n l l') :
    l'.length = l.length ∧ ∃ a, ∀ i, i < a ∨ a + n ≤ i → l'[i]? = l[i]? := by
  obtain ⟨u, v, v', w, rfl, rfl, hv, hn⟩ := h
  refine ⟨by simp [hv], u.length, fun i hi => ?_⟩
  rcases hi with hi | hi
  · rw [List.append_assoc, List.append_assoc, List.getElem?_append_left hi, List.getElem?_append_left hi]
  · rw [List.getElem?_append_right (by simp; omega), List.getElem?_append_right (by simp; omega)]
    simp [hv]

theorem index_scratched {α : Type} (n : Nat) (l l' : List α) (hl : l'.length = l.length) (a : Nat)
    (h : ∀ i, i < a ∨ a + n ≤ i → l'[i]? = l[i]?) : Scratched n l l' := by
  refine ⟨l.take a, (l.drop a).take n, (l'.drop a).take n, l.drop (a + n), ?_, ?_, by simp [hl], by simp; omega⟩
  · rw [List.append_assoc, ← List.drop_drop, List.take_append_drop, List.take_append_drop]
  · have h1 : l'.take a = l.take a := by
      apply List.ext_getElem?
      intro i
      rw [List.getElem?_take, List.getElem?_take]
      split
      · exact h i (Or.inl (by assumption))
      · rfl
    have h2 : l'.drop (a + n) = l.drop (a + n) := by
      apply List.ext_getElem?
      intro i
      rw [List.getElem?_drop, List.getElem?_drop]
      exact h _ (Or.inr (by omega))
    rw [← h1, ← h2, List.append_assoc, ← List.drop_drop, List.take_append_drop, List.take_append_drop]

theorem everyNth_getElem? {α : Type} (k : Nat) (hk : 0 < k) (l : List α) (i : Nat) :
    (everyNth k l)[i]? = if i < l.length / k then l[i * k]? else none := by
  have hlt : ∀ j < l.length / k, j * k < l.length := fun j hj =>
    Nat.lt_of_lt_of_le (Nat.mul_lt_mul_of_pos_right hj hk) (Nat.div_mul_le_self _ _)
  have key : ∀ m ≤ l.length / k, ∀ i, ((List.range m).filterMap (fun i => l[i * k]?))[i]? = if i < m then l[i * k]? else none := by
    intro m
    induction m with
    | zero => intro _ i; simp
    | succ m ih =>
      intro hm i
      have ih := ih (by omega)
      have hlen : ((List.range m).filterMap (fun i => l[i * k]?)).length = m := by
        have h1 := ih m
        rw [if_neg (by omega), List.getElem?_eq_none_iff] at h1
        rcases Nat.eq_zero_or_pos m with rfl | h0
        · simp
        · have h2 := ih (m - 1)
          rw [if_pos (by omega), List.getElem?_eq_getElem (hlt _ (by omega))] at h2
          have := (List.getElem?_eq_some_iff.1 h2).1
          omega
      rw [List.range_succ, List.filterMap_append, List.filterMap_cons, List.getElem?_eq_getElem (hlt m (by omega)),
        List.filterMap_nil]
      by_cases hi : i < m
      · rw [List.getElem?_append_left (by rw [hlen]; exact hi), ih, if_pos hi, if_pos (by omega)]
      · rw [List.getElem?_append_right (by rw [hlen]; omega), hlen]
        by_cases hi2 : i = m
        · subst hi2
          simp [List.getElem?_eq_getElem (hlt i (by omega))]
        · rw [if_neg (by omega)]
          rw [show i - m = (i - m - 1) + 1 by omega]
          rfl
  exact key _ (Nat.le_refl _) i

theorem everyNth_scratched {α : Type} (n k : Nat) (hk : 0 < k) (l l' : List α) (h : Scratched (n * k) l l') :
    Scratched n (everyNth k l) (everyNth k l') := by
  obtain ⟨hl, a, ha⟩ := scratched_index _ l l' h
  have hlen : ∀ m : List α, (everyNth k m).length = m.length / k := by
    intro m
    have h1 := everyNth_getElem? k hk m (m.length / k)
    rw [if_neg (by omega), List.getElem?_eq_none_iff] at h1
    rcases Nat.eq_zero_or_pos (m.length / k) with h0 | h0
    · omega
    · have h2 := everyNth_getElem? k hk m (m.length / k - 1)
      have hlt : (m.length / k - 1) * k < m.length :=
        Nat.lt_of_lt_of_le (Nat.mul_lt_mul_of_pos_right (by omega) hk) (Nat.div_mul_le_self _ _)
      rw [if_pos (by omega), List.getElem?_eq_getElem hlt] at h2
      have := (List.getElem?_eq_some_iff.1 h2).1
      omega
  apply index_scratched n _ _ (by rw [hlen, hlen, hl]) ((a + k - 1) / k)
  intro i hi
  rw [everyNth_getElem? k hk, everyNth_getElem? k hk, hl]
  split
  · apply ha
    have h1 := Nat.div_add_mod (a + k - 1) k
    have h2 := Nat.mod_lt (a + k - 1) hk
    generalize (a + k - 1) / k = c at *
    rcases hi with hi | hi
    · left
      have := Nat.mul_le_mul_right k (show i + 1 ≤ c from hi)
      rw [Nat.add_mul, Nat.mul_comm c k] at this
      omega
    · right
      have := Nat.mul_le_mul_right k hi
      rw [Nat.add_mul, Nat.mul_comm c k] at this
      omega
  · rfl

theorem everyNth_stretch (k : Nat) (hk : 0 < k) (ms : List Nat) : everyNth k (stretch k ms) = ms := by
  have hlen : (stretch k ms).length = ms.length * k := by
    induction ms with
    | nil => simp [stretch]
    | cons m ms ih => simp only [stretch, List.flatMap_cons, List.length_append, List.length_replicate, List.length_cons,
        Nat.add_mul] at ih ⊢; omega
  apply List.ext_getElem?
  intro i
  rw [everyNth_getElem? k hk, hlen, Nat.mul_div_cancel _ hk]
  clear hlen
  induction ms generalizing i with
  | nil => simp
  | cons m ms ih =>
    cases i with
    | zero =>
      rw [if_pos (by simp), Nat.zero_mul]
      show (List.replicate k m ++ stretch k ms)[0]? = _
      rw [List.getElem?_append_left (by simp; omega)]
      simp [hk]
    | succ i =>
      show (if _ then (List.replicate k m ++ stretch k ms)[_]? else _) = _
      rw [List.getElem?_append_right (by rw [List.length_replicate, Nat.succ_mul]; omega), List.length_replicate,
        Nat.succ_mul, Nat.add_sub_cancel, List.getElem?_cons_succ, ← ih i]
      simp

theorem sampleRow_eq {α : Type} (dark : α → Bool) (k : Nat) (line : List α) :
    sampleRow dark k line = everyNth k (line.map (fun c => if dark c then 1 else 0)) := by
  unfold sampleRow everyNth
  rw [List.map_filterMap, List.length_map]
  congr 1
  funext i
  simp

/-! ## Reading damaged lines -/

/-- The lines `line j` show the row `ms`; the lines `line' j` are the same with a stretch of each damaged, one of them
undamaged. -/
theorem damaged_lines {α β : Type} (scan : List Nat → Option β) (n : Nat) (ms : List Nat) (t : β)
    (hw : Withstands scan n ms t) (dark : α → Bool) (k : Nat) (hk : 0 < k) (h : Nat) (line line' : Nat → List α)
    (hl : ∀ j < h, (line j).map (fun c => if dark c then 1 else 0) = stretch k ms)
    (hd : ∀ j < h, Scratched (n * k) (line j) (line' j)) (hi : ∃ j < h, line' j = line j) :
    (∀ j < h, scan (sampleRow dark k (line' j)) = none ∨ scan (sampleRow dark k (line' j)) = some t) ∧
    firstReading scan dark k ((List.range h).map line') = some t := by
  have key : ∀ j < h, scan (sampleRow dark k (line' j)) = none ∨ scan (sampleRow dark k (line' j)) = some t := by
    intro j hj
    apply hw.2
    · obtain ⟨u, v, v', w, h1, h2, h3, h4⟩ := hd j hj
      rw [sampleRow_eq]
      have e := hl j hj
      rw [← everyNth_stretch k hk ms, ← e]
      apply everyNth_scratched n k hk
      rw [h1, h2]
      exact ⟨u.map (fun c => if dark c then 1 else 0), v.map (fun c => if dark c then 1 else 0),
        v'.map (fun c => if dark c then 1 else 0), w.map (fun c => if dark c then 1 else 0),
        by simp only [List.map_append], by simp only [List.map_append], by simp [h3], by simpa using h4⟩
    · intro m hm
      obtain ⟨c, -, rfl⟩ := List.mem_map.1 hm
      by_cases hc : dark c = true <;> simp [hc]
  refine ⟨key, ?_⟩
  obtain ⟨j, hj, hjj⟩ := hi
  have hread : scan (sampleRow dark k (line' j)) = some t := by
    rw [hjj, sampleRow_eq, hl j hj, everyNth_stretch k hk, hw.1]
  unfold firstReading
  cases hf : ((List.range h).map line').findSome? (fun l => scan (sampleRow dark k l)) with
  | none =>
    rw [List.findSome?_eq_none_iff] at hf
    rw [hf (line' j) (List.mem_map.2 ⟨j, List.mem_range.2 hj, rfl⟩)] at hread
    cases hread
  | some r =>
    obtain ⟨l, hl', hr⟩ := List.exists_of_findSome?_eq_some hf
    obtain ⟨i, hi, rfl⟩ := List.mem_map.1 hl'
    rcases key i (List.mem_range.1 hi) with h1 | h1 <;> rw [h1] at hr
    · cases hr
    · rw [← hr]

/-- C96. Overwrite pixels of a generated image, in every line across the bars a stretch of at most `n` module widths, with any
colours; at least one line must stay whole. Then no line is misread, and the first line that can be read gives the data. -/
theorem C96_image {β : Type} (scan : List Nat → Option β) (n : Nat) (ms : List Nat) (t : β)
    (hw : Withstands scan n ms t) (hbin : ∀ m ∈ ms, m = 0 ∨ m = 1) (b : Build) (g : Image.Image) (hx : 0 < g.xdim)
    (hne : g.foreground ≠ g.background) (hsz : ms.length * g.xdim < 2 ^ 32)
    (hs : 4 * (ms.length * g.xdim) * g.height < 2 ^ 63) :
    ∃ buf, Image.generateBuffer b g ms = .ok buf ∧ lineCount buf.w buf.h (headingOf g.rotation) = g.height ∧
      ∀ px' : Nat → Nat → Image.Color,
        (∀ j < g.height, Scratched (n * g.xdim) (pictureLine buf.w buf.h buf.px j (headingOf g.rotation))
          (pictureLine buf.w buf.h px' j (headingOf g.rotation))) →
        (∃ j < g.height, pictureLine buf.w buf.h px' j (headingOf g.rotation) =
          pictureLine buf.w buf.h buf.px j (headingOf g.rotation)) →
        (∀ j < g.height, ∀ r,
          scan (sampleRow (· ≠ g.background) g.xdim (pictureLine buf.w buf.h px' j (headingOf g.rotation))) = some r → r = t) ∧
        firstReading scan (· ≠ g.background) g.xdim
          ((List.range g.height).map (fun j => pictureLine buf.w buf.h px' j (headingOf g.rotation))) = some t := by
  obtain ⟨buf, h1, h2, h3⟩ := (C44_generators_agree ms hbin).image b g hx hne hsz hs
  refine ⟨buf, h1, h2, fun px' hd hi => ?_⟩
  have hl : ∀ j < g.height, (pictureLine buf.w buf.h buf.px j (headingOf g.rotation)).map
      (fun c => if decide (c ≠ g.background) = true then 1 else 0) = stretch g.xdim ms := by
    intro j hj
    have hl := readAllFrom_uniform_inv g.xdim [] _ ms hx (h3 j hj)
    rw [List.nil_append] at hl
    rw [← hl]
    apply List.map_congr_left
    intro c _
    by_cases hc : c = g.background <;> simp [hc]
  obtain ⟨k1, k2⟩ := damaged_lines scan n ms t hw (fun c => decide (c ≠ g.background)) g.xdim hx g.height
    (fun j => pictureLine buf.w buf.h buf.px j (headingOf g.rotation))
    (fun j => pictureLine buf.w buf.h px' j (headingOf g.rotation)) hl hd hi
  refine ⟨fun j hj r hr => ?_, k2⟩
  rcases k1 j hj with h | h
  · rw [h] at hr; cases hr
  · rw [h] at hr; exact (Option.some.inj hr).symm

-- the first of three rows blotted from column 30 on, the picture drawn upside down
example : ∃ ms buf, Drawn .debug .ean8 "5512345".toList ms ∧
    Image.generateBuffer .debug { Image.png 3 with rotation := .oneEighty } ms = .ok buf ∧
    firstReading scanEan8 (· ≠ Image.Color.white) 1 ((List.range 3).map (fun j => pictureLine buf.w buf.h
      (fun x y => if y = 2 ∧ 30 ≤ x ∧ x < 34 then Image.Color.black else buf.px x y) j .left)) = some [5, 5, 1, 2, 3, 4, 5, 7] := by
  refine ⟨_, _, ⟨_, rfl, rfl⟩, rfl, ?_⟩; decide +kernel

/-- C96. In particular a blot: a rectangle at most `n` module widths wide that does not reach from the top of an upright image
to its bottom. -/
theorem C96_blot {β : Type} (scan : List Nat → Option β) (n : Nat) (ms : List Nat) (t : β)
    (hw : Withstands scan n ms t) (hbin : ∀ m ∈ ms, m = 0 ∨ m = 1) (b : Build) (g : Image.Image) (hx : 0 < g.xdim)
    (hr : g.rotation = .zero)
    (hne : g.foreground ≠ g.background) (hsz : ms.length * g.xdim < 2 ^ 32)
    (hs : 4 * (ms.length * g.xdim) * g.height < 2 ^ 63) :
    ∃ buf, Image.generateBuffer b g ms = .ok buf ∧ buf.h = g.height ∧
      ∀ (x0 y0 width height : Nat) (px' : Nat → Nat → Image.Color), width ≤ n * g.xdim → height < g.height →
        (∀ x y, ¬(x0 ≤ x ∧ x < x0 + width ∧ y0 ≤ y ∧ y < y0 + height) → px' x y = buf.px x y) →
        firstReading scan (· ≠ g.background) g.xdim
          ((List.range buf.h).map (fun y => (List.range buf.w).map (fun x => px' x y))) = some t := by
  obtain ⟨buf, h1, h2, h3⟩ := C96_image scan n ms t hw hbin b g hx hne hsz hs
  rw [hr] at h2 h3
  have h2 : buf.h = g.height := h2
  refine ⟨buf, h1, h2, fun x0 y0 width height px' hwid hhei hpx => ?_⟩
  rw [h2]
  refine (h3 px' ?_ ?_).2
  · intro j _
    apply index_scratched _ _ _ (by simp [headingOf, pictureLine]) x0
    intro i hi
    simp only [headingOf, pictureLine, List.getElem?_map]
    by_cases hib : i < buf.w
    · rw [List.getElem?_range hib, Option.map_some, Option.map_some, hpx]
      omega
    · rw [List.getElem?_eq_none (by simpa using hib)]
      rfl
  · by_cases hy : y0 = 0
    · exact ⟨g.height - 1, by omega, List.map_congr_left fun x _ => hpx _ _ (by omega)⟩
    · exact ⟨0, by omega, List.map_congr_left fun x _ => hpx _ _ (by omega)⟩

example : ∃ ms buf, Drawn .debug .ean8 "5512345".toList ms ∧ Image.generateBuffer .debug (Image.png 2) ms = .ok buf ∧
    firstReading scanEan8 (· ≠ Image.Color.white) 1 ((List.range buf.h).map (fun y => (List.range buf.w).map (fun x =>
      if 20 ≤ x ∧ x < 25 ∧ y < 1 then Image.Color.black else buf.px x y))) = some [5, 5, 1, 2, 3, 4, 5, 7] := by
  refine ⟨_, _, ⟨_, rfl, rfl⟩, rfl, ?_⟩; decide +kernel

/-- C96. The same for text pictures; every character but a blank counts as dark. -/
theorem C96_ascii {β : Type} (scan : List Nat → Option β) (n : Nat) (ms : List Nat) (t : β)
    (hw : Withstands scan n ms t) (hbin : ∀ m ∈ ms, m = 0 ∨ m = 1) (g : Ascii.ASCII) (hx : 0 < g.xdim) (hh : 0 < g.height) :
    ∃ out, Ascii.generate g ms = .ok out ∧ (splitLines out).length = g.height ∧
      ∀ out' : List Char, (splitLines out').length = g.height →
        (∀ j < g.height, Scratched (n * g.xdim) ((splitLines out).getD j []) ((splitLines out').getD j [])) →
        (∃ j < g.height, (splitLines out').getD j [] = (splitLines out).getD j []) →
        (∀ l ∈ splitLines out', ∀ r, scan (sampleRow (· ≠ ' ') g.xdim l) = some r → r = t) ∧
        firstReading scan (· ≠ ' ') g.xdim (splitLines out') = some t := by
  obtain ⟨m, hm⟩ : ∃ m, g.height = m + 1 := ⟨g.height - 1, by omega⟩
  have hsp : splitLines (joinLines (List.replicate g.height (asciiRow g.xdim ms))) =
      List.replicate g.height (asciiRow g.xdim ms) := by
    rw [hm]; exact splitLines_join _ m (asciiRow_no_newline _ _)
  refine ⟨_, C35_ascii_output g ms hbin, by rw [hsp, List.length_replicate], fun out' hlen hd hi => ?_⟩
  have hl : ∀ j < g.height, ((splitLines (joinLines (List.replicate g.height (asciiRow g.xdim ms)))).getD j []).map
      (fun c => if decide (c ≠ ' ') = true then 1 else 0) = stretch g.xdim ms := by
    intro j hj
    rw [hsp]
    simp only [List.getD_eq_getElem?_getD, List.getElem?_replicate, hj, if_true, Option.getD_some]
    clear hsp hi hd hw
    induction ms with
    | nil => rfl
    | cons a ms ih =>
      have ih := ih (fun m hm => hbin m (by simp [hm]))
      simp only [asciiRow, stretch, List.flatMap_cons, List.map_append, List.map_replicate] at ih ⊢
      rw [ih]
      rcases hbin a (by simp) with rfl | rfl <;> rfl
  obtain ⟨k1, k2⟩ := damaged_lines scan n ms t hw (fun c => decide (c ≠ ' ')) g.xdim hx g.height _
    (fun j => (splitLines out').getD j []) hl hd hi
  have hall : (List.range g.height).map (fun j => (splitLines out').getD j []) = splitLines out' := by
    apply List.ext_getElem?
    intro i
    rw [List.getElem?_map]
    by_cases hi : i < g.height
    · rw [List.getElem?_range hi, List.getElem?_eq_getElem (by rw [hlen]; exact hi)]
      simp [List.getD_eq_getElem?_getD, List.getElem?_eq_getElem (show i < (splitLines out').length by rw [hlen]; exact hi)]
    · rw [List.getElem?_eq_none (by simpa using hi), List.getElem?_eq_none (by rw [hlen]; omega)]
      rfl
  rw [hall] at k2
  refine ⟨fun l hl' r hr => ?_, k2⟩
  rw [← hall] at hl'
  obtain ⟨j, hj, rfl⟩ := List.mem_map.1 hl'
  rcases k1 j (List.mem_range.1 hj) with h | h
  · rw [h] at hr; cases hr
  · rw [h] at hr; exact (Option.some.inj hr).symm

-- two characters of the first of two lines overwritten
example : ∃ ms out, Drawn .debug .ean8 "5512345".toList ms ∧ Ascii.generate ⟨2, 1⟩ ms = .ok out ∧
    firstReading scanEan8 (· ≠ ' ') 1 (splitLines (out.take 20 ++ ['#', '#'] ++ out.drop 22)) = some [5, 5, 1, 2, 3, 4, 5, 7] := by
  refine ⟨_, _, ⟨_, rfl, rfl⟩, rfl, ?_⟩; decide +kernel

/-! ## How much the symbols withstand -/

theorem withstands_of {β : Type} (scan : List Nat → Option β) (n : Nat) (ms : List Nat) (t : β) (h : scan ms = some t)
    (hs : ∀ ms', Scratched n ms ms' → ms' ≠ ms → scan ms' = none) : Withstands scan n ms t :=
  ⟨h, fun ms' h1 _ => by
    by_cases he : ms' = ms
    · exact Or.inr (by rw [he, h])
    · exact Or.inl (hs ms' h1 he)⟩

theorem withstands_speck {β : Type} (scan : List Nat → Option β) (ms : List Nat) (t : β) (h : scan ms = some t)
    (hbin : ∀ m ∈ ms, m = 0 ∨ m = 1)
    (hs : ∀ i < ms.length, scan (speck i ms) = none ∨ scan (speck i ms) = some t) : Withstands scan 1 ms t := by
  refine ⟨h, fun ms' h1 hb => ?_⟩
  by_cases he : ms' = ms
  · exact Or.inr (by rw [he, h])
  · obtain ⟨u, v, v', w, rfl, rfl, hv, hn⟩ := h1
    match v, v', hv, hn with
    | [], [], _, _ => exact absurd rfl he
    | [a], [a'], _, _ =>
      have ha := hbin a (by simp)
      have ha' := hb a' (by simp)
      have hne : a' ≠ a := fun e => he (by rw [e])
      have : speck u.length (u ++ [a] ++ w) = u ++ [a'] ++ w := by
        unfold speck
        rw [List.append_assoc, List.append_assoc, List.set_append_right _ _ (Nat.le_refl _), Nat.sub_self]
        simp only [List.getD_eq_getElem?_getD, List.getElem?_append_right (Nat.le_refl _), Nat.sub_self]
        simp
        omega
      rw [← this]
      exact hs _ (by simp)

/-- C96. EAN-13 withstands stretches of 3 modules; EAN-8, UPC-A and five-digit add-ons 5. -/
theorem C96_ean (b : Build) (s : List Char) (ms ds : List Nat) :
    (Drawn b .ean13 s ms → scanEan13 ms = some ds → Withstands scanEan13 3 ms ds) ∧
    (Drawn b .ean8 s ms → scanEan8 ms = some ds → Withstands scanEan8 5 ms ds) ∧
    (Drawn b .upca s ms → scanUpca ms = some ds → Withstands scanUpca 5 ms ds) ∧
    (Drawn b .supp s ms → s.length = 5 → scanAddOn ms = some ds → Withstands scanAddOn 5 ms ds) :=
  ⟨fun ⟨x, hx, he⟩ h => withstands_of _ _ _ _ h fun ms' h1 h2 => C90_ean13 b s x hx ms ms' he h1 h2,
   fun ⟨x, hx, he⟩ h => withstands_of _ _ _ _ h fun ms' h1 h2 => C90_ean8 b s x hx ms ms' he h1 h2,
   fun ⟨x, hx, he⟩ h => withstands_of _ _ _ _ h fun ms' h1 h2 => C90_upca b s x hx ms ms' he h1 h2,
   fun ⟨x, hx, he⟩ h5 h => withstands_of _ _ _ _ h fun ms' h1 h2 => C90_ean5 b s x hx h5 ms ms' he h1 h2⟩

example : ∃ ms, Drawn .debug .ean13 "750103131130".toList ms ∧ Withstands scanEan13 3 ms [7, 5, 0, 1, 0, 3, 1, 3, 1, 1, 3, 0, 9] :=
  ⟨_, ⟨_, rfl, rfl⟩, (C96_ean .debug "750103131130".toList _ _).1 ⟨_, rfl, rfl⟩ (by decide +kernel)⟩

/-- C96. Code 39 with a check character withstands stretches of 7 modules, Code 93 (up to 29 characters) 12, Code 128 (up to
102 data characters) 5. -/
theorem C96_checked_text (b : Build) (s : List Char) (ms : List Nat) (t : List Char) :
    ((∃ x, Code39.withChecksum s = .ok x ∧ Code39.encode x = .ok ms) → scanCode39Checked ms = some t →
      Withstands scanCode39Checked 7 ms t) ∧
    (Drawn b .code93 s ms → s.length ≤ 29 → scanCode93 ms = some t → Withstands scanCode93 12 ms t) ∧
    (Drawn b .code128 s ms → ms.length ≤ 1157 → scanCode128 ms = some t → Withstands scanCode128 5 ms t) :=
  ⟨fun ⟨x, hx, he⟩ h => withstands_of _ _ _ _ h fun ms' h1 h2 => C90_code39 s x hx ms ms' he h1 h2,
   fun ⟨x, hx, he⟩ hl h => withstands_of _ _ _ _ h fun ms' h1 h2 => C90_code93 s x hx hl ms ms' he h1 h2,
   fun ⟨x, hx, he⟩ hl h => withstands_of _ _ _ _ h fun ms' h1 h2 => C90_code128 b s x hx ms ms' he hl h1 h2⟩

example : ∃ ms, Drawn .debug .code93 "A1".toList ms ∧ Withstands scanCode93 12 ms "A1".toList :=
  ⟨_, ⟨_, rfl, rfl⟩, (C96_checked_text .debug "A1".toList _ _).2.1 ⟨_, rfl, rfl⟩ (by decide) (by decide +kernel)⟩

/-- C96. The others withstand one module in every line: Code 39 without check character, Code 93 and Code 128 of any length,
Code 11, Codabar, Standard and Interleaved 2 of 5. -/
theorem C96_one_module (b : Build) (s : List Char) (ms : List Nat) (t : List Char) (ds : List Nat) :
    (Drawn b .code39 s ms → scanCode39 ms = some t → Withstands scanCode39 1 ms t) ∧
    (Drawn b .code93 s ms → scanCode93 ms = some t → Withstands scanCode93 1 ms t) ∧
    (Drawn b .code128 s ms → s.length ≤ 6489 → scanCode128 ms = some t → Withstands scanCode128 1 ms t) ∧
    (Drawn b .code11 s ms → scanCode11 ms = some t → Withstands scanCode11 1 ms t) ∧
    (Drawn b .codabar s ms → scanCodabar ms = some t → Withstands scanCodabar 1 ms t) ∧
    (Drawn b .itf s ms → scanItf ms = some ds → Withstands scanItf 1 ms ds) ∧
    (Drawn b .stf s ms → scanStf ms = some ds → Withstands scanStf 1 ms ds) := by
  refine ⟨fun hd h => ?_, fun hd h => ?_, fun hd hl h => ?_, fun hd h => ?_, fun hd h => ?_, fun hd h => ?_, fun hd h => ?_⟩ <;>
    refine withstands_speck _ ms _ h (drawn_binary b _ s ms hd) fun i hi => ?_ <;> obtain ⟨x, hx, he⟩ := hd
  · exact Or.inl (C83_code39 s x hx ms he i hi).1
  · exact Or.inl (C83_code93 s x hx ms he i hi)
  · exact Or.inl (C83_code128 b s x hx hl ms he i hi)
  · exact Or.inl (C83_code11 s x hx ms he i hi)
  · subst he
    exact Or.inl (C83_codabar s x hx i hi).2
  · rcases C83_itf b s x hx ms he i hi with h' | h'
    · exact Or.inl h'
    · exact Or.inr (by rw [h', h])
  · rcases C83_stf s x hx ms he i hi with h' | h'
    · exact Or.inl h'
    · obtain ⟨ms', e1, e2⟩ := C24_stf_scan s x hx
      rw [he, Outcome.ok.injEq] at e1
      subst e1
      rw [h] at e2
      exact Or.inr (by rw [h', e2])

-- the EAN-8 number 5512345-7: the symbol meets the hypotheses of `C96_ean`
example : ∃ ms, Drawn .debug .ean8 "5512345".toList ms ∧ scanEan8 ms = some [5, 5, 1, 2, 3, 4, 5, 7] :=
  ⟨_, ⟨_, rfl, rfl⟩, by decide +kernel⟩

-- Code 11 "12" as text, two lines, module width two: one module of the first line overwritten
example : ∃ x ms out, Code11.new "12".toList = .ok x ∧ Code11.encode x = .ok ms ∧ Ascii.generate ⟨2, 2⟩ ms = .ok out ∧
    scanCode11 ms = some "12".toList ∧ out.take 8 = "##  ####".toList ∧
    firstReading scanCode11 (· ≠ ' ') 2 (splitLines (out.set 2 'o' |>.set 3 'o')) = some "12".toList ∧
    scanCode11 (sampleRow (· ≠ ' ') 2 ((splitLines (out.set 2 'o' |>.set 3 'o')).getD 0 [])) = none :=
  ⟨_, _, _, rfl, rfl, rfl, by decide +kernel, by decide +kernel, by decide +kernel, by decide +kernel⟩

end Barcoders
