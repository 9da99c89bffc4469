import Verif.Props.Tells

/-!
# Which characters the generators write, and how many (C115)
-/

set_option autoImplicit false

namespace Barcoders
open Spec

/-- A printable ASCII character: one byte, the same in every common encoding. -/
def Printable (c : Char) : Prop := 32 ≤ c.toNat ∧ c.toNat < 127

instance (c : Char) : Decidable (Printable c) := inferInstanceAs (Decidable (_ ∧ _))

theorem asciiRow_length (x : Nat) (bits : List Nat) : (asciiRow x bits).length = bits.length * x := by
  induction bits with
  | nil => simp [asciiRow]
  | cons b l ih =>
    rw [asciiRow, List.flatMap_cons, List.length_append, List.length_replicate, ← asciiRow, ih, List.length_cons, Nat.add_mul]
    omega

theorem asciiRow_chars (x : Nat) (bits : List Nat) : ∀ c ∈ asciiRow x bits, c = '#' ∨ c = ' ' := by
  intro c hc
  obtain ⟨b, -, hb⟩ := List.mem_flatMap.mp hc
  rw [List.eq_of_mem_replicate hb]
  by_cases h : b = 1 <;> simp [h]

/-- C115. The text generator writes `#`, blanks and line ends only, and `height` lines of `xdim` characters per module,
without a line end after the last. -/
theorem C115_ascii (g : Ascii.ASCII) (ms : List Nat) (out : List Char) (h : Ascii.generate g ms = .ok out) :
    (∀ c ∈ out, c = '#' ∨ c = ' ' ∨ c = '\n') ∧ out.length = g.height * (ms.length * g.xdim + 1) - 1 ∧
    out.count '\n' = g.height - 1 := by
  have hb : ∀ m ∈ ms, m = 0 ∨ m = 1 := by
    apply Classical.byContradiction
    intro hn
    simp only [Classical.not_forall, not_or] at hn
    obtain ⟨m, hm, hh⟩ := hn
    rw [(C111_ascii g ms).1 ⟨m, hm, hh⟩] at h
    cases h
  rw [C35_ascii_output g ms hb, Outcome.ok.injEq] at h
  subst h
  cases hh : g.height with
  | zero => simp [joinLines]
  | succ n =>
    have hc := asciiRow_chars g.xdim ms
    have hl := asciiRow_length g.xdim ms
    generalize asciiRow g.xdim ms = row at hc hl
    have hrow : row.count '\n' = 0 := List.count_eq_zero.mpr (fun h => by rcases hc _ h with e | e <;> cases e)
    rw [joinLines_replicate]
    have hcount : ∀ k, ((List.replicate k (row ++ ['\n'])).flatten.count '\n' = k) ∧
        (List.replicate k (row ++ ['\n'])).flatten.length = k * (row.length + 1) := by
      intro k
      induction k with
      | zero => simp
      | succ k ih =>
        rw [List.replicate_succ, List.flatten_cons, List.count_append, List.length_append, ih.1, ih.2, List.count_append, hrow,
          Nat.add_mul]
        simp
        omega
    refine ⟨?_, ?_, ?_⟩
    · intro c hm
      simp only [List.mem_append, List.mem_flatten, List.mem_replicate] at hm
      rcases hm with ⟨l, ⟨-, rfl⟩, hm⟩ | hm
      · rcases List.mem_append.mp hm with hm | hm
        · rcases hc c hm with e | e <;> simp [e]
        · simp at hm; simp [hm]
      · rcases hc c hm with e | e <;> simp [e]
    · rw [List.length_append, (hcount n).2, hl, Nat.add_mul]
      omega
    · rw [List.count_append, (hcount n).1, hrow]
      omega

example : ∃ out, Ascii.generate ⟨3, 2⟩ [1, 0, 1] = .ok out ∧ out.length = 20 ∧ out.count '\n' = 2 := ⟨_, rfl, by decide, by decide⟩

theorem showNat_length_le (n k : Nat) (hk : 0 < k) (h : n < 10 ^ k) : (showNat n).length ≤ k :=
  (Nat.length_toDigits_le_iff (by omega) hk).mpr h

theorem showNat_printable (n : Nat) : ∀ c ∈ showNat n, Printable c := by
  intro c hc
  have := isDigit_cases c ((showNat_spec n).1 c hc)
  revert this
  have : ∀ d ∈ "0123456789".toList, Printable d := by decide
  exact this c

theorem bitStep_fold (ms : List Nat) (acc : List Char) : ms.foldl Json.bitStep acc =
    acc ++ ms.flatMap (fun m => [if m = 0 then '0' else '1', ',']) := by
  induction ms generalizing acc with
  | nil => simp
  | cons m ms ih =>
    have hs : Json.bitStep acc m = acc ++ [if m = 0 then '0' else '1', ','] := by
      cases m with
      | zero => simp [Json.bitStep]
      | succ m => simp [Json.bitStep]
    rw [List.foldl_cons, ih, List.flatMap_cons, hs, List.append_assoc]

theorem length_seven {α : Type} (a b c d e f g : List α) : (a ++ b ++ c ++ d ++ e ++ f ++ g).length =
    a.length + b.length + c.length + d.length + e.length + f.length + g.length := by
  simp only [List.length_append]

theorem json_length (g : Json.JSON) (ms : List Nat) :
    ("{\"height\":".toList ++ showNat g.height ++ ",\"xdim\":".toList ++ showNat g.xdim ++ ",\"encoding\":[".toList ++
      (ms.foldl Json.bitStep []).dropLast ++ "]}".toList).length =
    33 + (showNat g.height).length + (showNat g.xdim).length + (2 * ms.length - 1) := by
  have k1 : "{\"height\":".toList.length = 10 := rfl
  have k2 : ",\"xdim\":".toList.length = 8 := rfl
  have k3 : ",\"encoding\":[".toList.length = 13 := rfl
  have k4 : "]}".toList.length = 2 := rfl
  have hb : ∀ l : List Nat, (l.flatMap (fun m => [if m = 0 then '0' else '1', ','])).length = 2 * l.length := by
    intro l
    induction l with
    | nil => rfl
    | cons m l ih => rw [List.flatMap_cons, List.length_append, ih]; simp; omega
  rw [length_seven, k1, k2, k3, k4, bitStep_fold, List.nil_append, List.length_dropLast, hb]
  omega

/-- C115. The JSON generator writes printable ASCII, and for settings below `2^64`, as a `usize` is, at most two
characters per module and 73 more. -/
theorem C115_json (g : Json.JSON) (ms : List Nat) :
    ∃ out, Json.generate g ms = .ok out ∧ (∀ c ∈ out, Printable c) ∧
      (g.height < 2 ^ 64 → g.xdim < 2 ^ 64 → out.length ≤ 2 * ms.length + 73) ∧ 2 * ms.length + 34 ≤ out.length := by
  have hlen := json_length g ms
  refine ⟨_, rfl, ?_, ?_, ?_⟩
  · intro c hc
    rw [bitStep_fold, List.nil_append] at hc
    have hbits : ∀ c ∈ (ms.flatMap (fun m => [if m = 0 then '0' else '1', ','])).dropLast, Printable c := by
      intro c hc
      obtain ⟨m, -, hm⟩ := List.mem_flatMap.mp (List.dropLast_subset _ hc)
      by_cases h : m = 0
      · rw [if_pos h] at hm
        have : ∀ d ∈ ['0', ','], Printable d := by decide
        exact this c hm
      · rw [if_neg h] at hm
        have : ∀ d ∈ ['1', ','], Printable d := by decide
        exact this c hm
    have k1 : ∀ d ∈ "{\"height\":".toList, Printable d := by decide
    have k2 : ∀ d ∈ ",\"xdim\":".toList, Printable d := by decide
    have k3 : ∀ d ∈ ",\"encoding\":[".toList, Printable d := by decide
    have k4 : ∀ d ∈ "]}".toList, Printable d := by decide
    rcases List.mem_append.mp hc with hc | hc
    rcases List.mem_append.mp hc with hc | hc
    rcases List.mem_append.mp hc with hc | hc
    rcases List.mem_append.mp hc with hc | hc
    rcases List.mem_append.mp hc with hc | hc
    rcases List.mem_append.mp hc with hc | hc
    · exact k1 c hc
    · exact showNat_printable _ c hc
    · exact k2 c hc
    · exact showNat_printable _ c hc
    · exact k3 c hc
    · exact hbits c hc
    · exact k4 c hc
  · intro h1 h2
    have := showNat_length_le g.height 20 (by omega) (Nat.lt_trans h1 (by decide))
    have := showNat_length_le g.xdim 20 (by omega) (Nat.lt_trans h2 (by decide))
    rw [hlen]
    omega
  · have := List.length_pos_iff.mpr (showNat_spec g.height).2.2.1
    have := List.length_pos_iff.mpr (showNat_spec g.xdim).2.2.1
    rw [hlen]
    omega

example : ∃ out, Json.generate ⟨10, 1⟩ [1, 0, 1] = .ok out ∧ out.length = 41 := ⟨_, rfl, by decide +kernel⟩

/-! ## SVG -/

theorem mapO_inv {α β : Type} (f : α → Outcome β) (l : List α) (r : List β) (h : mapO f l = .ok r) :
    r.length = l.length ∧ ∀ y ∈ r, ∃ x ∈ l, f x = .ok y := by
  induction l generalizing r with
  | nil => cases h; simp
  | cons a l ih =>
    rw [mapO] at h
    cases ha : f a with
    | err e => rw [ha] at h; cases h
    | panic p => rw [ha] at h; cases h
    | ok y =>
      rw [ha, Outcome.ok_bind] at h
      cases hl : mapO f l with
      | err e => rw [hl] at h; cases h
      | panic p => rw [hl] at h; cases h
      | ok r' =>
        rw [hl, Outcome.ok_bind] at h
        cases h
        obtain ⟨h1, h2⟩ := ih r' hl
        refine ⟨by simp [h1], fun z hz => ?_⟩
        rcases List.mem_cons.mp hz with rfl | hz
        · exact ⟨a, List.mem_cons_self, ha⟩
        · obtain ⟨x, hx, e⟩ := h2 z hz
          exact ⟨x, List.mem_cons_of_mem _ hx, e⟩

theorem u32_lt (b : Build) (n m : Nat) (h : u32 b n = .ok m) : m < 2 ^ 32 := by
  unfold u32 at h
  by_cases hn : n < 2 ^ 32
  · rw [if_pos hn] at h; cases h; exact hn
  · rw [if_neg hn] at h
    cases b with
    | debug => cases h
    | release => cases h; exact Nat.mod_lt _ (by decide)

theorem opacity_length : ∀ a < 256, (Svg.fixed2 (Svg.hundredths a)).length = 4 ∧ ∀ c ∈ Svg.fixed2 (Svg.hundredths a), Printable c := by
  decide +kernel

theorem length_eleven {α : Type} (a b c d e f g h i j k : List α) : (a ++ b ++ c ++ d ++ e ++ f ++ g ++ h ++ i ++ j ++ k).length =
    a.length + b.length + c.length + d.length + e.length + f.length + g.length + h.length + i.length + j.length + k.length := by
  simp only [List.length_append]

theorem length_three {α : Type} (a b c : List α) : (a ++ b ++ c).length = a.length + b.length + c.length := by
  simp only [List.length_append]

theorem length_nine {α : Type} (a b c d e f g h i : List α) : (a ++ b ++ c ++ d ++ e ++ f ++ g ++ h ++ i).length =
    a.length + b.length + c.length + d.length + e.length + f.length + g.length + h.length + i.length := by
  simp only [List.length_append]

theorem showNat_u32 (n : Nat) (h : n < 2 ^ 32) : 1 ≤ (showNat n).length ∧ (showNat n).length ≤ 10 :=
  ⟨List.length_pos_iff.mpr (showNat_spec n).2.2.1, showNat_length_le n 10 (by omega) (Nat.lt_trans h (by decide))⟩

theorem rect_size (s : Svg.SVG) (style off w : Nat) (hh : s.height < 2 ^ 32) (ho : off < 2 ^ 32) (hw : w < 2 ^ 32) :
    (Svg.rect s style off w).length ≤ 103 ∧ 55 ≤ (Svg.rect s style off w).length := by
  have k1 : "<rect x=\"".toList.length = 9 := rfl
  have k2 : "\" y=\"0\" width=\"".toList.length = 15 := rfl
  have k3 : "\" height=\"".toList.length = 10 := rfl
  have k4 : "\" fill=\"#".toList.length = 9 := rfl
  have k5 : "\"".toList.length = 1 := rfl
  have k6 : "/>".toList.length = 2 := rfl
  have hop : ∀ c : Svg.Color, (if 254 ≤ c.a.val then [] else " fill-opacity=\"".toList ++ c.toOpacity ++ "\" ".toList).length ≤ 21 := by
    intro c
    by_cases hc : 254 ≤ c.a.val
    · rw [if_pos hc]; simp
    · rw [if_neg hc]
      have l1 : " fill-opacity=\"".toList.length = 15 := rfl
      have l2 : "\" ".toList.length = 2 := rfl
      have l3 : c.toOpacity.length = 4 := (opacity_length _ c.a.isLt).1
      rw [List.length_append, List.length_append, l1, l2, l3]
      omega
  have h1 := showNat_u32 _ hh
  have h2 := showNat_u32 _ ho
  have h3 := showNat_u32 _ hw
  have h4 := hop (styleColor s style)
  have h5 := (toHex_spec (styleColor s style)).2.1
  rw [rect_eq, length_eleven, k1, k2, k3, k4, k5, k6, h5]
  omega

theorem printable_append {a b : List Char} (ha : ∀ c ∈ a, Printable c) (hb : ∀ c ∈ b, Printable c) : ∀ c ∈ a ++ b, Printable c := by
  intro c hc
  rcases List.mem_append.mp hc with h | h
  · exact ha c h
  · exact hb c h

theorem hex_printable (c : Svg.Color) : ∀ d ∈ c.toHex, Printable d := by
  intro d hd
  rcases ((toHex_spec c).2.2 d hd).1 with h | h
  · have : ∀ d ∈ "0123456789".toList, Printable d := by decide
    exact this d (isDigit_cases d h)
  · have : ∀ d ∈ "abcdef".toList, Printable d := by decide
    exact this d h

theorem rect_printable (s : Svg.SVG) (style off w : Nat) : ∀ c ∈ Svg.rect s style off w, Printable c := by
  have hop : ∀ c : Svg.Color, ∀ d ∈ (if 254 ≤ c.a.val then [] else " fill-opacity=\"".toList ++ c.toOpacity ++ "\" ".toList),
      Printable d := by
    intro c
    by_cases hc : 254 ≤ c.a.val
    · rw [if_pos hc]; exact fun d hd => by cases hd
    · rw [if_neg hc]
      exact printable_append (printable_append (by decide) (opacity_length _ c.a.isLt).2) (by decide)
  rw [rect_eq]
  exact printable_append (printable_append (printable_append (printable_append (printable_append (printable_append
    (printable_append (printable_append (printable_append (printable_append (by decide) (showNat_printable _)) (by decide))
    (showNat_printable _)) (by decide)) (showNat_printable _)) (by decide)) (hex_printable _)) (by decide)) (hop _)) (by decide)

theorem flatten_size {α : Type} (ls : List (List α)) (lo hi : Nat) (h : ∀ l ∈ ls, l.length ≤ hi ∧ lo ≤ l.length) :
    ls.flatten.length ≤ ls.length * hi ∧ ls.length * lo ≤ ls.flatten.length := by
  induction ls with
  | nil => simp
  | cons l ls ih =>
    have h1 := h l List.mem_cons_self
    have h2 := ih (fun x hx => h x (List.mem_cons_of_mem _ hx))
    rw [List.flatten_cons, List.length_append, List.length_cons, Nat.add_mul, Nat.add_mul]
    omega

theorem enumFrom_count (k : Nat) (ms : List Nat) : ((enumFrom k ms).filter (fun p => p.2 == 1)).length = ms.count 1 := by
  induction ms generalizing k with
  | nil => rfl
  | cons m ms ih =>
    rw [enumFrom, List.filter_cons]
    by_cases h : m = 1
    · subst h; simp [ih]
    · simp [h, ih]

/-- C115. The SVG generator writes printable ASCII besides the given name space. A document is at most 103 characters per
bar, and 173, longer than the name space, and not shorter than 55 characters per bar, and 98; also where widths wrap
around. -/
theorem C115_svg (b : Build) (s : Svg.SVG) (ms : List Nat) (out : List Char) (h : Svg.generate b s ms = .ok out) :
    ((∀ x ∈ s.xmlns, ∀ c ∈ x, Printable c) → ∀ c ∈ out, Printable c) ∧
    (s.height < 2 ^ 32 → s.xdim < 2 ^ 32 → out.length ≤ 103 * ms.count 1 + 173 + (s.xmlns.getD []).length ∧
      55 * ms.count 1 + 98 + (s.xmlns.getD []).length ≤ out.length) := by
  unfold Svg.generate at h
  cases hw : u32 b (asU32 ms.length * s.xdim) with
  | err e => rw [hw] at h; cases h
  | panic p => rw [hw] at h; cases h
  | ok w =>
    rw [hw, Outcome.ok_bind] at h
    cases hm : mapO (Svg.barRect b s) ((enumerate ms).filter (fun p => p.2 == 1)) with
    | err e => rw [hm] at h; cases h
    | panic p => rw [hm] at h; cases h
    | ok rects =>
      rw [hm, Outcome.ok_bind] at h
      have hx : (match s.xmlns with
        | some x => "xmlns=\"".toList ++ x ++ "\" ".toList
        | none => []) = xmlnsText s.xmlns := by cases s.xmlns <;> rfl
      rw [Outcome.ok.injEq] at h
      have h := (congrArg (fun X => "<svg version=\"1.1\" ".toList ++ X ++ "viewBox=\"0 0 ".toList ++ showNat w ++ " ".toList ++
        showNat s.height ++ "\">".toList ++ Svg.rect s 0 0 w ++ rects.flatten ++ "</svg>".toList) hx).symm.trans h
      obtain ⟨hlen, hmem⟩ := mapO_inv _ _ _ hm
      rw [enumerate, enumFrom_count] at hlen
      have hrect : ∀ r ∈ rects, ∃ style off, off < 2 ^ 32 ∧ r = Svg.rect s style off s.xdim := by
        intro r hr
        obtain ⟨p, -, hp⟩ := hmem r hr
        unfold Svg.barRect at hp
        cases ho : u32 b (asU32 p.1 * s.xdim) with
        | err e => rw [ho] at hp; cases hp
        | panic p => rw [ho] at hp; cases hp
        | ok off =>
          rw [ho, Outcome.ok_bind, Outcome.ok.injEq] at hp
          exact ⟨_, off, u32_lt _ _ _ ho, hp.symm⟩
      subst h
      constructor
      · intro hxm
        have hxt : ∀ c ∈ xmlnsText s.xmlns, Printable c := by
          cases hs : s.xmlns with
          | none => exact fun c hc => by cases hc
          | some x => exact printable_append (printable_append (by decide) (hxm x (by rw [hs]; rfl))) (by decide)
        have hrs : ∀ c ∈ rects.flatten, Printable c := by
          intro c hc
          obtain ⟨r, hr, hc⟩ := List.mem_flatten.mp hc
          obtain ⟨style, off, -, rfl⟩ := hrect r hr
          exact rect_printable _ _ _ _ c hc
        exact printable_append (printable_append (printable_append (printable_append (printable_append (printable_append
          (printable_append (printable_append (printable_append (by decide) hxt) (by decide)) (showNat_printable _)) (by decide))
          (showNat_printable _)) (by decide)) (rect_printable _ _ _ _)) hrs) (by decide)
      · intro hh hxd
        have hwl := u32_lt _ _ _ hw
        have h1 := showNat_u32 _ hwl
        have h2 := showNat_u32 _ hh
        have h3 := rect_size s 0 0 w hh (by decide) hwl
        have h4 := flatten_size rects 55 103 (fun r hr => by
          obtain ⟨style, off, ho, rfl⟩ := hrect r hr
          exact rect_size s style off s.xdim hh ho hxd)
        rw [hlen] at h4
        have h5 : (xmlnsText s.xmlns).length ≤ (s.xmlns.getD []).length + 9 ∧ (s.xmlns.getD []).length ≤ (xmlnsText s.xmlns).length := by
          cases s.xmlns with
          | none => exact ⟨Nat.zero_le _, Nat.le_refl _⟩
          | some x =>
            have l1 : "xmlns=\"".toList.length = 7 := rfl
            have l2 : "\" ".toList.length = 2 := rfl
            have e : (xmlnsText (some x)).length = "xmlns=\"".toList.length + x.length + "\" ".toList.length := length_three _ _ _
            rw [e, l1, l2, Option.getD_some]
            omega
        have k1 : "<svg version=\"1.1\" ".toList.length = 19 := rfl
        have k2 : "viewBox=\"0 0 ".toList.length = 13 := rfl
        have k3 : " ".toList.length = 1 := rfl
        have k4 : "\">".toList.length = 2 := rfl
        have k5 : "</svg>".toList.length = 6 := rfl
        rw [List.length_append, length_nine, k1, k2, k3, k4, k5]
        omega

example : ∃ out, Svg.generate .debug (Svg.new 9) [1, 0, 1] = .ok out ∧ out.length = 208 ∧ 55 * 2 + 98 = 208 :=
  ⟨_, rfl, by decide +kernel, rfl⟩

end Barcoders
