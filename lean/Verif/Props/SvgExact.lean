import Verif.Props.Svg

/-!
# C60, C61: what SVG generation does with oversized pictures and with arbitrary name spaces
-/

set_option autoImplicit false

namespace Barcoders
open Spec

theorem u32_release (n : Nat) : u32 .release n = .ok (n % 2 ^ 32) := by
  unfold u32
  split
  · rename_i h
    rw [Nat.mod_eq_of_lt h]
  · rfl

theorem asU32_mul_mod (i x : Nat) : asU32 i * x % 2 ^ 32 = i * x % 2 ^ 32 := by
  rw [asU32, Nat.mod_mul_mod]

/-- The output of a release build, whatever the size. -/
theorem svg_generate_release (s : Svg.SVG) (bits : List Nat) :
    Svg.generate .release s bits = .ok ("<svg version=\"1.1\" ".toList ++
        xmlnsText s.xmlns ++
        "viewBox=\"0 0 ".toList ++ showNat (bits.length * s.xdim % 2 ^ 32) ++ " ".toList ++ showNat s.height ++ "\">".toList ++
        (((0, 0, bits.length * s.xdim % 2 ^ 32) :: (barPlaces bits).map (fun i => (1, i * s.xdim % 2 ^ 32, s.xdim))).map
          (fun p => Svg.rect s p.1 p.2.1 p.2.2)).flatten ++ "</svg>".toList) := by
  have h2 : mapO (Svg.barRect .release s) ((enumerate bits).filter (fun p => p.2 == 1)) =
      .ok ((barPlaces bits).map (fun i => Svg.rect s 1 (i * s.xdim % 2 ^ 32) s.xdim)) := by
    rw [enumerate, enumFrom_filter, mapO_ok _ (fun p => Svg.rect s p.2 (p.1 * s.xdim % 2 ^ 32) s.xdim)]
    · simp [barPlaces, Function.comp_def]
    · intro p hp
      rw [Svg.barRect, u32_release, asU32_mul_mod]
      rfl
  unfold Svg.generate
  rw [u32_release, asU32_mul_mod, h2]
  rw [Outcome.ok_bind, Outcome.ok_bind, List.map_cons, List.flatten_cons, List.map_map,
    ← List.append_assoc _ (Svg.rect s 0 0 _) _]
  cases s.xmlns <;> rfl

/-- C60. Release builds never panic; all horizontal positions and the width are taken modulo `2^32`. -/
theorem C60_svg_release (s : Svg.SVG) (bits : List Nat) (hx : ∀ x ∈ s.xmlns, ∀ c ∈ x, xmlPlain c = true) :
    ∃ out fg bg, Svg.generate .release s bits = .ok out ∧
      Paint.Shows fg s.foreground.r s.foreground.g s.foreground.b s.foreground.a ∧
      Paint.Shows bg s.background.r s.background.g s.background.b s.background.a ∧
      readSvg out = some {
        version := some "1.1".toList
        xmlns := s.xmlns
        viewBox := [0, 0, bits.length * s.xdim % 2 ^ 32, s.height]
        rects := ⟨0, 0, bits.length * s.xdim % 2 ^ 32, s.height, bg⟩ ::
          ((List.range bits.length).filter (fun i => bits[i]? = some 1)).map
            (fun i => ⟨i * s.xdim % 2 ^ 32, 0, s.xdim, s.height, fg⟩) } := by
  refine ⟨_, paintOf s.foreground, paintOf s.background, svg_generate_release s bits, paintOf_shows _, paintOf_shows _, ?_⟩
  obtain ⟨as, h1, h2, h3, h4⟩ := svg_xml s (bits.length * s.xdim % 2 ^ 32) _ _ hx
    (rects_xml s ((0, 0, bits.length * s.xdim % 2 ^ 32) :: (barPlaces bits).map (fun i => (1, i * s.xdim % 2 ^ 32, s.xdim))))
  rw [readSvg, h1]
  simp only [Option.bind_eq_bind, Option.bind_some, if_true]
  rw [h2, h3, h4, rects_read]
  simp only [Option.bind_some, readNats_box, List.map_cons, List.map_map, Function.comp_def]
  rfl

example : ∃ out doc, Svg.generate .release { Svg.new 1 with xdim := 2 ^ 31 } [1, 0, 1] = .ok out ∧ readSvg out = some doc ∧
    doc.viewBox = [0, 0, 2 ^ 31, 1] ∧ doc.rects.length = 3 := by
  exact ⟨_, ⟨some "1.1".toList, none, [0, 0, 2 ^ 31, 1], [⟨0, 0, 2 ^ 31, 1, ⟨(255, 255, 255), 100⟩⟩,
    ⟨0, 0, 2 ^ 31, 1, ⟨(0, 0, 0), 100⟩⟩, ⟨0, 0, 2 ^ 31, 1, ⟨(0, 0, 0), 100⟩⟩]⟩, rfl, by decide +kernel⟩

/-- C60. Debug builds panic exactly when the width does not fit in 32 bits. -/
theorem C60_svg_debug (s : Svg.SVG) (bits : List Nat) (hl : bits.length < 2 ^ 32) :
    (Svg.generate .debug s bits).isPanic = true ↔ 2 ^ 32 ≤ bits.length * s.xdim := by
  by_cases hw : bits.length * s.xdim < 2 ^ 32
  · rw [svg_generate .debug s bits hw]
    simp only [Outcome.isPanic, Bool.false_eq_true, false_iff]
    omega
  · rw [C37_svg_debug_overflow s bits hl (by omega)]
    exact ⟨fun _ => by omega, fun _ => rfl⟩

example : (Svg.generate .debug { Svg.new 1 with xdim := 2 ^ 31 } [1, 0]).isPanic = true ∧
    (Svg.generate .debug { Svg.new 1 with xdim := 2 ^ 31 } [1]).isPanic = false := by decide +kernel

/-- C60. A slice of `2^32` modules or more is cut silently, in debug builds too: the width of the picture is wrong. -/
theorem C60_svg_huge (h : Nat) :
    ∃ out doc, Svg.generate .debug (Svg.new h) (List.replicate (2 ^ 32 + 7) 0) = .ok out ∧ readSvg out = some doc ∧
      doc.viewBox = [0, 0, 7, h] := by
  have hf : (enumerate (List.replicate (2 ^ 32 + 7) 0)).filter (fun p => p.2 == 1) = [] := by
    rw [enumerate, enumFrom_filter]
    generalize 2 ^ 32 + 7 = n
    simp only [List.map_eq_nil_iff, List.filter_eq_nil_iff, List.mem_range, decide_eq_true_eq]
    intro i _ hi
    rw [List.getElem?_replicate] at hi
    split at hi <;> cases hi
  have hg : Svg.generate .debug (Svg.new h) (List.replicate (2 ^ 32 + 7) 0) =
      .ok ("<svg version=\"1.1\" ".toList ++ xmlnsText (Svg.new h).xmlns ++
        "viewBox=\"0 0 ".toList ++ showNat 7 ++ " ".toList ++ showNat h ++ "\">".toList ++
        ([(0, 0, 7)].map (fun p : Nat × Nat × Nat => Svg.rect (Svg.new h) p.1 p.2.1 p.2.2)).flatten ++ "</svg>".toList) := by
    have hu : u32 .debug (asU32 (2 ^ 32 + 7) * (Svg.new h).xdim) = .ok 7 := by
      rw [show asU32 (2 ^ 32 + 7) = 7 by decide]
      exact u32_ok .debug (7 * 1) (by decide)
    unfold Svg.generate
    rw [hf, List.length_replicate, hu]
    simp only [Outcome.ok_bind, mapO, List.flatten_nil, List.append_nil, List.map_cons, List.map_nil, List.flatten_cons]
    rfl
  obtain ⟨as, h1, h2, h3, h4⟩ := svg_xml (Svg.new h) 7 _ _ (by simp [Svg.new]) (rects_xml (Svg.new h) [(0, 0, 7)])
  refine ⟨_, ⟨some "1.1".toList, none, [0, 0, 7, h], [⟨0, 0, 7, h, paintOf (styleColor (Svg.new h) 0)⟩]⟩, hg, ?_, rfl⟩
  rw [readSvg, show showNat h = showNat (Svg.new h).height from rfl, h1]
  simp only [Option.bind_eq_bind, Option.bind_some, if_true]
  rw [h2, h3, h4, rects_read]
  simp only [Option.bind_some, readNats_box, List.map_cons]
  rfl

/-! ## Name spaces -/

/-- Inside a tag whose attributes begin with `A`. -/
def InTag (A : Attrs) : XState → Prop
  | .attrs _ _ as => A <+: as
  | .attrName _ as _ => A <+: as
  | .attrEq _ as _ => A <+: as
  | .attrVal _ as _ _ => A <+: as
  | .slash _ as => A <+: as
  | _ => False

/-- The tag ends with its attributes beginning with `A`. -/
def TagEvent (A : Attrs) : XEvent → Prop
  | .start _ as => A <+: as
  | .empty _ as => A <+: as
  | .stop _ => False

theorem inTag_step (A : Attrs) (st st' : XState) (c : Char) (es : List XEvent) (h : InTag A st)
    (hs : xmlStep st c = some (st', es)) : (es = [] ∧ InTag A st') ∨ ∃ e, es = [e] ∧ TagEvent A e := by
  cases st with
  | text => cases h
  | lt => cases h
  | name => cases h
  | close => cases h
  | attrs sp n as =>
    simp only [xmlStep] at hs
    split at hs
    · cases hs; exact Or.inl ⟨rfl, h⟩
    · split at hs
      · cases hs; exact Or.inl ⟨rfl, h⟩
      · split at hs
        · split at hs
          · cases hs; exact Or.inr ⟨_, rfl, h⟩
          · cases hs
        · split at hs
          · cases hs; exact Or.inl ⟨rfl, h⟩
          · cases hs
  | attrName n as a =>
    simp only [xmlStep] at hs
    split at hs
    · cases hs; exact Or.inl ⟨rfl, h⟩
    · split at hs
      · cases hs; exact Or.inl ⟨rfl, h⟩
      · cases hs
  | attrEq n as a =>
    simp only [xmlStep] at hs
    split at hs
    · cases hs; exact Or.inl ⟨rfl, h⟩
    · cases hs
  | attrVal n as a v =>
    simp only [xmlStep] at hs
    split at hs
    · cases hs
      exact Or.inl ⟨rfl, List.IsPrefix.trans (show A <+: as from h) (List.prefix_append _ _)⟩
    · split at hs
      · cases hs; exact Or.inl ⟨rfl, h⟩
      · cases hs
  | slash n as =>
    simp only [xmlStep] at hs
    split at hs
    · split at hs
      · cases hs; exact Or.inr ⟨_, rfl, h⟩
      · cases hs
    · cases hs

theorem inTag_steps (A : Attrs) (l : List Char) (st st' : XState) (es : List XEvent) (h : InTag A st)
    (hs : xmlSteps st l = some (st', es)) : (es = [] ∧ InTag A st') ∨ ∃ e es', es = e :: es' ∧ TagEvent A e := by
  induction l generalizing st es with
  | nil =>
    cases hs
    exact Or.inl ⟨rfl, h⟩
  | cons c l ih =>
    rw [xmlSteps, Option.bind_eq_some_iff] at hs
    obtain ⟨⟨s1, e1⟩, h1, h2⟩ := hs
    rw [Option.map_eq_some_iff] at h2
    obtain ⟨⟨s2, e2⟩, h2, h3⟩ := h2
    cases h3
    rcases inTag_step A st s1 c e1 h h1 with ⟨rfl, h4⟩ | ⟨e, rfl, h4⟩
    · exact ih s1 e2 h4 h2
    · exact Or.inr ⟨e, e2, rfl, h4⟩

theorem lookup_prefix {α β : Type} [BEq α] (k : α) (v : β) (A B : List (α × β)) (h : A <+: B) (hl : A.lookup k = some v) :
    B.lookup k = some v := by
  obtain ⟨C, rfl⟩ := h
  induction A with
  | nil => cases hl
  | cons p A ih =>
    obtain ⟨a, w⟩ := p
    rw [List.cons_append, List.lookup_cons]
    rw [List.lookup_cons] at hl
    split
    · rename_i hk; simpa [hk] using hl
    · rename_i hk
      simp [hk] at hl
      exact ih hl

/-- Split a text at its first character that is not plain. -/
theorem first_not_plain (x : List Char) (h : ¬ ∀ c ∈ x, xmlPlain c = true) :
    ∃ p c q, x = p ++ c :: q ∧ (∀ d ∈ p, xmlPlain d = true) ∧ xmlPlain c = false := by
  induction x with
  | nil => simp at h
  | cons d x ih =>
    by_cases hd : xmlPlain d = true
    · obtain ⟨p, c, q, rfl, h1, h2⟩ := ih (fun h' => h (by
        intro c hc
        rcases List.mem_cons.mp hc with rfl | hc
        · exact hd
        · exact h' c hc))
      refine ⟨d :: p, c, q, rfl, ?_, h2⟩
      intro e he
      rcases List.mem_cons.mp he with rfl | he
      · exact hd
      · exact h1 e he
    · exact ⟨[], d, x, rfl, by simp, by simpa using hd⟩

theorem split_text (A B p q : List Char) (c : Char) (C T1 T2 T3 T4 T5 T6 T7 : List Char) :
    A ++ (B ++ (p ++ c :: q) ++ C) ++ T1 ++ T2 ++ T3 ++ T4 ++ T5 ++ T6 ++ T7 =
      A ++ B ++ p ++ c :: (q ++ C ++ T1 ++ T2 ++ T3 ++ T4 ++ T5 ++ T6 ++ T7) := by
  simp only [List.append_assoc, List.cons_append]

/-- C61. Nothing in the name space is escaped: the picture has the given name space exactly when all its characters stand for
themselves between quotes. -/
theorem C61_svg_xmlns_iff (b : Build) (s : Svg.SVG) (bits : List Nat) (x : List Char) (out : List Char)
    (hs : s.xmlns = some x) (hw : bits.length * s.xdim < 2 ^ 32) (ho : Svg.generate b s bits = .ok out) :
    (∃ doc, readSvg out = some doc ∧ doc.xmlns = some x) ↔ ∀ c ∈ x, xmlPlain c = true := by
  constructor
  · rintro ⟨doc, hd, hx⟩
    refine Decidable.byContradiction fun hn => ?_
    obtain ⟨p, c, q, rfl, hp, hc⟩ := first_not_plain x hn
    rw [svg_generate b s bits hw, Outcome.ok.injEq, hs] at ho
    have k1 : xmlSteps .text ("<svg version=\"1.1\" ".toList ++ "xmlns=\"".toList) =
      some (.attrVal "svg".toList [("version".toList, "1.1".toList)] "xmlns".toList [], []) := rfl
    have k2 := xmlSteps_seq k1 (xmlSteps_plain "svg".toList [("version".toList, "1.1".toList)] "xmlns".toList [] p hp)
    obtain ⟨rest, hrest⟩ : ∃ rest, out = "<svg version=\"1.1\" ".toList ++ "xmlns=\"".toList ++ p ++ c :: rest := by
      exact ⟨_, ho.symm.trans (split_text _ _ p q c _ _ _ _ _ _ _ _)⟩
    rw [hrest] at hd
    unfold readSvg at hd
    rw [Option.bind_eq_bind, Option.bind_eq_some_iff] at hd
    obtain ⟨es, h1, h2⟩ := hd
    unfold readXml at h1
    rw [xmlSteps_then _ k2] at h1
    simp only [List.nil_append, xmlSteps, xmlStep, hc] at h1
    by_cases hq : c = '"'
    · subst hq
      simp only [if_true, Option.bind_some, List.nil_append] at h1
      generalize hr : xmlSteps (.attrs false "svg".toList ([("version".toList, "1.1".toList)] ++ [("xmlns".toList, p)])) rest = r at h1
      match r, h1 with
      | some (.text, es'), h1 =>
        simp only [Option.map_some, Option.some.injEq] at h1
        subst h1
        rcases inTag_steps [("version".toList, "1.1".toList), ("xmlns".toList, p)] rest (.attrs false _ _) _ _ (List.prefix_refl _) hr with
          ⟨-, h3⟩ | ⟨e, es'', rfl, h3⟩
        · cases h3
        · cases e with
          | empty => cases h2
          | stop => cases h2
          | start n as =>
            simp only at h2
            have hlk := lookup_prefix "xmlns".toList p _ as h3 rfl
            split at h2
            · simp only [Option.bind_eq_bind, Option.bind_eq_some_iff] at h2
              obtain ⟨box, -, rs, -, h2⟩ := h2
              rw [Option.some.injEq] at h2
              rw [← h2] at hx
              simp only [hlk, Option.some.injEq] at hx
              have := congrArg List.length hx
              simp at this
            · cases h2
    · simp [hq] at h1
  · intro h
    obtain ⟨out', fg, bg, h1, -, -, h2⟩ := C37_svg_parses b s bits hw (by rw [hs]; intro y hy; cases hy; exact h)
    rw [ho] at h1
    cases h1
    exact ⟨_, h2, hs⟩

-- A quote in the name space can add attributes to the document.
example : ∃ out, Svg.generate .debug { Svg.new 8 with xmlns := some "u\" id=\"x".toList } [1] = .ok out ∧
    (readSvg out).bind SvgDoc.xmlns = some "u".toList := ⟨_, rfl, by decide +kernel⟩

end Barcoders
