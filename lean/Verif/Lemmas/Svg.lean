import Verif.Lemmas.Numbers
import Verif.Model.Svg
import Verif.Spec.Svg

set_option autoImplicit false

namespace Barcoders
open Spec

theorem xmlSteps_append (st : XState) (a b : List Char) :
    xmlSteps st (a ++ b) =
      (xmlSteps st a).bind (fun p => (xmlSteps p.1 b).map (fun q => (q.1, p.2 ++ q.2))) := by
  induction a generalizing st with
  | nil => simp [xmlSteps]
  | cons c a ih =>
    rw [List.cons_append, xmlSteps, xmlSteps]
    cases xmlStep st c with
    | none => rfl
    | some p =>
      simp only [Option.bind_some, ih]
      cases xmlSteps p.1 a with
      | none => rfl
      | some q =>
        simp only [Option.bind_some, Option.map_some]
        cases xmlSteps q.1 b <;> simp

/-- Continue reading after a part that has been read. -/
theorem xmlSteps_then {st st' : XState} {es : List XEvent} {a : List Char} (b : List Char)
    (h : xmlSteps st a = some (st', es)) :
    xmlSteps st (a ++ b) = (xmlSteps st' b).map (fun q => (q.1, es ++ q.2)) := by
  rw [xmlSteps_append, h]; rfl

theorem xmlSteps_seq {st st' st'' : XState} {es es' : List XEvent} {a b : List Char}
    (h : xmlSteps st a = some (st', es)) (h' : xmlSteps st' b = some (st'', es')) :
    xmlSteps st (a ++ b) = some (st'', es ++ es') := by
  rw [xmlSteps_then b h, h']; rfl

theorem xmlSteps_plain (n : List Char) (as : Attrs) (a v l : List Char) (h : ∀ c ∈ l, xmlPlain c = true) :
    xmlSteps (.attrVal n as a v) l = some (.attrVal n as a (v ++ l), []) := by
  induction l generalizing v with
  | nil => simp [xmlSteps]
  | cons c l ih =>
    have hc := h c (by simp)
    have hq : c ≠ '"' := by rintro rfl; revert hc; decide
    rw [xmlSteps, xmlStep, if_neg hq, if_pos hc]
    simp [ih _ (fun c hc => h c (by simp [hc]))]

theorem isDigit_cases (c : Char) (h : c.isDigit = true) : c ∈ "0123456789".toList := by
  unfold Char.isDigit at h
  simp only [ge_iff_le, Bool.and_eq_true, decide_eq_true_eq] at h
  have h1 : 48 ≤ c.toNat := h.1
  have h2 : c.toNat ≤ 57 := h.2
  have h3 : c = Char.ofNat c.toNat := by simp
  rw [h3]
  generalize c.toNat = n at h1 h2
  have : ∀ n < 58, 48 ≤ n → Char.ofNat n ∈ "0123456789".toList := by decide
  exact this n (by omega) h1

theorem showNat_plain (n : Nat) : ∀ c ∈ showNat n, xmlPlain c = true := by
  intro c hc
  have h : ∀ c ∈ "0123456789".toList, xmlPlain c = true := by decide
  exact h c (isDigit_cases c ((showNat_spec n).1 c hc))

theorem readNats_digits (l : List Char) (n : Nat) (rest : List Char) (h : ∀ c ∈ l, c.isDigit = true) :
    readNats (some n) (l ++ rest) = readNats (some (readDigits n l)) rest := by
  induction l generalizing n with
  | nil => rfl
  | cons c l ih =>
    rw [List.cons_append, readNats, if_pos (h c (by simp)), ih _ (fun c hc => h c (by simp [hc]))]
    rfl

theorem readNats_showNat (n : Nat) (rest : List Char) : readNats none (showNat n ++ rest) = readNats (some n) rest := by
  obtain ⟨h1, h2, h3, _, _⟩ := showNat_spec n
  cases hs : showNat n with
  | nil => exact absurd hs h3
  | cons c l =>
    rw [hs] at h1 h2
    rw [List.cons_append, readNats, if_pos (h1 c (by simp)), readNats_digits l _ rest (fun c hc => h1 c (by simp [hc]))]
    have : readDigits (10 * Option.getD none 0 + (c.toNat - 48)) l = n := by rw [← h2]; rfl
    rw [this]

theorem readNat1_showNat (n : Nat) : readNat1 (showNat n) = some n := by
  have := readNats_showNat n []
  rw [List.append_nil] at this
  rw [readNat1, this]
  rfl

theorem readNats_box (w h : Nat) :
    readNats none ("0 0 ".toList ++ showNat w ++ " ".toList ++ showNat h) = some [0, 0, w, h] := by
  have h0 : ∀ X, readNats none ("0 0 ".toList ++ X) = ((readNats none X).map ([0] ++ ·)).map ([0] ++ ·) := fun _ => rfl
  have h1 : ∀ X, readNats (some w) (" ".toList ++ X) = (readNats none X).map ([w] ++ ·) := fun _ => rfl
  have h2 := readNats_showNat h []
  rw [List.append_nil] at h2
  rw [List.append_assoc, List.append_assoc, h0, readNats_showNat, h1, h2]
  rfl

/-! Colours -/

theorem hexByte_formatHex : ∀ n < 256, ∃ a b, Svg.formatHex n = [a, b] ∧ hexByte a b = some n ∧
    (a.isDigit ∨ a ∈ "abcdef".toList) ∧ (b.isDigit ∨ b ∈ "abcdef".toList) ∧ xmlPlain a ∧ xmlPlain b := by
  have : ∀ n < 256, hexByte (Svg.toHexDigit (n / 16)) (Svg.toHexDigit (n % 16)) = some n ∧
    ((Svg.toHexDigit (n / 16)).isDigit ∨ Svg.toHexDigit (n / 16) ∈ "abcdef".toList) ∧
    ((Svg.toHexDigit (n % 16)).isDigit ∨ Svg.toHexDigit (n % 16) ∈ "abcdef".toList) ∧
    xmlPlain (Svg.toHexDigit (n / 16)) ∧ xmlPlain (Svg.toHexDigit (n % 16)) := by decide +kernel
  intro n hn
  exact ⟨_, _, rfl, this n hn⟩

theorem toHex_spec (c : Svg.Color) :
    readColour ('#' :: c.toHex) = some (c.r.val, c.g.val, c.b.val) ∧ c.toHex.length = 6 ∧
    (∀ d ∈ c.toHex, (d.isDigit ∨ d ∈ "abcdef".toList) ∧ xmlPlain d) := by
  obtain ⟨a1, b1, h1, r1, x1, y1, p1, q1⟩ := hexByte_formatHex c.r.val c.r.isLt
  obtain ⟨a2, b2, h2, r2, x2, y2, p2, q2⟩ := hexByte_formatHex c.g.val c.g.isLt
  obtain ⟨a3, b3, h3, r3, x3, y3, p3, q3⟩ := hexByte_formatHex c.b.val c.b.isLt
  have : c.toHex = [a1, b1, a2, b2, a3, b3] := by
    unfold Svg.Color.toHex
    simp [h1, h2, h3]
  rw [this]
  refine ⟨?_, rfl, ?_⟩
  · rw [readColour, r1, r2, r3]; rfl
  · intro d hd
    simp only [List.mem_cons, List.not_mem_nil, or_false] at hd
    rcases hd with rfl | rfl | rfl | rfl | rfl | rfl <;> exact ⟨by assumption, by assumption⟩

theorem toOpacity_table : ∀ a < 256, readOpacity (Svg.fixed2 (Svg.hundredths a)) = some (Svg.hundredths a) ∧
    (∀ c ∈ Svg.fixed2 (Svg.hundredths a), xmlPlain c) ∧
    ((Svg.fixed2 (Svg.hundredths a) = "1.00".toList ∨ Svg.fixed2 (Svg.hundredths a) = "1".toList) ↔ 254 ≤ a) := by
  decide +kernel

/-- Neither the division nor the printing of the double ever changes the nearest number of hundredths. -/
theorem hundredths_eq : ∀ a < 256, Svg.hundredths a = (200 * a + 255) / 510 := by decide +kernel

theorem hundredths_near (a : Nat) (h : a < 256) :
    2 * (255 * Svg.hundredths a) ≤ 2 * (100 * a) + 255 ∧ 2 * (100 * a) ≤ 2 * (255 * Svg.hundredths a) + 255 := by
  rw [hundredths_eq a h]; omega

theorem hundredths_full (a : Nat) (h : a < 256) : 254 ≤ a ↔ Svg.hundredths a = 100 := by
  rw [hundredths_eq a h]; omega

/-- The mantissa and denominator of the quotient are those of a double, nearest to the quotient. -/
theorem f64Div_nearest : ∀ a < 256, 0 < a → 2 ^ 52 ≤ (Svg.f64Div a 255).1 ∧ (Svg.f64Div a 255).1 ≤ 2 ^ 53 ∧
    2 * (255 * (Svg.f64Div a 255).1) ≤ 2 * (a * (Svg.f64Div a 255).2) + 255 ∧
    2 * (a * (Svg.f64Div a 255).2) ≤ 2 * (255 * (Svg.f64Div a 255).1) + 255 := by decide +kernel

/-- What a colour is read as. -/
def paintOf (c : Svg.Color) : Paint := ⟨(c.r.val, c.g.val, c.b.val), Svg.hundredths c.a.val⟩

theorem paintOf_shows (c : Svg.Color) : (paintOf c).Shows c.r.val c.g.val c.b.val c.a.val :=
  ⟨rfl, hundredths_near _ c.a.isLt⟩

/-! Rectangles -/

/-- The colour of a rectangle. -/
def styleColor (s : Svg.SVG) (style : Nat) : Svg.Color := if style = 1 then s.foreground else s.background

theorem rect_eq (s : Svg.SVG) (style off w : Nat) :
    Svg.rect s style off w = "<rect x=\"".toList ++ showNat off ++ "\" y=\"0\" width=\"".toList ++ showNat w ++
      "\" height=\"".toList ++ showNat s.height ++ "\" fill=\"#".toList ++ (styleColor s style).toHex ++ "\"".toList ++
      (if 254 ≤ (styleColor s style).a.val then []
        else " fill-opacity=\"".toList ++ (styleColor s style).toOpacity ++ "\" ".toList) ++ "/>".toList := by
  have hs : Svg.rect s style off w = "<rect x=\"".toList ++ showNat off ++ "\" y=\"0\" width=\"".toList ++ showNat w ++
      "\" height=\"".toList ++ showNat s.height ++ "\" fill=\"#".toList ++ (styleColor s style).toHex ++ "\"".toList ++
      (if (styleColor s style).toOpacity = "1.00".toList ∨ (styleColor s style).toOpacity = "1".toList then []
        else " fill-opacity=\"".toList ++ (styleColor s style).toOpacity ++ "\" ".toList) ++ "/>".toList := by
    match style with
    | 0 => rfl
    | 1 => rfl
    | n + 2 => rfl
  rw [hs]
  have ht : ((styleColor s style).toOpacity = "1.00".toList ∨ (styleColor s style).toOpacity = "1".toList) ↔
    254 ≤ (styleColor s style).a.val := (toOpacity_table _ (styleColor s style).a.isLt).2.2
  by_cases ha : 254 ≤ (styleColor s style).a.val
  · rw [if_pos ha, if_pos (ht.mpr ha)]
  · rw [if_neg ha, if_neg (fun h => ha (ht.mp h))]

/-- The attributes of a rectangle. -/
def rectAttrs (s : Svg.SVG) (style off w : Nat) : Attrs :=
  [("x".toList, showNat off), ("y".toList, "0".toList), ("width".toList, showNat w), ("height".toList, showNat s.height),
    ("fill".toList, '#' :: (styleColor s style).toHex)] ++
  (if 254 ≤ (styleColor s style).a.val then [] else [("fill-opacity".toList, (styleColor s style).toOpacity)])

theorem rect_xml (s : Svg.SVG) (style off w : Nat) :
    xmlSteps .text (Svg.rect s style off w) = some (.text, [.empty "rect".toList (rectAttrs s style off w)]) := by
  have hhex := (toHex_spec (styleColor s style)).2.2
  have hop := (toOpacity_table _ (styleColor s style).a.isLt).2.1
  rw [rect_eq]
  unfold rectAttrs
  generalize (styleColor s style).toHex = hex at hhex
  have k1 : xmlSteps .text "<rect x=\"".toList = some (.attrVal "rect".toList [] "x".toList [], []) := rfl
  have k2 := xmlSteps_plain "rect".toList [] "x".toList [] _ (showNat_plain off)
  have k3 : ∀ v, xmlSteps (.attrVal "rect".toList [] "x".toList v) "\" y=\"0\" width=\"".toList =
    some (.attrVal "rect".toList [("x".toList, v), ("y".toList, "0".toList)] "width".toList [], []) := fun _ => rfl
  have k4 := fun as => xmlSteps_plain "rect".toList as "width".toList [] _ (showNat_plain w)
  have k5 : ∀ as v, xmlSteps (.attrVal "rect".toList as "width".toList v) "\" height=\"".toList =
    some (.attrVal "rect".toList (as ++ [("width".toList, v)]) "height".toList [], []) := fun _ _ => rfl
  have k6 := fun as => xmlSteps_plain "rect".toList as "height".toList [] _ (showNat_plain s.height)
  have k7 : ∀ as v, xmlSteps (.attrVal "rect".toList as "height".toList v) "\" fill=\"#".toList =
    some (.attrVal "rect".toList (as ++ [("height".toList, v)]) "fill".toList ['#'], []) := fun _ _ => rfl
  have k8 := fun as => xmlSteps_plain "rect".toList as "fill".toList ['#'] hex (fun c hc => (hhex c hc).2)
  have k9 : ∀ as v, xmlSteps (.attrVal "rect".toList as "fill".toList v) "\"".toList =
    some (.attrs false "rect".toList (as ++ [("fill".toList, v)]), []) := fun _ _ => rfl
  have k := xmlSteps_seq (xmlSteps_seq (xmlSteps_seq (xmlSteps_seq (xmlSteps_seq (xmlSteps_seq (xmlSteps_seq
    (xmlSteps_seq k1 k2) (k3 _)) (k4 _)) (k5 _ _)) (k6 _)) (k7 _ _)) (k8 _)) (k9 _ _)
  by_cases ha : 254 ≤ (styleColor s style).a.val
  · rw [if_pos ha, if_pos ha, List.append_nil, xmlSteps_then _ k]
    rfl
  · rw [if_neg ha, if_neg ha]
    have l1 : ∀ as, xmlSteps (.attrs false "rect".toList as) " fill-opacity=\"".toList =
      some (.attrVal "rect".toList as "fill-opacity".toList [], []) := fun _ => rfl
    have l2 := fun as => xmlSteps_plain "rect".toList as "fill-opacity".toList [] _ hop
    have l3 : ∀ as v, xmlSteps (.attrVal "rect".toList as "fill-opacity".toList v) "\" ".toList =
      some (.attrs true "rect".toList (as ++ [("fill-opacity".toList, v)]), []) := fun _ _ => rfl
    have l := xmlSteps_seq k (xmlSteps_seq (xmlSteps_seq (l1 _) (l2 _)) (l3 _ _))
    unfold Svg.Color.toOpacity
    rw [xmlSteps_then _ l]
    rfl

/-- The rectangle read. -/
theorem rect_read (s : Svg.SVG) (style off w : Nat) :
    readRect (rectAttrs s style off w) = some ⟨off, 0, w, s.height, paintOf (styleColor s style)⟩ := by
  have hhex := (toHex_spec (styleColor s style)).1
  have hop := (toOpacity_table _ (styleColor s style).a.isLt).1
  have hfull := hundredths_full _ (styleColor s style).a.isLt
  unfold rectAttrs
  by_cases ha : 254 ≤ (styleColor s style).a.val
  · rw [if_pos ha]
    have : readRect (([("x".toList, showNat off), ("y".toList, "0".toList), ("width".toList, showNat w),
        ("height".toList, showNat s.height), ("fill".toList, '#' :: (styleColor s style).toHex)] : Attrs) ++ []) = (do
        let x ← readNat1 (showNat off)
        let y ← readNat1 "0".toList
        let w ← readNat1 (showNat w)
        let h ← readNat1 (showNat s.height)
        let c ← readColour ('#' :: (styleColor s style).toHex)
        some ⟨x, y, w, h, ⟨c, 100⟩⟩) := rfl
    rw [this, readNat1_showNat, readNat1_showNat, readNat1_showNat, hhex]
    simp only [paintOf, hfull.mp ha]
    rfl
  · rw [if_neg ha]
    have : readRect (([("x".toList, showNat off), ("y".toList, "0".toList), ("width".toList, showNat w),
        ("height".toList, showNat s.height), ("fill".toList, '#' :: (styleColor s style).toHex)] : Attrs) ++
          [("fill-opacity".toList, (styleColor s style).toOpacity)]) = (do
        let x ← readNat1 (showNat off)
        let y ← readNat1 "0".toList
        let w ← readNat1 (showNat w)
        let h ← readNat1 (showNat s.height)
        let c ← readColour ('#' :: (styleColor s style).toHex)
        let o ← readOpacity (styleColor s style).toOpacity
        some ⟨x, y, w, h, ⟨c, o⟩⟩) := rfl
    rw [this, readNat1_showNat, readNat1_showNat, readNat1_showNat, hhex, Svg.Color.toOpacity, hop]
    rfl

theorem rects_xml (s : Svg.SVG) (l : List (Nat × Nat × Nat)) :
    xmlSteps .text (l.map (fun p => Svg.rect s p.1 p.2.1 p.2.2)).flatten =
      some (.text, l.map (fun p => .empty "rect".toList (rectAttrs s p.1 p.2.1 p.2.2))) := by
  induction l with
  | nil => rfl
  | cons p l ih =>
    rw [List.map_cons, List.flatten_cons, xmlSteps_then _ (rect_xml s p.1 p.2.1 p.2.2), ih]
    rfl

theorem rects_read (s : Svg.SVG) (l : List (Nat × Nat × Nat)) :
    readRects (l.map (fun p => .empty "rect".toList (rectAttrs s p.1 p.2.1 p.2.2)) ++ [.stop "svg".toList]) =
      some (l.map (fun p => ⟨p.2.1, 0, p.2.2, s.height, paintOf (styleColor s p.1)⟩)) := by
  induction l with
  | nil => rfl
  | cons p l ih =>
    rw [List.map_cons, List.cons_append, readRects, if_pos rfl, rect_read, ih]
    rfl

/-- The name space attribute. -/
def xmlnsText : Option (List Char) → List Char
  | some x => "xmlns=\"".toList ++ x ++ "\" ".toList
  | none => []

/-- The text around the rectangles. -/
theorem svg_xml (s : Svg.SVG) (w : Nat) (body : List Char) (es : List XEvent)
    (hx : ∀ x ∈ s.xmlns, ∀ c ∈ x, xmlPlain c = true) (hb : xmlSteps .text body = some (.text, es)) :
    ∃ as, readXml ("<svg version=\"1.1\" ".toList ++
        xmlnsText s.xmlns ++
        "viewBox=\"0 0 ".toList ++ showNat w ++ " ".toList ++ showNat s.height ++ "\">".toList ++ body ++
        "</svg>".toList) = some (.start "svg".toList as :: (es ++ [.stop "svg".toList])) ∧
      as.lookup "viewBox".toList = some ("0 0 ".toList ++ showNat w ++ " ".toList ++ showNat s.height) ∧
      as.lookup "version".toList = some "1.1".toList ∧ as.lookup "xmlns".toList = s.xmlns := by
  have k1 : xmlSteps .text "<svg version=\"1.1\" ".toList =
      some (.attrs true "svg".toList [("version".toList, "1.1".toList)], []) := rfl
  have m1 : ∀ as, xmlSteps (.attrs true "svg".toList as) "viewBox=\"0 0 ".toList =
      some (.attrVal "svg".toList as "viewBox".toList "0 0 ".toList, []) := fun _ => rfl
  have m2 := fun as v => xmlSteps_plain "svg".toList as "viewBox".toList v _ (showNat_plain w)
  have m3 : ∀ as v, xmlSteps (.attrVal "svg".toList as "viewBox".toList v) " ".toList =
      some (.attrVal "svg".toList as "viewBox".toList (v ++ " ".toList), []) := fun _ _ => rfl
  have m4 := fun as v => xmlSteps_plain "svg".toList as "viewBox".toList v _ (showNat_plain s.height)
  have hc : xmlSteps .text "</svg>".toList = some (.text, [.stop "svg".toList]) := rfl
  cases hxm : s.xmlns with
  | none =>
    have k5 : ∀ v, xmlSteps (.attrVal "svg".toList [("version".toList, "1.1".toList)] "viewBox".toList v) "\">".toList =
      some (.text, [.start "svg".toList [("version".toList, "1.1".toList), ("viewBox".toList, v)]]) := fun _ => rfl
    have k := xmlSteps_seq (xmlSteps_seq (xmlSteps_seq (xmlSteps_seq (xmlSteps_seq (xmlSteps_seq (xmlSteps_seq
      k1 (m1 _)) (m2 _ _)) (m3 _ _)) (m4 _ _)) (k5 _)) hb) hc
    refine ⟨[("version".toList, "1.1".toList),
      ("viewBox".toList, "0 0 ".toList ++ showNat w ++ " ".toList ++ showNat s.height)], ?_, rfl, rfl, rfl⟩
    rw [show xmlnsText none = [] from rfl, List.append_nil, readXml, k]
    rfl
  | some x =>
    have hx' := hx x (by rw [hxm]; rfl)
    have n1 : ∀ as, xmlSteps (.attrs true "svg".toList as) "xmlns=\"".toList =
      some (.attrVal "svg".toList as "xmlns".toList [], []) := fun _ => rfl
    have n2 := fun as => xmlSteps_plain "svg".toList as "xmlns".toList [] x hx'
    have n3 : ∀ as v, xmlSteps (.attrVal "svg".toList as "xmlns".toList v) "\" ".toList =
      some (.attrs true "svg".toList (as ++ [("xmlns".toList, v)]), []) := fun _ _ => rfl
    have k5 : ∀ x v, xmlSteps (.attrVal "svg".toList ([("version".toList, "1.1".toList)] ++ [("xmlns".toList, x)])
      "viewBox".toList v) "\">".toList = some (.text, [.start "svg".toList
        [("version".toList, "1.1".toList), ("xmlns".toList, x), ("viewBox".toList, v)]]) := fun _ _ => rfl
    have k := xmlSteps_seq (xmlSteps_seq (xmlSteps_seq (xmlSteps_seq (xmlSteps_seq (xmlSteps_seq (xmlSteps_seq
      (xmlSteps_seq k1 (xmlSteps_seq (xmlSteps_seq (n1 _) (n2 _)) (n3 _ _))) (m1 _)) (m2 _ _)) (m3 _ _)) (m4 _ _))
      (k5 _ _)) hb) hc
    refine ⟨[("version".toList, "1.1".toList), ("xmlns".toList, x),
      ("viewBox".toList, "0 0 ".toList ++ showNat w ++ " ".toList ++ showNat s.height)], ?_, rfl, rfl, rfl⟩
    rw [show xmlnsText (some x) = "xmlns=\"".toList ++ x ++ "\" ".toList from rfl, readXml, k]
    rfl

end Barcoders
