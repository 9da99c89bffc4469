import Verif.Props.Pictures

/-!
# C111: slices with other values than 0 and 1

The generators take any slice of bytes. What they do with a byte that is neither 0 nor 1 differs: the text generator panics, the
SVG generator leaves a space, the others draw a bar.
-/

set_option autoImplicit false

namespace Barcoders
open Spec

/-- Everything but 0 counts as a bar. -/
def barUnlessZero (ms : List Nat) : List Nat := ms.map (fun m => if m = 0 then 0 else 1)

/-- Only 1 counts as a bar. -/
def barIfOne (ms : List Nat) : List Nat := ms.map (fun m => if m = 1 then 1 else 0)

theorem enumerate_map {α β : Type} (f : α → β) (l : List α) : enumerate (l.map f) = (enumerate l).map (fun p => (p.1, f p.2)) := by
  unfold enumerate
  generalize 0 = k
  induction l generalizing k with
  | nil => rfl
  | cons a l ih => simp only [List.map_cons, enumFrom, ih]

theorem foldO_map {α β σ : Type} (f : σ → β → Outcome σ) (h : α → β) (l : List α) (s : σ) :
    foldO f s (l.map h) = foldO (fun s a => f s (h a)) s l := by
  induction l generalizing s with
  | nil => rfl
  | cons a l ih =>
    simp only [List.map_cons, foldO]
    congr 1
    funext s'
    exact ih s'

theorem mapO_idx_panic (x : Nat) (ms : List Nat) (h : ∃ m ∈ ms, 2 ≤ m) :
    mapO (fun d => do
      let c ← idx Ascii.CHARS d
      (Outcome.ok (List.replicate x c) : Outcome (List Char))) ms = .panic .bounds := by
  induction ms with
  | nil => obtain ⟨m, hm, -⟩ := h; cases hm
  | cons a ms ih =>
    by_cases ha : 2 ≤ a
    · have : idx Ascii.CHARS a = .panic .bounds := by
        unfold idx
        rw [List.getElem?_eq_none (by simpa [Ascii.CHARS] using ha)]
      simp only [mapO, this]
      rfl
    · have hr : ∃ m ∈ ms, 2 ≤ m := by
        obtain ⟨m, hm, h2⟩ := h
        rcases List.mem_cons.mp hm with rfl | hm
        · exact absurd h2 ha
        · exact ⟨m, hm, h2⟩
      have hc : ∃ c, idx Ascii.CHARS a = .ok c := by
        rcases (show a = 0 ∨ a = 1 by omega) with rfl | rfl
        · exact ⟨_, rfl⟩
        · exact ⟨_, rfl⟩
      obtain ⟨c, hc⟩ := hc
      simp only [mapO, hc, ih hr]
      rfl

/-- C111. The text generator panics exactly if some value is neither 0 nor 1, whatever the height and the width. -/
theorem C111_ascii (g : Ascii.ASCII) (ms : List Nat) :
    ((∃ m ∈ ms, m ≠ 0 ∧ m ≠ 1) → Ascii.generate g ms = .panic .bounds) ∧
    ((∀ m ∈ ms, m = 0 ∨ m = 1) → ∃ out, Ascii.generate g ms = .ok out) := by
  constructor
  · rintro ⟨m, hm, h⟩
    unfold Ascii.generate Ascii.generateRow
    rw [mapO_idx_panic g.xdim ms ⟨m, hm, by omega⟩]
    rfl
  · intro h
    have key : ∃ cells, mapO (fun d => do
        let c ← idx Ascii.CHARS d
        (Outcome.ok (List.replicate g.xdim c) : Outcome (List Char))) ms = .ok cells := by
      induction ms with
      | nil => exact ⟨_, rfl⟩
      | cons a ms ih =>
        obtain ⟨cs, hcs⟩ := ih (fun m hm => h m (List.mem_cons_of_mem _ hm))
        rcases h a List.mem_cons_self with rfl | rfl
        · exact ⟨_, by simp only [mapO, hcs]; rfl⟩
        · exact ⟨_, by simp only [mapO, hcs]; rfl⟩
    obtain ⟨cells, hc⟩ := key
    unfold Ascii.generate Ascii.generateRow
    rw [hc]
    exact ⟨_, rfl⟩

/-- C111. The JSON generator writes 1 for every value but 0. -/
theorem C111_json (g : Json.JSON) (ms : List Nat) : Json.generate g ms = Json.generate g (barUnlessZero ms) := by
  unfold Json.generate barUnlessZero
  rw [List.foldl_map]
  have : (fun (acc : List Char) (m : Nat) => Json.bitStep acc (if m = 0 then 0 else 1)) = Json.bitStep := by
    funext acc m
    cases m with
    | zero => rfl
    | succ m => rfl
  rw [this]

/-- C111. So do the image generators: every value but 0 gives a bar, and whether an image is returned does not depend on it. -/
theorem C111_image (b : Build) (g : Image.Image) (ms : List Nat) (t : Image.Target) (codec : Image.Codec) :
    Image.generateBuffer b g ms t = Image.generateBuffer b g (barUnlessZero ms) t ∧
    Image.generate codec b g ms t = Image.generate codec b g (barUnlessZero ms) t := by
  have key : Image.placePixels b g ms t = Image.placePixels b g (barUnlessZero ms) t := by
    unfold Image.placePixels
    have hrow : Image.putRow b g.xdim g.background g.foreground ms =
        Image.putRow b g.xdim g.background g.foreground (barUnlessZero ms) := by
      funext buf y
      unfold Image.putRow barUnlessZero
      rw [enumerate_map, foldO_map]
      congr 1
      funext buf e
      unfold Image.putModule
      by_cases h : e.2 = 0 <;> simp [h]
    rw [hrow, barUnlessZero, List.length_map]
  unfold Image.generateBuffer Image.generate
  rw [key]
  exact ⟨rfl, rfl⟩

/-- C111. The SVG generator draws a bar for 1 only. -/
theorem C111_svg (b : Build) (s : Svg.SVG) (ms : List Nat) : Svg.generate b s ms = Svg.generate b s (barIfOne ms) := by
  unfold Svg.generate barIfOne
  rw [List.length_map, enumerate_map]
  have hrects : ((enumerate ms).map (fun p => (p.1, if p.2 = 1 then 1 else 0))).filter (fun p => p.2 == 1) =
      (enumerate ms).filter (fun p => p.2 == 1) := by
    generalize enumerate ms = l
    induction l with
    | nil => rfl
    | cons p l ih =>
      obtain ⟨i, m⟩ := p
      by_cases h : m = 1
      · subst h; simp [ih]
      · simp [h, ih]
  rw [hrects]

theorem barUnlessZero_bits (ms : List Nat) : ∀ m ∈ barUnlessZero ms, m = 0 ∨ m = 1 := by
  intro m hm
  obtain ⟨a, -, rfl⟩ := List.mem_map.mp hm
  by_cases ha : a = 0 <;> simp [ha]

theorem barIfOne_bits (ms : List Nat) : ∀ m ∈ barIfOne ms, m = 0 ∨ m = 1 := by
  intro m hm
  obtain ⟨a, -, rfl⟩ := List.mem_map.mp hm
  by_cases ha : a = 1 <;> simp [ha]

/-- C111. What is read from the pictures of any slice: the SVG picture has a bar for every 1, the image one for every value but 0,
and JSON a 1 for every value but 0. -/
theorem C111_shown (ms : List Nat) :
    (∀ (b : Build) (s : Svg.SVG), 0 < s.height → 0 < s.xdim → ms.length * s.xdim < 2 ^ 32 →
      (∀ x ∈ s.xmlns, ∀ c ∈ x, xmlPlain c = true) →
      ∃ out doc, Svg.generate b s ms = .ok out ∧ readSvg out = some doc ∧
        svgModules s.xdim doc = some (ms.map (fun m => if m = 1 then 1 else 0))) ∧
    (∀ (b : Build) (g : Image.Image), 0 < g.xdim → g.foreground ≠ g.background → ms.length * g.xdim < 2 ^ 32 →
      4 * (ms.length * g.xdim) * g.height < 2 ^ 63 →
      ∃ buf, Image.generateBuffer b g ms = .ok buf ∧ lineCount buf.w buf.h (headingOf g.rotation) = g.height ∧
        ∀ j < g.height, readColours g.background g.xdim (pictureLine buf.w buf.h buf.px j (headingOf g.rotation)) =
          some (ms.map (fun m => if m = 0 then 0 else 1))) ∧
    (∀ g : Json.JSON, ∃ out doc, Json.generate g ms = .ok out ∧ parseJson out = some doc ∧
      jsonNumbers "encoding".toList doc = some (ms.map (fun m => if m = 0 then 0 else 1))) := by
  refine ⟨fun b s hh hx hw hn => ?_, fun b g hx hne hw hs => ?_, fun g => ?_⟩
  · rw [C111_svg]
    exact (C44_generators_agree _ (barIfOne_bits ms)).svg b s hh hx (by simpa [barIfOne] using hw) hn
  · rw [(C111_image b g ms .bits64 (fun _ _ => none)).1]
    exact (C44_generators_agree _ (barUnlessZero_bits ms)).image b g hx hne (by simpa [barUnlessZero] using hw)
      (by simpa [barUnlessZero] using hs)
  · rw [C111_json]
    exact (C44_generators_agree _ (barUnlessZero_bits ms)).json g

/-- C111. So the generators all show the slice, in the way of C44, exactly if it consists of zeros and ones. -/
theorem C111_agree_iff (ms : List Nat) : GeneratorsShow ms ↔ ∀ m ∈ ms, m = 0 ∨ m = 1 := by
  refine ⟨fun h m hm => ?_, C44_generators_agree ms⟩
  apply Classical.byContradiction
  intro hn
  obtain ⟨out, h1, -⟩ := h.ascii Ascii.new (by decide) (by decide)
  rw [(C111_ascii Ascii.new ms).1 ⟨m, hm, by omega⟩] at h1
  cases h1

example : Ascii.generate Ascii.new [1, 0, 7] = .panic .bounds ∧
    Json.generate Json.new [1, 0, 7] = Json.generate Json.new [1, 0, 1] ∧
    Svg.generate .debug (Svg.new 9) [1, 0, 7] = Svg.generate .debug (Svg.new 9) [1, 0, 0] ∧
    Svg.generate .debug (Svg.new 9) [1, 0, 7] ≠ Svg.generate .debug (Svg.new 9) [1, 0, 1] ∧
    barUnlessZero [1, 0, 7] = [1, 0, 1] ∧ barIfOne [1, 0, 7] = [1, 0, 0] := by decide +kernel

end Barcoders
