import Verif.Props.Image

/-!
# C78: images on 32-bit targets

The word size of the target enters the code only through the largest allocation. C40 to C44 are about 64-bit targets; the
theorems here carry them over.
-/

set_option autoImplicit false

namespace Barcoders
open Image

/-- C78. An image made on a 32-bit target is the image made on a 64-bit target, for all settings and bytes; the same for the
files. -/
theorem C78_same_image (codec : Codec) (b : Build) (g : Image) (bytes : List Nat) :
    (∀ buf, generateBuffer b g bytes .bits32 = .ok buf → generateBuffer b g bytes .bits64 = .ok buf) ∧
    (∀ out, generate codec b g bytes .bits32 = .ok out → generate codec b g bytes .bits64 = .ok out) ∧
    (∀ e, generate codec b g bytes .bits32 = .err e → generate codec b g bytes .bits64 = .err e) := by
  have key : (∃ p, placePixels b g bytes .bits32 = .panic p) ∨
      placePixels b g bytes .bits32 = placePixels b g bytes .bits64 := by
    unfold placePixels
    cases hu : u32 b (asU32 bytes.length * g.xdim) with
    | err e => right; rfl
    | panic p => right; rfl
    | ok w =>
      rw [Outcome.ok_bind, Outcome.ok_bind]
      by_cases hs : 4 * w * g.height < 2 ^ 31
      · right
        rw [Buffer.new, if_pos (show _ < Target.memory .bits32 from hs), Buffer.new,
          if_pos (show 4 * w * g.height < Target.memory .bits64 from Nat.lt_trans hs (by decide))]
      · left
        rw [Buffer.new, if_neg (show ¬ _ < Target.memory .bits32 from hs)]
        exact ⟨_, rfl⟩
  rcases key with ⟨p, h⟩ | h
  · unfold generateBuffer generate
    rw [h]
    refine ⟨fun _ h' => (by cases h'), ?_, ?_⟩ <;> intro e h' <;> cases hk : g.kind <;> rw [hk] at h' <;> first
      | exact h'
      | cases h'
  · unfold generateBuffer generate
    rw [h]
    exact ⟨fun _ h => h, fun _ h => h, fun _ h => h⟩

example : ∃ buf buf', Image.generateBuffer .debug (Image.png 3) [1, 0, 1] .bits32 = .ok buf ∧
    Image.generateBuffer .debug (Image.png 3) [1, 0, 1] .bits64 = .ok buf' ∧ buf.w = 3 ∧ buf'.w = 3 ∧
    (List.range 3).map (buf.px · 2) = (List.range 3).map (buf'.px · 2) := ⟨_, _, rfl, rfl, by decide +kernel⟩

/-- C78. When an image (with at least one row, at least one pixel per module) is made, on each target: exactly when its width
fits `u32` and its bytes fit the largest allocation. Otherwise the code panics in both builds. -/
theorem C78_image_made_iff (b : Build) (g : Image) (bytes : List Nat) (t : Target) (hh : 0 < g.height) (hx : 0 < g.xdim) :
    ((∃ buf, generateBuffer b g bytes t = .ok buf) ↔
      bytes.length * g.xdim < 2 ^ 32 ∧ 4 * (bytes.length * g.xdim) * g.height < (match t with
        | .bits64 => 2 ^ 63
        | .bits32 => 2 ^ 31)) ∧
    ((generateBuffer b g bytes t).isPanic = true ↔ ¬ ∃ buf, generateBuffer b g bytes t = .ok buf) := by
  have hm : (match t with
      | .bits64 => 2 ^ 63
      | .bits32 => 2 ^ 31) = t.memory := by cases t <;> rfl
  rw [hm]
  by_cases hw : bytes.length * g.xdim < 2 ^ 32
  · by_cases hs : 4 * (bytes.length * g.xdim) * g.height < t.memory
    · have h := placePixels_eq_on b g bytes t hw hs
      unfold generateBuffer
      rw [h]
      exact ⟨⟨fun _ => ⟨hw, hs⟩, fun _ => ⟨_, rfl⟩⟩, fun h => (by cases h), fun h => absurd ⟨_, rfl⟩ h⟩
    · have h := too_large_on b g bytes t hw (by omega)
      rw [h]
      exact ⟨⟨fun ⟨_, h⟩ => (by cases h), fun h => absurd h.2 hs⟩, fun _ ⟨_, h⟩ => (by cases h), fun _ => rfl⟩
  · have h := overflow_panics_on b g bytes t hh hx (by omega)
    have hno : ¬ ∃ buf, generateBuffer b g bytes t = .ok buf := by
      rintro ⟨buf, hb⟩
      rw [hb] at h
      cases h
    exact ⟨⟨fun h => absurd h hno, fun h => absurd h.1 hw⟩, fun _ => hno, fun _ => h⟩

/-- A picture of 2 GiB can be made on a 64-bit target only: 95 modules, 1000 pixels each, 5652 rows. -/
example : (∃ buf, generateBuffer .debug { gif 5652 with xdim := 1000 } (List.replicate 95 1) .bits64 = .ok buf) ∧
    generateBuffer .debug { gif 5652 with xdim := 1000 } (List.replicate 95 1) .bits32 = .panic .capacity :=
  ⟨((C78_image_made_iff .debug _ _ .bits64 (by decide) (by decide)).1).mpr ⟨by simp [gif, defaults], by simp [gif, defaults]⟩,
    too_large_on _ _ _ .bits32 (by simp [gif, defaults]) (by simp [gif, defaults, Target.memory])⟩
/-- One row less fits both. -/
example : ∃ buf, generateBuffer .debug { gif 5651 with xdim := 1000 } (List.replicate 95 1) .bits32 = .ok buf :=
  ((C78_image_made_iff .debug _ _ .bits32 (by decide) (by decide)).1).mpr ⟨by simp [gif, defaults], by simp [gif, defaults]⟩

end Barcoders
