import Verif.Model.Ean8
import Verif.Model.Upca
import Verif.Model.EanSupp
import Verif.Model.TF
import Verif.Model.Code128
import Verif.Model.Svg
import Verif.Model.Image

/-!
# Debug and release builds (C71)

The two profiles run the same function, except that a debug build stops at the first integer overflow. So whatever a debug build
returns, the release build returns as well; this is not obvious for code whose later control flow depends on earlier sums.
-/

set_option autoImplicit false

namespace Barcoders

/-- The second outcome is the first, unless the first is an overflow panic. -/
def Agrees {α : Type} (d r : Outcome α) : Prop := d ≠ .panic .overflow → r = d

theorem ag_refl {α : Type} (x : Outcome α) : Agrees x x := fun _ => rfl

theorem ag_bind {α β : Type} {x y : Outcome α} {f g : α → Outcome β} (h : Agrees x y) (hf : ∀ a, Agrees (f a) (g a)) :
    Agrees (x >>= f) (y >>= g) := by
  intro hne
  have hx : x ≠ .panic .overflow := by rintro rfl; exact hne rfl
  rw [h hx]
  cases x with
  | ok a => exact hf a hne
  | err e => rfl
  | panic p => rfl

theorem ag_mapO {α β : Type} {f g : α → Outcome β} (l : List α) (h : ∀ a, Agrees (f a) (g a)) :
    Agrees (mapO f l) (mapO g l) := by
  induction l with
  | nil => exact ag_refl _
  | cons a l ih => exact ag_bind (h a) fun _ => ag_bind ih fun _ => ag_refl _

theorem ag_foldO {α β : Type} {f g : β → α → Outcome β} (i : β) (l : List α) (h : ∀ b a, Agrees (f b a) (g b a)) :
    Agrees (foldO f i l) (foldO g i l) := by
  induction l generalizing i with
  | nil => exact ag_refl _
  | cons a l ih => exact ag_bind (h i a) fun b => ih b

theorem ag_ite {α : Type} {c : Prop} [Decidable c] {x y x' y' : Outcome α} (h : Agrees x x') (h' : Agrees y y') :
    Agrees (if c then x else y) (if c then x' else y') := by
  split <;> assumption

theorem ag_u8 (n : Nat) : Agrees (u8 .debug n) (u8 .release n) := by
  unfold Agrees u8; split <;> simp

theorem ag_u32 (n : Nat) : Agrees (u32 .debug n) (u32 .release n) := by
  unfold Agrees u32; split <;> simp

theorem ag_i32 (n : Int) : Agrees (i32 .debug n) (i32 .release n) := by
  unfold Agrees i32; split <;> simp

theorem ag_mod10 (ds : List Nat) (e : Bool) :
    Agrees (Helpers.modulo10Checksum .debug ds e) (Helpers.modulo10Checksum .release ds e) := by
  refine ag_bind (ag_foldO _ _ fun st p => ?_) fun st => ?_
  · unfold Helpers.mod10Step
    split <;> exact ag_bind (ag_u8 _) fun _ => ag_refl _
  · cases e
    · exact ag_bind (ag_refl _) fun _ => ag_bind (ag_u8 _) fun _ => ag_bind (ag_u8 _) fun _ => ag_refl _
    · exact ag_bind (ag_u8 _) fun _ => ag_bind (ag_refl _) fun _ => ag_bind (ag_u8 _) fun _ => ag_refl _

/-- Follow the two runs step by step. -/
local macro "agree" : tactic =>
  `(tactic| repeat' first
    | with_reducible exact ag_u8 _ | with_reducible exact ag_u32 _ | with_reducible exact ag_i32 _
    | with_reducible exact ag_mod10 _ _ | with_reducible exact ag_refl _
    | with_reducible apply ag_bind | with_reducible apply ag_foldO | with_reducible apply ag_mapO
    | with_reducible apply ag_ite | (with_reducible intro _))


/-- C71. Constructors: a debug build that does not stop with an overflow gives the result of the release build. -/
theorem C71_constructors (s : List Char) :
    (Ean13.new .debug s ≠ .panic .overflow → Ean13.new .release s = Ean13.new .debug s) ∧
    (Ean8.new .debug s ≠ .panic .overflow → Ean8.new .release s = Ean8.new .debug s) ∧
    (Upca.new .debug s ≠ .panic .overflow → Upca.new .release s = Upca.new .debug s) ∧
    (TF.interleaved .debug s ≠ .panic .overflow → TF.interleaved .release s = TF.interleaved .debug s) := by
  refine ⟨?_, ?_, ?_, ?_⟩ <;> show Agrees _ _
  · unfold Ean13.new Ean13.checksumDigit; agree
  · unfold Ean8.new Ean8.checksumDigit; agree
  · unfold Upca.new Upca.checksumDigit; agree
  · unfold TF.interleaved; agree

example : TF.interleaved .debug "123".toList ≠ .panic .overflow ∧
    TF.interleaved .release "123".toList = TF.interleaved .debug "123".toList ∧
    TF.interleaved .debug (List.replicate 255 '9') = .panic .overflow := by decide +kernel

/-- C71. Encodings, of any value of the types, whether made by a constructor or not. -/
theorem C71_encodings :
    (∀ x, Ean13.encode .debug x ≠ .panic .overflow → Ean13.encode .release x = Ean13.encode .debug x) ∧
    (∀ x, Ean8.encode .debug x ≠ .panic .overflow → Ean8.encode .release x = Ean8.encode .debug x) ∧
    (∀ x, Upca.encode .debug x ≠ .panic .overflow → Upca.encode .release x = Upca.encode .debug x) ∧
    (∀ x, EanSupp.encode .debug x ≠ .panic .overflow → EanSupp.encode .release x = EanSupp.encode .debug x) ∧
    (∀ x, Code128.encode .debug x ≠ .panic .overflow → Code128.encode .release x = Code128.encode .debug x) := by
  refine ⟨fun x => ?_, fun x => ?_, fun x => ?_, fun x => ?_, fun x => ?_⟩ <;> show Agrees _ _
  · unfold Ean13.encode Ean13.checksumEncoding Ean13.checksumDigit; agree
  · unfold Ean8.encode Ean8.checksumEncoding Ean8.checksumDigit; agree
  · unfold Upca.encode Upca.checksumEncoding Upca.checksumDigit; agree
  · unfold EanSupp.encode EanSupp.payload EanSupp.parity EanSupp.checksumDigit EanSupp.checksumStep
    cases x <;> simp only <;> agree
  · unfold Code128.encode Code128.checksumEncoding Code128.checksumValue Code128.checksumStep; agree

example : EanSupp.encode .debug (.EAN5 (List.replicate 40 9)) = .panic .overflow ∧
    (EanSupp.encode .release (.EAN5 (List.replicate 40 9))).isOk = true ∧
    EanSupp.encode .debug (.EAN5 [9, 9, 9, 9, 9]) = EanSupp.encode .release (.EAN5 [9, 9, 9, 9, 9]) := by decide +kernel

theorem placePixels_agrees (g : Image.Image) (bytes : List Nat) :
    Agrees (Image.placePixels .debug g bytes) (Image.placePixels .release g bytes) := by
  unfold Image.placePixels Image.putRow Image.putModule Image.putOne
  agree

/-- C71. Generators, for any bytes and any settings. -/
theorem C71_generators (s : Svg.SVG) (g : Image.Image) (codec : Image.Codec) (bytes : List Nat) :
    (Svg.generate .debug s bytes ≠ .panic .overflow → Svg.generate .release s bytes = Svg.generate .debug s bytes) ∧
    (Image.generateBuffer .debug g bytes ≠ .panic .overflow →
      Image.generateBuffer .release g bytes = Image.generateBuffer .debug g bytes) ∧
    (Image.generate codec .debug g bytes ≠ .panic .overflow →
      Image.generate codec .release g bytes = Image.generate codec .debug g bytes) := by
  refine ⟨?_, placePixels_agrees g bytes, ?_⟩ <;> show Agrees _ _
  · unfold Svg.generate Svg.barRect; agree
  · unfold Image.generate
    cases g.kind with
    | gif => exact ag_bind (placePixels_agrees g bytes) fun _ => ag_refl _
    | png => exact ag_bind (placePixels_agrees g bytes) fun _ => ag_refl _
    | webp => exact ag_bind (placePixels_agrees g bytes) fun _ => ag_refl _
    | imageBuffer => exact ag_refl _

/-! Concrete cases: the same barcode twice, and data on which the profiles part. -/

example : Ean13.new .debug "750103131130".toList = Ean13.new .release "750103131130".toList := by decide
example : TF.interleaved .debug (List.replicate 57 '9') = .panic .overflow ∧
    (TF.interleaved .release (List.replicate 57 '9')).isOk = true := by decide +kernel
example : Svg.generate .debug { Svg.new 1 with xdim := 2 ^ 31 } [1, 0, 1] = .panic .overflow ∧
    (Svg.generate .release { Svg.new 1 with xdim := 2 ^ 31 } [1, 0, 1]).isOk = true := by decide +kernel

end Barcoders
