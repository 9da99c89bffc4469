import Verif.Lemmas.Basic
import Verif.Model.Image

/-!
# Image output (C40, C41, C42, C43)
-/

set_option autoImplicit false

namespace Barcoders
open Image

theorem foldO_append {α β : Type} (f : β → α → Outcome β) (l m : List α) (b : β) :
    foldO f b (l ++ m) = foldO f b l >>= fun b' => foldO f b' m := by
  induction l generalizing b with
  | nil => rfl
  | cons a l ih =>
    rw [List.cons_append, foldO, foldO]
    cases f b a with
    | ok b' => simp only [Outcome.ok_bind]; exact ih b'
    | err e => rfl
    | panic p => rfl

/-- Some pixels replaced. -/
def painted (buf : Buffer) (on : Nat → Nat → Bool) (c : Nat → Nat → Color) : Buffer :=
  ⟨buf.w, buf.h, fun x y => if on x y then c x y else buf.px x y⟩

theorem painted_none (buf : Buffer) (on : Nat → Nat → Bool) (c : Nat → Nat → Color) (h : ∀ x y, on x y = false) :
    painted buf on c = buf := by
  cases buf with
  | mk w hh px =>
    simp only [painted, Buffer.mk.injEq, true_and]
    funext x y
    rw [h]
    rfl

theorem putModule_ok (b : Build) (xdim y i n : Nat) (c : Color) (buf : Buffer) (hw : buf.w < 2 ^ 32)
    (hi : i * xdim + n ≤ buf.w) (hn : i * xdim + n = 0 ∨ i < 2 ^ 32 ∨ n = 0) (hy : y < buf.h) :
    foldO (putOne b xdim y i c) buf (List.range n) =
      .ok (painted buf (fun x' y' => y' = y ∧ i * xdim ≤ x' ∧ x' < i * xdim + n) (fun _ _ => c)) := by
  induction n with
  | zero =>
    rw [List.range_zero, foldO, painted_none]
    intro x' y'
    simp only [decide_eq_false_iff_not]
    omega
  | succ n ih =>
    have hi32 : i < 2 ^ 32 := by omega
    rw [List.range_succ, foldO_append, ih (by omega) (by omega), Outcome.ok_bind]
    simp only [foldO, putOne]
    rw [asU32, Nat.mod_eq_of_lt hi32, u32_ok b _ (by omega), Outcome.ok_bind, u32_ok b _ (by omega), Outcome.ok_bind,
      Buffer.putPixel, if_pos (by simp only [painted]; omega), Outcome.ok_bind]
    simp only [painted]
    congr
    funext x' y'
    by_cases h : x' = i * xdim + n ∧ y' = y
    · rw [if_pos h, if_pos]
      simp only [decide_eq_true_eq]
      omega
    · rw [if_neg h]
      have : (y' = y ∧ i * xdim ≤ x' ∧ x' < i * xdim + n) ↔ (y' = y ∧ i * xdim ≤ x' ∧ x' < i * xdim + (n + 1)) := by
        omega
      simp only [this]

/-- The colour of a module. -/
def moduleColour (bg fg : Color) (v : Nat) : Color := if v = 0 then bg else fg

theorem putRow_ok (b : Build) (xdim y : Nat) (bg fg : Color) (l : List Nat) (k : Nat) (buf : Buffer) (hx : 0 < xdim)
    (hw : buf.w < 2 ^ 32) (hi : (k + l.length) * xdim ≤ buf.w) (hy : y < buf.h) :
    foldO (putModule b xdim y bg fg) buf (enumFrom k l) =
      .ok (painted buf (fun x' y' => y' = y ∧ k * xdim ≤ x' ∧ x' < (k + l.length) * xdim)
        (fun x' _ => moduleColour bg fg (l.getD (x' / xdim - k) 0))) := by
  induction l generalizing k buf with
  | nil =>
    rw [enumFrom, foldO, painted_none]
    intro x' y'
    simp only [decide_eq_false_iff_not, List.length_nil, Nat.add_zero]
    omega
  | cons v l ih =>
    have hk : k * xdim + xdim + l.length * xdim ≤ buf.w := by
      rw [List.length_cons, Nat.add_mul, Nat.add_mul, Nat.one_mul] at hi
      omega
    have hkx : k ≤ k * xdim := Nat.le_mul_of_pos_right k hx
    rw [enumFrom, foldO, putModule, putModule_ok b xdim y k xdim _ buf hw (by omega) (Or.inr (Or.inl (by omega))) hy,
      Outcome.ok_bind, ih (k + 1) (painted buf _ _) hw _ hy]
    · simp only [painted]
      congr
      funext x' y'
      have hlen : (k + (v :: l).length) * xdim = k * xdim + xdim + l.length * xdim := by
        rw [List.length_cons, Nat.add_mul, Nat.add_mul, Nat.one_mul]; omega
      have hlen' : (k + 1 + l.length) * xdim = k * xdim + xdim + l.length * xdim := by
        rw [Nat.add_mul, Nat.add_mul, Nat.one_mul]
      have hk1 : (k + 1) * xdim = k * xdim + xdim := by rw [Nat.add_mul, Nat.one_mul]
      rw [hlen, hlen', hk1]
      by_cases h1 : y' = y ∧ k * xdim + xdim ≤ x' ∧ x' < k * xdim + xdim + l.length * xdim
      · rw [if_pos (by simpa using h1), if_pos (by simp only [decide_eq_true_eq]; omega)]
        have : k + 1 ≤ x' / xdim := by rw [Nat.le_div_iff_mul_le hx]; omega
        rw [show x' / xdim - k = (x' / xdim - (k + 1)) + 1 by omega, List.getD_cons_succ]
      · rw [if_neg (by simpa using h1)]
        by_cases h2 : y' = y ∧ k * xdim ≤ x' ∧ x' < k * xdim + xdim
        · rw [if_pos (decide_eq_true h2),
            if_pos (decide_eq_true (show y' = y ∧ k * xdim ≤ x' ∧ x' < k * xdim + xdim + l.length * xdim by omega))]
          have h3 : k ≤ x' / xdim := by rw [Nat.le_div_iff_mul_le hx]; omega
          have h4 : x' / xdim < k + 1 := by rw [Nat.div_lt_iff_lt_mul hx]; omega
          rw [show x' / xdim - k = 0 by omega, List.getD_cons_zero]
          rfl
        · rw [if_neg (by simpa using h2), if_neg (by simp only [decide_eq_true_eq]; omega)]
    · show (k + 1 + l.length) * xdim ≤ buf.w
      rw [Nat.add_mul, Nat.add_mul, Nat.one_mul]
      omega

/-- With modules of width 0 nothing is painted. -/
theorem putRow_zero (b : Build) (y : Nat) (bg fg : Color) (es : List (Nat × Nat)) (buf : Buffer) :
    foldO (putModule b 0 y bg fg) buf es = .ok buf := by
  induction es with
  | nil => rfl
  | cons e es ih => rw [foldO, putModule]; exact ih

theorem rows_ok (b : Build) (xdim : Nat) (bg fg : Color) (l : List Nat) (n : Nat) (buf : Buffer)
    (hw : buf.w < 2 ^ 32) (hi : l.length * xdim ≤ buf.w) (hn : n ≤ buf.h) :
    foldO (putRow b xdim bg fg l) buf (List.range n) =
      .ok (painted buf (fun x' y' => y' < n ∧ x' < l.length * xdim)
        (fun x' _ => moduleColour bg fg (l.getD (x' / xdim) 0))) := by
  induction n with
  | zero =>
    rw [List.range_zero, foldO, painted_none]
    intro x' y'
    simp only [decide_eq_false_iff_not]
    omega
  | succ n ih =>
    rw [List.range_succ, foldO_append, ih (by omega), Outcome.ok_bind]
    simp only [foldO, putRow, enumerate]
    rcases Nat.eq_zero_or_pos xdim with rfl | hx
    · rw [putRow_zero, Outcome.ok_bind]
      simp only [painted]
      congr
      funext x' y'
      rw [if_neg (by simp), if_neg (by simp)]
    · rw [putRow_ok b xdim n bg fg l 0 (painted buf _ _) hx hw (by simpa [painted] using hi) (by simp only [painted]; omega),
        Outcome.ok_bind]
      simp only [painted]
      congr
      funext x' y'
      by_cases h1 : y' = n ∧ x' < l.length * xdim
      · rw [if_pos (by simpa using h1), if_pos (by simp only [decide_eq_true_eq]; omega), Nat.sub_zero]
      · rw [if_neg (by simpa using h1)]
        have : (y' < n ∧ x' < l.length * xdim) ↔ (y' < n + 1 ∧ x' < l.length * xdim) := by omega
        simp only [this]

/-- The unrotated picture. -/
def picture (g : Image) (bytes : List Nat) : Buffer :=
  painted ⟨bytes.length * g.xdim, g.height, fun _ _ => ⟨0, 0, 0, 0⟩⟩
    (fun x' y' => y' < g.height ∧ x' < bytes.length * g.xdim)
    (fun x' _ => moduleColour g.background g.foreground (bytes.getD (x' / g.xdim) 0))

theorem asU32_len_mul (n x : Nat) (h : n * x < 2 ^ 32) : asU32 n * x = n * x := by
  rcases Nat.eq_zero_or_pos x with rfl | hx
  · simp
  · have : n < 2 ^ 32 := Nat.lt_of_le_of_lt (Nat.le_mul_of_pos_right n hx) h
    rw [asU32, Nat.mod_eq_of_lt (by omega)]

theorem placePixels_eq_on (b : Build) (g : Image) (bytes : List Nat) (t : Target) (hw : bytes.length * g.xdim < 2 ^ 32)
    (hs : 4 * (bytes.length * g.xdim) * g.height < t.memory) :
    placePixels b g bytes t = .ok (match g.rotation with
      | .ninety => (picture g bytes).rotate90
      | .oneEighty => (picture g bytes).rotate180
      | .twoSeventy => (picture g bytes).rotate270
      | .zero => picture g bytes) := by
  unfold placePixels
  rw [asU32_len_mul _ _ hw, u32_ok b _ hw, Outcome.ok_bind, Buffer.new, if_pos hs, Outcome.ok_bind,
    rows_ok b g.xdim g.background g.foreground bytes g.height _ hw (Nat.le_refl _) (Nat.le_refl _), Outcome.ok_bind]
  unfold picture
  cases g.rotation <;> rfl

theorem placePixels_eq (b : Build) (g : Image) (bytes : List Nat) (hw : bytes.length * g.xdim < 2 ^ 32)
    (hs : 4 * (bytes.length * g.xdim) * g.height < 2 ^ 63) :
    placePixels b g bytes = .ok (match g.rotation with
      | .ninety => (picture g bytes).rotate90
      | .oneEighty => (picture g bytes).rotate180
      | .twoSeventy => (picture g bytes).rotate270
      | .zero => picture g bytes) := placePixels_eq_on b g bytes .bits64 hw hs

theorem picture_px (g : Image) (bytes : List Nat) (x y : Nat) (hx : x < bytes.length * g.xdim) (hy : y < g.height) :
    (picture g bytes).px x y = if bytes[x / g.xdim]? = some 0 then g.background else g.foreground := by
  have hxd : 0 < g.xdim := Nat.pos_of_ne_zero (fun h => by rw [h] at hx; simp at hx)
  have hlt : x / g.xdim < bytes.length := by rw [Nat.div_lt_iff_lt_mul hxd]; exact hx
  simp only [picture, painted]
  rw [if_pos (by simpa using ⟨hy, hx⟩), moduleColour, List.getD_eq_getElem?_getD, List.getElem?_eq_getElem hlt]
  simp

/-- C40: size and pixels of the unrotated image, whenever its width fits `u32` and its bytes can be allocated. -/
theorem C40_image_pixels (b : Build) (g : Image) (bytes : List Nat) (hr : g.rotation = .zero)
    (hw : bytes.length * g.xdim < 2 ^ 32) (hs : 4 * (bytes.length * g.xdim) * g.height < 2 ^ 63) :
    ∃ buf, generateBuffer b g bytes = .ok buf ∧ buf.w = bytes.length * g.xdim ∧ buf.h = g.height ∧
      ∀ x y, x < buf.w → y < buf.h →
        buf.px x y = if bytes[x / g.xdim]? = some 0 then g.background else g.foreground := by
  refine ⟨picture g bytes, ?_, rfl, rfl, picture_px g bytes⟩
  rw [generateBuffer, placePixels_eq b g bytes hw hs, hr]

example : ∃ buf, Image.generateBuffer .debug { Image.png 2 with xdim := 3 } [1, 0] = .ok buf ∧ buf.w = 6 ∧ buf.h = 2 ∧
    buf.px 2 1 = Image.Color.black ∧ buf.px 3 1 = Image.Color.white := ⟨_, rfl, by decide +kernel⟩

/-- C41: the rotated images are the unrotated one (`z`) turned clockwise: a quarter turn moves pixel `(x, y)` to
`(h - 1 - y, x)`. -/
theorem C41_image_rotations (b : Build) (g : Image) (bytes : List Nat)
    (hw : bytes.length * g.xdim < 2 ^ 32) (hs : 4 * (bytes.length * g.xdim) * g.height < 2 ^ 63) :
    ∃ z r90 r180 r270,
      generateBuffer b { g with rotation := .zero } bytes = .ok z ∧
      generateBuffer b { g with rotation := .ninety } bytes = .ok r90 ∧
      generateBuffer b { g with rotation := .oneEighty } bytes = .ok r180 ∧
      generateBuffer b { g with rotation := .twoSeventy } bytes = .ok r270 ∧
      z.w = bytes.length * g.xdim ∧ z.h = g.height ∧
      (r90.w = z.h ∧ r90.h = z.w ∧ ∀ x y, x < z.w → y < z.h → r90.px (z.h - 1 - y) x = z.px x y) ∧
      (r180.w = z.w ∧ r180.h = z.h ∧ ∀ x y, x < z.w → y < z.h → r180.px (z.w - 1 - x) (z.h - 1 - y) = z.px x y) ∧
      (r270.w = z.h ∧ r270.h = z.w ∧ ∀ x y, x < z.w → y < z.h → r270.px y (z.w - 1 - x) = z.px x y) := by
  refine ⟨picture g bytes, (picture g bytes).rotate90, (picture g bytes).rotate180, (picture g bytes).rotate270,
    placePixels_eq b { g with rotation := .zero } bytes hw hs, placePixels_eq b { g with rotation := .ninety } bytes hw hs,
    placePixels_eq b { g with rotation := .oneEighty } bytes hw hs,
    placePixels_eq b { g with rotation := .twoSeventy } bytes hw hs, rfl, rfl, ⟨rfl, rfl, ?_⟩, ⟨rfl, rfl, ?_⟩, rfl, rfl, ?_⟩
  · intro x y hx hy
    simp only [Buffer.rotate90]
    rw [show (picture g bytes).h - 1 - ((picture g bytes).h - 1 - y) = y by omega]
  · intro x y hx hy
    simp only [Buffer.rotate180]
    rw [show (picture g bytes).h - 1 - ((picture g bytes).h - 1 - y) = y by omega,
      show (picture g bytes).w - 1 - ((picture g bytes).w - 1 - x) = x by omega]
  · intro x y hx hy
    simp only [Buffer.rotate270]
    rw [show (picture g bytes).w - 1 - ((picture g bytes).w - 1 - x) = x by omega]

example : ∃ z r, Image.generateBuffer .debug (Image.png 2) [1, 0, 0] = .ok z ∧
    Image.generateBuffer .debug { Image.png 2 with rotation := .ninety } [1, 0, 0] = .ok r ∧ r.w = 2 ∧ r.h = 3 ∧
    ∀ x < 3, ∀ y < 2, r.px (2 - 1 - y) x = z.px x y := ⟨_, _, rfl, rfl, rfl, rfl, by decide +kernel⟩

/-- C41: where to read the modules in a rotated image: downwards after a quarter turn, to the left after a half turn,
upwards after three quarter turns. -/
theorem C41_image_read_rotated (b : Build) (g : Image) (bytes : List Nat)
    (hw : bytes.length * g.xdim < 2 ^ 32) (hs : 4 * (bytes.length * g.xdim) * g.height < 2 ^ 63) :
    ∃ buf, generateBuffer b g bytes = .ok buf ∧ ∀ x y, x < buf.w → y < buf.h →
      buf.px x y = if bytes[(match g.rotation with
        | .zero => x
        | .ninety => y
        | .oneEighty => buf.w - 1 - x
        | .twoSeventy => buf.h - 1 - y) / g.xdim]? = some 0 then g.background else g.foreground := by
  refine ⟨_, placePixels_eq b g bytes hw hs, ?_⟩
  cases g.rotation with
  | zero => exact picture_px g bytes
  | ninety =>
    intro x y hx hy
    exact picture_px g bytes y (g.height - 1 - x) hy (by have : x < g.height := hx; omega)
  | oneEighty =>
    intro x y hx hy
    have h1 : x < bytes.length * g.xdim := hx
    have h2 : y < g.height := hy
    exact picture_px g bytes _ _ (by simp only [picture, painted]; omega)
      (by simp only [picture, painted]; omega)
  | twoSeventy =>
    intro x y hx hy
    have h1 : x < g.height := hx
    have h2 : y < bytes.length * g.xdim := hy
    exact picture_px g bytes _ _ (by simp only [picture, painted]; omega)
      (by omega)

example : ∃ buf, Image.generateBuffer .debug { Image.png 2 with rotation := .twoSeventy } [1, 0, 0] = .ok buf ∧ buf.h = 3 ∧
    buf.px 1 2 = Image.Color.black ∧ buf.px 0 0 = Image.Color.white := ⟨_, rfl, by decide +kernel⟩

/-! Overflow -/

/-- A loop panics if some step always panics and no step returns an error. -/
theorem foldO_panics {α β : Type} (f : β → α → Outcome β) (P : β → Prop) (l : List α) (init : β) (h0 : P init)
    (hstep : ∀ b a, a ∈ l → P b → (∃ b', f b a = .ok b' ∧ P b') ∨ (f b a).isPanic = true)
    (hbad : ∃ a ∈ l, ∀ b, P b → (f b a).isPanic = true) : (foldO f init l).isPanic = true := by
  induction l generalizing init with
  | nil => obtain ⟨a, ha, _⟩ := hbad; cases ha
  | cons a l ih =>
    rw [foldO]
    rcases hstep init a (by simp) h0 with ⟨b', hb', hP⟩ | hp
    · rw [hb', Outcome.ok_bind]
      refine ih b' hP (fun b c hc => hstep b c (by simp [hc])) ?_
      obtain ⟨c, hc, hcb⟩ := hbad
      rcases List.mem_cons.mp hc with rfl | hc
      · have := hcb init h0
        rw [hb'] at this
        cases this
      · exact ⟨c, hc, hcb⟩
    · cases h : f init a with
      | ok b' => rw [h] at hp; cases hp
      | err e => rw [h] at hp; cases hp
      | panic p => rfl

/-- A loop keeps an invariant or panics. -/
theorem foldO_keeps {α β : Type} (f : β → α → Outcome β) (P : β → Prop) (l : List α) (init : β) (h0 : P init)
    (hstep : ∀ b a, a ∈ l → P b → (∃ b', f b a = .ok b' ∧ P b') ∨ (f b a).isPanic = true) :
    (∃ b', foldO f init l = .ok b' ∧ P b') ∨ (foldO f init l).isPanic = true := by
  induction l generalizing init with
  | nil => exact Or.inl ⟨init, rfl, h0⟩
  | cons a l ih =>
    rw [foldO]
    rcases hstep init a (by simp) h0 with ⟨b', hb', hP⟩ | hp
    · rw [hb', Outcome.ok_bind]
      exact ih b' hP (fun b c hc => hstep b c (by simp [hc]))
    · right
      cases h : f init a with
      | ok b' => rw [h] at hp; cases hp
      | err e => rw [h] at hp; cases hp
      | panic p => rfl

theorem u32_cases (b : Build) (n : Nat) : (∃ m, u32 b n = .ok m) ∨ (u32 b n).isPanic = true := by
  unfold u32
  split
  · exact Or.inl ⟨_, rfl⟩
  · cases b
    · exact Or.inr rfl
    · exact Or.inl ⟨_, rfl⟩

theorem isPanic_bind {α β : Type} (x : Outcome α) (f : α → Outcome β) (h : x.isPanic = true) :
    (x >>= f).isPanic = true := by
  cases x with
  | ok a => cases h
  | err e => cases h
  | panic p => rfl

theorem putOne_keeps (b : Build) (xdim y i : Nat) (c : Color) (w : Nat) (buf : Buffer) (p : Nat) (hw : buf.w = w) :
    (∃ b', putOne b xdim y i c buf p = .ok b' ∧ b'.w = w) ∨ (putOne b xdim y i c buf p).isPanic = true := by
  unfold putOne
  rcases u32_cases b (asU32 i * xdim) with ⟨m, hm⟩ | hp
  · rw [hm, Outcome.ok_bind]
    rcases u32_cases b (m + p) with ⟨m', hm'⟩ | hp
    · rw [hm', Outcome.ok_bind, Buffer.putPixel]
      split
      · exact Or.inl ⟨_, rfl, hw⟩
      · exact Or.inr rfl
    · exact Or.inr (isPanic_bind _ _ hp)
  · exact Or.inr (isPanic_bind _ _ hp)

theorem putModule_keeps (b : Build) (xdim y : Nat) (bg fg : Color) (w : Nat) (buf : Buffer) (e : Nat × Nat)
    (hw : buf.w = w) :
    (∃ b', putModule b xdim y bg fg buf e = .ok b' ∧ b'.w = w) ∨ (putModule b xdim y bg fg buf e).isPanic = true :=
  foldO_keeps _ (fun buf : Buffer => buf.w = w) _ buf hw (fun buf p _ h => putOne_keeps b xdim y e.1 _ w buf p h)

theorem mem_enumFrom (l : List Nat) (k i : Nat) (h : i < l.length) : ∃ v, (k + i, v) ∈ enumFrom k l := by
  induction l generalizing k i with
  | nil => simp at h
  | cons a l ih =>
    cases i with
    | zero => exact ⟨a, by simp [enumFrom]⟩
    | succ i =>
      obtain ⟨v, hv⟩ := ih (k + 1) i (by simpa using h)
      exact ⟨v, by rw [enumFrom, show k + (i + 1) = k + 1 + i by omega]; exact List.mem_cons_of_mem _ hv⟩

theorem overflow_panics_on (b : Build) (g : Image) (bytes : List Nat) (t : Target) (hh : 0 < g.height) (hx : 0 < g.xdim)
    (hw : 2 ^ 32 ≤ bytes.length * g.xdim) : (generateBuffer b g bytes t).isPanic = true := by
  unfold generateBuffer placePixels
  have hu : ∀ n m, u32 b n = .ok m → m < 2 ^ 32 := by
    intro n m h
    unfold u32 at h
    split at h
    · cases h; assumption
    · cases b
      · cases h
      · cases h; exact Nat.mod_lt _ (by decide)
  rcases u32_cases b (asU32 bytes.length * g.xdim) with ⟨w, hm⟩ | hp
  · have hw32 := hu _ _ hm
    rw [hm, Outcome.ok_bind]
    unfold Buffer.new
    split
    · rw [Outcome.ok_bind]
      apply isPanic_bind
      refine foldO_panics _ (fun buf : Buffer => buf.w = w) _ _ rfl ?_ ?_
      · intro buf y _ hbw
        exact foldO_keeps _ (fun buf : Buffer => buf.w = w) _ buf hbw
          (fun buf e _ h => putModule_keeps b g.xdim y g.background g.foreground w buf e h)
      · refine ⟨0, List.mem_range.mpr hh, ?_⟩
        intro buf hbw
        have hlt : w / g.xdim < bytes.length := by rw [Nat.div_lt_iff_lt_mul hx]; omega
        obtain ⟨v, hv⟩ := mem_enumFrom bytes 0 (w / g.xdim) hlt
        rw [Nat.zero_add] at hv
        refine foldO_panics _ (fun buf : Buffer => buf.w = w) _ _ hbw
          (fun buf e _ h => putModule_keeps b g.xdim 0 g.background g.foreground w buf e h) ⟨_, hv, ?_⟩
        intro buf hbw
        refine foldO_panics _ (fun buf : Buffer => buf.w = w) _ _ hbw
          (fun buf p _ h => putOne_keeps b g.xdim 0 _ _ w buf p h)
          ⟨w % g.xdim, List.mem_range.mpr (Nat.mod_lt _ hx), ?_⟩
        intro buf hbw
        have hle : w / g.xdim ≤ w := Nat.div_le_self _ _
        have hdm : w / g.xdim * g.xdim + w % g.xdim = w := Nat.div_add_mod' w g.xdim
        unfold putOne
        simp only
        rw [asU32, Nat.mod_eq_of_lt (by omega), u32_ok b _ (by omega), Outcome.ok_bind, hdm, u32_ok b _ hw32,
          Outcome.ok_bind, Buffer.putPixel, if_neg (by omega)]
        rfl
    · rfl
  · exact isPanic_bind _ _ hp

/-- C42: if the width does not fit, both builds panic. -/
theorem C42_image_overflow_panics (b : Build) (g : Image) (bytes : List Nat) (hh : 0 < g.height) (hx : 0 < g.xdim)
    (hw : 2 ^ 32 ≤ bytes.length * g.xdim) : (generateBuffer b g bytes).isPanic = true :=
  overflow_panics_on b g bytes .bits64 hh hx hw

example : (Image.generateBuffer .release { Image.png 2 with xdim := 2 ^ 31 } [1, 0]).isPanic = true :=
  C42_image_overflow_panics _ _ _ (by decide) (by decide) (by decide)

theorem too_large_on (b : Build) (g : Image) (bytes : List Nat) (t : Target) (hw : bytes.length * g.xdim < 2 ^ 32)
    (hs : t.memory ≤ 4 * (bytes.length * g.xdim) * g.height) : generateBuffer b g bytes t = .panic .capacity := by
  unfold generateBuffer placePixels
  rw [asU32_len_mul _ _ hw, u32_ok b _ hw, Outcome.ok_bind, Buffer.new, if_neg (by omega)]
  rfl

/-- A picture that cannot be allocated is a panic, too. -/
theorem C42_image_too_large_panics (b : Build) (g : Image) (bytes : List Nat) (hw : bytes.length * g.xdim < 2 ^ 32)
    (hs : 2 ^ 63 ≤ 4 * (bytes.length * g.xdim) * g.height) : generateBuffer b g bytes = .panic .capacity :=
  too_large_on b g bytes .bits64 hw hs

example : Image.generateBuffer .debug { Image.png (2 ^ 32 - 1) with xdim := 2 ^ 31 } [1] = .panic .capacity :=
  C42_image_too_large_panics _ _ _ (by decide) (by decide)

/-- The overflow also reaches `generate`, so no file with a wrong picture is ever written. -/
theorem C42_image_overflow_generate (codec : Codec) (b : Build) (g : Image) (bytes : List Nat) (hh : 0 < g.height)
    (hx : 0 < g.xdim) (hw : 2 ^ 32 ≤ bytes.length * g.xdim) (hk : g.kind ≠ .imageBuffer) :
    (generate codec b g bytes).isPanic = true := by
  have h := C42_image_overflow_panics b g bytes hh hx hw
  unfold generateBuffer at h
  unfold generate
  cases hg : g.kind with
  | imageBuffer => exact absurd hg hk
  | gif => exact isPanic_bind _ _ h
  | png => exact isPanic_bind _ _ h
  | webp => exact isPanic_bind _ _ h

example : (Image.generate (fun _ _ => some [1]) .debug { Image.png 2 with xdim := 2 ^ 31 } [1, 0]).isPanic = true := by
  decide +kernel

/-- C42, whatever the sizes: a picture that is returned is right in every pixel and, unless it has no rows at all, has the
right size. -/
theorem C42_image_never_wrong (b : Build) (g : Image) (bytes : List Nat) (buf : Buffer)
    (h : generateBuffer b g bytes = .ok buf) :
    (0 < g.height → (buf.w, buf.h) = (match g.rotation with
      | .zero | .oneEighty => (bytes.length * g.xdim, g.height)
      | .ninety | .twoSeventy => (g.height, bytes.length * g.xdim))) ∧
    ∀ x y, x < buf.w → y < buf.h →
      buf.px x y = if bytes[(match g.rotation with
        | .zero => x
        | .ninety => y
        | .oneEighty => buf.w - 1 - x
        | .twoSeventy => buf.h - 1 - y) / g.xdim]? = some 0 then g.background else g.foreground := by
  by_cases hw : bytes.length * g.xdim < 2 ^ 32
  · by_cases hs : 4 * (bytes.length * g.xdim) * g.height < 2 ^ 63
    · obtain ⟨buf', h', hp⟩ := C41_image_read_rotated b g bytes hw hs
      rw [h, Outcome.ok.injEq] at h'
      subst h'
      refine ⟨fun _ => ?_, hp⟩
      rw [generateBuffer, placePixels_eq b g bytes hw hs, Outcome.ok.injEq] at h
      subst h
      cases g.rotation <;> rfl
    · rw [C42_image_too_large_panics b g bytes hw (by omega)] at h
      cases h
  · have hx : 0 < g.xdim := Nat.pos_of_ne_zero (fun h0 => hw (by rw [h0, Nat.mul_zero]; decide))
    by_cases hh : 0 < g.height
    · have := C42_image_overflow_panics b g bytes hh hx (by omega)
      rw [h] at this
      cases this
    · refine ⟨fun h0 => absurd h0 hh, ?_⟩
      have h0 : g.height = 0 := by omega
      have hz : buf.w = 0 ∨ buf.h = 0 := by
        unfold generateBuffer placePixels at h
        cases hu : u32 b (asU32 bytes.length * g.xdim) with
        | err e => rw [hu] at h; cases h
        | panic p => rw [hu] at h; cases h
        | ok w =>
          rw [hu, Outcome.ok_bind, Buffer.new, h0, Nat.mul_zero, if_pos (by decide)] at h
          simp only [Outcome.ok_bind, List.range_zero, foldO] at h
          cases hr : g.rotation <;> rw [hr] at h <;> cases h <;> simp [Buffer.rotate90, Buffer.rotate180, Buffer.rotate270]
      intro x y h1 h2
      omega

example : ∃ buf, Image.generateBuffer .release { Image.png 0 with xdim := 2 ^ 31 } [1, 0] = .ok buf ∧ buf.h = 0 := ⟨_, rfl, rfl⟩

/-- C43: what `generate` returns, for any codec: the bytes of the codec for the picture of `generate_buffer` in the
format of the variant, `Err(Generate)` if the codec fails, and always `Err(Generate)` for `ImageBuffer`. -/
theorem C43_image_generate (codec : Codec) (b : Build) (g : Image) (bytes : List Nat) :
    (g.kind = .imageBuffer → generate codec b g bytes = .err .generate) ∧
    (∀ f, (g.kind = .gif ∧ f = .gif ∨ g.kind = .png ∧ f = .png ∨ g.kind = .webp ∧ f = .webp) →
      (∀ buf out, generateBuffer b g bytes = .ok buf → codec f buf = some out → generate codec b g bytes = .ok out) ∧
      (∀ buf, generateBuffer b g bytes = .ok buf → codec f buf = none → generate codec b g bytes = .err .generate) ∧
      (∀ p, generateBuffer b g bytes = .panic p → generate codec b g bytes = .panic p)) := by
  constructor
  · intro h
    unfold generate
    rw [h]
  · have key : ∀ f, (g.kind = .gif ∧ f = .gif ∨ g.kind = .png ∧ f = .png ∨ g.kind = .webp ∧ f = .webp) →
        generate codec b g bytes = (placePixels b g bytes >>= fun img =>
          match codec f img with
          | some bytes => .ok bytes
          | none => .err .generate) := by
      rintro f (⟨h, rfl⟩ | ⟨h, rfl⟩ | ⟨h, rfl⟩) <;> (unfold generate; rw [h]; rfl)
    intro f hf
    rw [key f hf]
    refine ⟨?_, ?_, ?_⟩
    · intro buf out h1 h2
      unfold generateBuffer at h1
      rw [h1, Outcome.ok_bind, h2]
    · intro buf h1 h2
      unfold generateBuffer at h1
      rw [h1, Outcome.ok_bind, h2]
    · intro p h1
      unfold generateBuffer at h1
      rw [h1]
      rfl

example : Image.generate (fun _ _ => some [1]) .debug (Image.imageBuffer 1) [1, 0] = .err .generate ∧
    Image.generate (fun f _ => if f = .gif then some [1] else none) .debug (Image.gif 1) [1, 0] = .ok [1] ∧
    Image.generate (fun f _ => if f = .gif then some [1] else none) .debug (Image.png 1) [1, 0] = .err .generate := by
  decide +kernel

/-- The constructors choose the variant, and otherwise the documented defaults. -/
theorem C43_image_constructors (h : Nat) :
    (gif h).kind = .gif ∧ (png h).kind = .png ∧ (webp h).kind = .webp ∧ (imageBuffer h).kind = .imageBuffer ∧
    ∀ g ∈ [gif h, png h, webp h, imageBuffer h],
      g.height = h ∧ g.xdim = 1 ∧ g.rotation = .zero ∧ g.foreground = Color.black ∧ g.background = Color.white := by
  refine ⟨rfl, rfl, rfl, rfl, ?_⟩
  intro g hg
  simp only [List.mem_cons, List.not_mem_nil, or_false] at hg
  rcases hg with rfl | rfl | rfl | rfl <;> exact ⟨rfl, rfl, rfl, rfl, rfl⟩

/-! Concrete cases -/

/-- A picture of 3 modules, 2 pixels wide each, 2 rows, turned by a quarter. -/
def exampleImage (r : Rotation) : List (List Color) :=
  match generateBuffer .release { gif 2 with xdim := 2, rotation := r } [1, 0, 7] with
  | .ok buf => (List.range buf.h).map (fun y => (List.range buf.w).map (fun x => buf.px x y))
  | _ => []
example :
    exampleImage .zero = List.replicate 2 [.black, .black, .white, .white, .black, .black] ∧
    exampleImage .ninety =
      [[.black, .black], [.black, .black], [.white, .white], [.white, .white], [.black, .black], [.black, .black]] := by
  decide +kernel
/-- `2 * 2^31` does not fit. -/
example : (2 : Nat) ^ 32 ≤ [1, 0].length * 2 ^ 31 := by decide

end Barcoders
