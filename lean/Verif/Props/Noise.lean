import Verif.Spec.Noise
import Verif.Spec.Beam
import Verif.Props.Damage

/-!
# C108: noise

Every pixel of a generated image may change, by less than half the distance of the two colours, and still every line reads as
before. If the pixels of a module vote, fewer than half of them may moreover change altogether.
-/

set_option autoImplicit false

namespace Barcoders
open Spec

/-- The four bytes of a colour. -/
def colourBytes (c : Image.Color) : Nat × Nat × Nat × Nat := (c.r.val, c.g.val, c.b.val, c.a.val)

theorem colourBytes_inj (c d : Image.Color) (h : colourBytes c = colourBytes d) : c = d := by
  obtain ⟨a1, a2, a3, a4⟩ := c
  obtain ⟨b1, b2, b3, b4⟩ := d
  simp only [colourBytes, Prod.mk.injEq] at h
  simp only [Image.Color.mk.injEq]
  exact ⟨Fin.ext h.1, Fin.ext h.2.1, Fin.ext h.2.2.1, Fin.ext h.2.2.2⟩

theorem colourDistance_self (c : Nat × Nat × Nat × Nat) : colourDistance c c = 0 := by simp [colourDistance]

theorem colourDistance_comm (c d : Nat × Nat × Nat × Nat) : colourDistance c d = colourDistance d c := by
  simp only [colourDistance]
  omega

theorem colourDistance_triangle (c d e : Nat × Nat × Nat × Nat) :
    colourDistance c e ≤ colourDistance c d + colourDistance d e := by
  have h : ∀ a b c : Nat, (a - c) + (c - a) ≤ ((a - b) + (b - a)) + ((b - c) + (c - b)) := by omega
  simp only [colourDistance]
  refine Nat.le_trans (Nat.add_le_add (Nat.add_le_add (Nat.add_le_add (h _ d.1 _) (h _ d.2.1 _)) (h _ d.2.2.1 _))
    (h _ d.2.2.2 _)) (Nat.le_of_eq ?_)
  ac_rfl

/-- A colour that has changed by less than half the distance of the two is taken for the right one. -/
theorem nearer_of_noise (bar space c c' : Nat × Nat × Nat × Nat) (hc : c = bar ∨ c = space)
    (hn : 2 * colourDistance c c' < colourDistance bar space) : nearerTo bar space c' = decide (c ≠ space) := by
  have hne : bar ≠ space := by
    rintro rfl
    rw [colourDistance_self] at hn
    omega
  unfold nearerTo
  rcases hc with rfl | rfl
  · have h1 := colourDistance_triangle c c' space
    rw [colourDistance_comm c' c]
    simp only [decide_eq_decide]
    exact iff_of_true (by omega) hne
  · have h1 := colourDistance_triangle bar c' c
    rw [colourDistance_comm c c'] at hn
    rw [colourDistance_comm bar c'] at h1
    simp only [decide_eq_decide]
    exact iff_of_false (by omega) (by simp)

/-! ## Voting -/

theorem vote_of_few (bit : Bool) (good : List Bool) (cells : List Bool) (hl : good.length = cells.length)
    (hg : ∀ p ∈ good.zip cells, p.1 = true → p.2 = bit) (hf : 2 * good.count false < cells.length) :
    vote cells = if bit then 1 else 0 := by
  have key : ∀ (good cells : List Bool), good.length = cells.length →
      (∀ p ∈ good.zip cells, p.1 = true → p.2 = bit) → cells.length ≤ cells.count bit + good.count false := by
    intro good
    induction good with
    | nil =>
      intro cells h _
      cases cells with
      | nil => simp
      | cons c cs => simp at h
    | cons g gs ih =>
      intro cells h hg
      cases cells with
      | nil => simp
      | cons c cs =>
        have h1 := ih cs (by simpa using h) (fun p hp => hg p (by rw [List.zip_cons_cons]; exact List.mem_cons_of_mem _ hp))
        have h2 := hg (g, c) (by rw [List.zip_cons_cons]; exact List.mem_cons_self)
        simp only [List.length_cons, List.count_cons]
        cases g
        · simp
          omega
        · have h2 := h2 rfl
          simp only at h2
          subst h2
          simp
          omega
  have h1 := key good cells hl hg
  have h2 : cells.count true + cells.count false = cells.length := by
    clear hl hg hf h1
    induction cells with
    | nil => rfl
    | cons c cs ih => cases c <;> simp <;> omega
  unfold vote
  cases bit
  · rw [if_neg (by omega)]; rfl
  · rw [if_pos (by omega)]; rfl

theorem drop_take_stretch (x : Nat) (ms : List Nat) (i : Nat) (hi : i < ms.length) :
    ((stretch x ms).drop (i * x)).take x = List.replicate x ms[i] := by
  induction ms generalizing i with
  | nil => simp at hi
  | cons m ms ih =>
    cases i with
    | zero => simp [stretch, List.flatMap_cons]
    | succ i =>
      have e : stretch x (m :: ms) = List.replicate x m ++ stretch x ms := by simp [stretch]
      rw [e, Nat.succ_mul, Nat.add_comm, ← List.drop_drop, List.drop_left' (by simp), ih i (by simpa using hi)]
      simp

/-- The lines `L` show the row `ms`; the lines `L'` are as long. If in every module fewer than half of the cells are misjudged,
the vote gives the row. -/
theorem voteRow_of {α : Type} (dark : α → Bool) (judge : α → Bool) (ok : α → α → Bool)
    (x : Nat) (ms : List Nat) (hbin : ∀ m ∈ ms, m = 0 ∨ m = 1) (L L' : List (List α))
    (hj : ∀ l ∈ L, ∀ c ∈ l, ∀ c', ok c c' = true → judge c' = dark c) (hl : ∀ l ∈ L, l.map (fun c => if dark c then 1 else 0) = stretch x ms)
    (hlen : L'.map List.length = L.map List.length)
    (hf : ∀ i < ms.length, 2 * ((moduleCells x i L).zip (moduleCells x i L')).countP (fun p => !ok p.1 p.2) < x * L.length) :
    voteRow ms.length x (L'.map (fun l => l.map judge)) = ms := by
  apply List.ext_getElem
  · simp [voteRow]
  intro i h1 h2
  simp only [voteRow, List.getElem_map, List.getElem_range]
  have hcells : moduleCells x i (L'.map (fun l => l.map judge)) = (moduleCells x i L').map judge := by
    simp only [moduleCells, List.flatMap_map, List.map_flatMap, List.map_take, List.map_drop]
  have hd : ∀ c ∈ moduleCells x i L, dark c = decide (ms[i] = 1) := by
    intro c hc
    obtain ⟨l, hl1, hl2⟩ := List.mem_flatMap.mp hc
    have e := drop_take_stretch x ms i h2
    rw [← hl l hl1, ← List.map_drop, ← List.map_take] at e
    have : (if dark c then 1 else 0) ∈ List.replicate x ms[i] := by
      rw [← e]; exact List.mem_map_of_mem hl2
    have := List.eq_of_mem_replicate this
    cases hdc : dark c <;> rw [hdc] at this <;> simp at this <;> simp [← this]
  have hlens : ∀ L : List (List α), (∀ l ∈ L, l.length = (stretch x ms).length) → (moduleCells x i L).length = x * L.length := by
    intro L hL
    have e := congrArg List.length (drop_take_stretch x ms i h2)
    simp only [List.length_take, List.length_drop, List.length_replicate] at e
    induction L with
    | nil => simp [moduleCells]
    | cons l L ih =>
      have ih := ih (fun l' h => hL l' (List.mem_cons_of_mem _ h))
      simp only [moduleCells] at ih
      simp only [moduleCells, List.flatMap_cons, List.length_append, ih, List.length_take, List.length_drop, List.length_cons,
        hL l List.mem_cons_self, e, Nat.mul_succ]
      omega
  have hL : ∀ l ∈ L, l.length = (stretch x ms).length := fun l h => by rw [← hl l h, List.length_map]
  have hL' : ∀ l ∈ L', l.length = (stretch x ms).length := by
    intro l h
    have : l.length ∈ L.map List.length := by rw [← hlen]; exact List.mem_map_of_mem h
    obtain ⟨l', h3, h4⟩ := List.mem_map.mp this
    rw [← h4]; exact hL l' h3
  have hn : L'.length = L.length := by have := congrArg List.length hlen; simpa using this
  have n1 := hlens L hL
  have n2 := hlens L' hL'
  rw [hn] at n2
  have hf := hf i h2
  rw [hcells, vote_of_few (decide (ms[i] = 1)) (((moduleCells x i L).zip (moduleCells x i L')).map (fun p => ok p.1 p.2))]
  · rcases hbin _ (List.getElem_mem h2) with h | h <;> simp [h]
  · simp [n1, n2]
  · intro p hp hp1
    obtain ⟨k, hk, rfl⟩ := List.getElem_of_mem hp
    simp only [List.getElem_zip, List.getElem_map] at hp1 ⊢
    have hk' : k < (moduleCells x i L).length := by simp at hk; omega
    obtain ⟨l, hl1, hl2⟩ := List.mem_flatMap.mp (List.getElem_mem hk')
    rw [hj l hl1 _ (List.mem_of_mem_drop (List.mem_of_mem_take hl2)) _ hp1, hd _ (List.getElem_mem hk')]
  · rw [List.length_map, n2]
    have : (((moduleCells x i L).zip (moduleCells x i L')).map (fun p => ok p.1 p.2)).count false =
        ((moduleCells x i L).zip (moduleCells x i L')).countP (fun p => !ok p.1 p.2) := by
      rw [List.count, List.countP_map]
      congr 1
      funext p
      cases h : ok p.1 p.2 <;> simp [h]
    rw [this]
    exact hf

/-! ## Images -/

/-- The lines of a generated image across its bars. -/
theorem image_colour_lines (b : Build) (g : Image.Image) (ms : List Nat) (hbin : ∀ m ∈ ms, m = 0 ∨ m = 1) (hx : 0 < g.xdim)
    (hne : g.foreground ≠ g.background) (hsz : ms.length * g.xdim < 2 ^ 32)
    (hs : 4 * (ms.length * g.xdim) * g.height < 2 ^ 63) :
    ∃ buf, Image.generateBuffer b g ms = .ok buf ∧ lineCount buf.w buf.h (headingOf g.rotation) = g.height ∧
      (∀ j < g.height, (pictureLine buf.w buf.h buf.px j (headingOf g.rotation)).map
        (fun c => if decide (c ≠ g.background) then 1 else 0) = stretch g.xdim ms) ∧
      ∀ x y, x < buf.w → y < buf.h → buf.px x y = g.foreground ∨ buf.px x y = g.background := by
  obtain ⟨buf, h1, h2, h3⟩ := (C44_generators_agree ms hbin).image b g hx hne hsz hs
  refine ⟨buf, h1, h2, fun j hj => ?_, fun x y hxw hy => ?_⟩
  · have hl := readAllFrom_uniform_inv g.xdim [] _ ms hx (h3 j hj)
    rw [List.nil_append] at hl
    rw [← hl]
    apply List.map_congr_left
    intro c _
    by_cases hc : c = g.background <;> simp [hc]
  · rw [(C42_image_never_wrong b g ms buf h1).2 x y hxw hy]
    have key : ∀ (p : Prop) [Decidable p], (if p then g.background else g.foreground) = g.foreground ∨
        (if p then g.background else g.foreground) = g.background := by
      intro p _
      by_cases hp : p
      · exact Or.inr (if_pos hp)
      · exact Or.inl (if_neg hp)
    exact key _

theorem pictureLine_mem {α : Type} (w h : Nat) (px : Nat → Nat → α) (d : Heading) (j : Nat) (hj : j < lineCount w h d) (c : α)
    (hc : c ∈ pictureLine w h px j d) : ∃ x y, x < w ∧ y < h ∧ c = px x y := by
  cases d <;> simp only [lineCount] at hj <;> simp only [pictureLine, List.mem_map, List.mem_range] at hc <;>
    obtain ⟨i, hi, rfl⟩ := hc
  · exact ⟨_, _, hi, hj, rfl⟩
  · exact ⟨_, _, hj, hi, rfl⟩
  · exact ⟨_, _, by omega, hj, rfl⟩
  · exact ⟨_, _, hj, by omega, rfl⟩

theorem pictureLine_length {α : Type} (w h : Nat) (px px' : Nat → Nat → α) (d : Heading) (j : Nat) :
    (pictureLine w h px' j d).length = (pictureLine w h px j d).length := by
  cases d <;> simp [pictureLine]

/-- C108. Change the colour of every pixel of a generated image by less than half the distance of foreground and background. Then
the colour that each pixel is nearer to is the one it had, so nothing that is read from the picture, along any line, changes. -/
theorem C108_pixels (ms : List Nat) (hbin : ∀ m ∈ ms, m = 0 ∨ m = 1) (b : Build) (g : Image.Image) (hx : 0 < g.xdim)
    (hne : g.foreground ≠ g.background) (hsz : ms.length * g.xdim < 2 ^ 32)
    (hs : 4 * (ms.length * g.xdim) * g.height < 2 ^ 63) :
    ∃ buf, Image.generateBuffer b g ms = .ok buf ∧
      ∀ (c' : Image.Color) (x y : Nat), x < buf.w → y < buf.h →
        2 * colourDistance (colourBytes (buf.px x y)) (colourBytes c') <
          colourDistance (colourBytes g.foreground) (colourBytes g.background) →
        (if nearerTo (colourBytes g.foreground) (colourBytes g.background) (colourBytes c') then g.foreground else g.background) =
          buf.px x y := by
  obtain ⟨buf, h1, h2, h3, h4⟩ := image_colour_lines b g ms hbin hx hne hsz hs
  refine ⟨buf, h1, fun c' x y hxw hy hn => ?_⟩
  rw [nearer_of_noise _ _ (colourBytes (buf.px x y)) _ ((h4 x y hxw hy).imp (congrArg _) (congrArg _)) hn]
  rcases h4 x y hxw hy with h | h <;> rw [h]
  · have hc : colourBytes g.foreground ≠ colourBytes g.background := fun e => hne (colourBytes_inj _ _ e)
    simp [hc]
  · rw [if_neg (by simp)]

/-- C108. Change the colour of every pixel of a generated image by less than half the distance of foreground and background.
Then every line across the bars still gives the modules, each as often as the module is wide, if every pixel is taken for the
colour it is nearer to. -/
theorem C108_noise (ms : List Nat) (hbin : ∀ m ∈ ms, m = 0 ∨ m = 1) (b : Build) (g : Image.Image) (hx : 0 < g.xdim)
    (hne : g.foreground ≠ g.background) (hsz : ms.length * g.xdim < 2 ^ 32)
    (hs : 4 * (ms.length * g.xdim) * g.height < 2 ^ 63) :
    ∃ buf, Image.generateBuffer b g ms = .ok buf ∧ lineCount buf.w buf.h (headingOf g.rotation) = g.height ∧
      ∀ px' : Nat → Nat → Image.Color,
        (∀ x y, x < buf.w → y < buf.h → 2 * colourDistance (colourBytes (buf.px x y)) (colourBytes (px' x y)) <
          colourDistance (colourBytes g.foreground) (colourBytes g.background)) →
        ∀ j < g.height, (pictureLine buf.w buf.h px' j (headingOf g.rotation)).map
          (fun c => if nearerTo (colourBytes g.foreground) (colourBytes g.background) (colourBytes c) then 1 else 0) =
            stretch g.xdim ms := by
  obtain ⟨buf, h1, h2, h3, h4⟩ := image_colour_lines b g ms hbin hx hne hsz hs
  refine ⟨buf, h1, h2, fun px' hn j hj => ?_⟩
  rw [← h3 j hj]
  have hpt : ∀ x y, x < buf.w → y < buf.h →
      (if nearerTo (colourBytes g.foreground) (colourBytes g.background) (colourBytes (px' x y)) then 1 else 0) =
        if decide (buf.px x y ≠ g.background) then 1 else 0 := by
    intro x y hxw hy
    rw [nearer_of_noise _ _ (colourBytes (buf.px x y)) _ ((h4 x y hxw hy).imp (congrArg _) (congrArg _)) (hn x y hxw hy)]
    by_cases hc : buf.px x y = g.background
    · simp [hc]
    · have : ¬ colourBytes (buf.px x y) = colourBytes g.background := fun h => hc (colourBytes_inj _ _ h)
      simp [hc, this]
  rw [← h2] at hj
  revert hj
  cases headingOf g.rotation <;> intro hj <;> simp only [lineCount] at hj <;> simp only [pictureLine, List.map_map] <;>
    apply List.map_congr_left <;> intro i hi <;> rw [List.mem_range] at hi <;> simp only [Function.comp_apply]
  · exact hpt _ _ hi hj
  · exact hpt _ _ hj hi
  · exact hpt _ _ (by omega) hj
  · exact hpt _ _ hj (by omega)

/-- C108. So a hand-held reader gets the data from every line, in both directions. -/
theorem C108_read {α : Type} (ms : List Nat) (hbin : ∀ m ∈ ms, m = 0 ∨ m = 1) (scan : List Nat → Option α) (t : α)
    (hr : Readable scan ms t) (b : Build) (g : Image.Image) (hx : 0 < g.xdim)
    (hne : g.foreground ≠ g.background) (hsz : ms.length * g.xdim < 2 ^ 32)
    (hs : 4 * (ms.length * g.xdim) * g.height < 2 ^ 63) :
    ∃ buf, Image.generateBuffer b g ms = .ok buf ∧
      ∀ px' : Nat → Nat → Image.Color,
        (∀ x y, x < buf.w → y < buf.h → 2 * colourDistance (colourBytes (buf.px x y)) (colourBytes (px' x y)) <
          colourDistance (colourBytes g.foreground) (colourBytes g.background)) →
        ∀ j < g.height, ∀ q r, ReadsBoth scan (List.replicate q 0 ++ ((pictureLine buf.w buf.h px' j (headingOf g.rotation)).map
          (fun c => if nearerTo (colourBytes g.foreground) (colourBytes g.background) (colourBytes c) then 1 else 0)) ++
            List.replicate r 0) t := by
  obtain ⟨buf, h1, -, h3⟩ := C108_noise ms hbin b g hx hne hsz hs
  refine ⟨buf, h1, fun px' hn j hj q r => ?_⟩
  rw [h3 px' hn j hj]
  exact hr q g.xdim r hx

/-- C108. Moreover fewer than half of the pixels of each module may have any colour at all, if the pixels of a module vote. -/
theorem C108_vote (ms : List Nat) (hbin : ∀ m ∈ ms, m = 0 ∨ m = 1) (b : Build) (g : Image.Image) (hx : 0 < g.xdim)
    (hne : g.foreground ≠ g.background) (hsz : ms.length * g.xdim < 2 ^ 32)
    (hs : 4 * (ms.length * g.xdim) * g.height < 2 ^ 63) :
    ∃ buf, Image.generateBuffer b g ms = .ok buf ∧ lineCount buf.w buf.h (headingOf g.rotation) = g.height ∧
      ∀ px' : Nat → Nat → Image.Color,
        (∀ i < ms.length, 2 * ((moduleCells g.xdim i ((List.range g.height).map
              (fun j => pictureLine buf.w buf.h buf.px j (headingOf g.rotation)))).zip
            (moduleCells g.xdim i ((List.range g.height).map
              (fun j => pictureLine buf.w buf.h px' j (headingOf g.rotation))))).countP
            (fun p => ! decide (2 * colourDistance (colourBytes p.1) (colourBytes p.2) <
              colourDistance (colourBytes g.foreground) (colourBytes g.background))) < g.xdim * g.height) →
        voteRow ms.length g.xdim ((List.range g.height).map (fun j =>
          (pictureLine buf.w buf.h px' j (headingOf g.rotation)).map
            (fun c => nearerTo (colourBytes g.foreground) (colourBytes g.background) (colourBytes c)))) = ms := by
  obtain ⟨buf, h1, h2, h3, h4⟩ := image_colour_lines b g ms hbin hx hne hsz hs
  refine ⟨buf, h1, h2, fun px' hf => ?_⟩
  have := voteRow_of (fun c => decide (c ≠ g.background))
    (fun c => nearerTo (colourBytes g.foreground) (colourBytes g.background) (colourBytes c))
    (fun c c' => decide (2 * colourDistance (colourBytes c) (colourBytes c') <
      colourDistance (colourBytes g.foreground) (colourBytes g.background))) g.xdim ms hbin
    ((List.range g.height).map (fun j => pictureLine buf.w buf.h buf.px j (headingOf g.rotation)))
    ((List.range g.height).map (fun j => pictureLine buf.w buf.h px' j (headingOf g.rotation))) ?_ ?_ ?_ (by simpa using hf)
  · rw [List.map_map] at this
    exact this
  · intro l hl c hc c' hok
    obtain ⟨j, hj, rfl⟩ := List.mem_map.mp hl
    obtain ⟨x, y, hxw, hy, rfl⟩ := pictureLine_mem _ _ _ _ j (by rw [h2]; exact List.mem_range.mp hj) c hc
    rw [nearer_of_noise _ _ (colourBytes (buf.px x y)) _ ((h4 x y hxw hy).imp (congrArg _) (congrArg _))
      (of_decide_eq_true hok), decide_eq_decide]
    exact not_congr ⟨colourBytes_inj _ _, congrArg _⟩
  · intro l hl
    obtain ⟨j, hj, rfl⟩ := List.mem_map.mp hl
    exact h3 j (List.mem_range.mp hj)
  · simp only [List.map_map]
    apply List.map_congr_left
    intro j _
    exact pictureLine_length _ _ _ _ _ _

/-- An opaque grey. -/
def grey (n : Fin 256) : Image.Color := ⟨n, n, n, 255⟩

/-- Black on white, two pixels per module, three rows; in each of the modules two pixels of six are wrong. -/
example : ∃ buf, Image.generateBuffer .debug { Image.png 3 with xdim := 2 } [1, 0, 1] = .ok buf ∧
    voteRow 3 2 ((List.range 3).map (fun j => (pictureLine buf.w buf.h
      (fun x y => if y = 1 then (if buf.px x y = grey 0 then grey 200 else grey 3) else
        if buf.px x y = grey 0 then grey 100 else grey 150) j .right).map
      (fun c => nearerTo (colourBytes (grey 0)) (colourBytes (grey 255)) (colourBytes c)))) = [1, 0, 1] ∧
    (pictureLine buf.w buf.h (fun x y => if buf.px x y = grey 0 then grey 127 else grey 128) 2 .right).map
      (fun c => if nearerTo (colourBytes (grey 0)) (colourBytes (grey 255)) (colourBytes c) then 1 else 0) = [1, 1, 0, 0, 1, 1] :=
  ⟨_, rfl, by decide +kernel, by decide +kernel⟩

/-- C108. The bounds are sharp: a bar changed by exactly half the distance is lost, and so is one with half of its pixels wrong. -/
theorem C108_sharp : ∃ buf, Image.generateBuffer .debug { Image.png 2 with foreground := grey 10, background := grey 20 } [1] = .ok buf ∧
    2 * colourDistance (colourBytes (grey 10)) (colourBytes (grey 15)) =
      colourDistance (colourBytes (grey 10)) (colourBytes (grey 20)) ∧
    nearerTo (colourBytes (grey 10)) (colourBytes (grey 20)) (colourBytes (grey 15)) = false ∧
    voteRow 1 1 ((List.range 2).map (fun j => (pictureLine buf.w buf.h
      (fun x y => if y = 1 then grey 20 else buf.px x y) j .right).map
      (fun c => nearerTo (colourBytes (grey 10)) (colourBytes (grey 20)) (colourBytes c)))) = [0] :=
  ⟨_, rfl, by decide, by decide, by decide +kernel⟩

end Barcoders
