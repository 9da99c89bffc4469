/-!
# Resized pictures

A picture shown at another size (a browser, a printer, a word processor): every new pixel has the colour of one of the old
pixels that it covers at least in part. All kinds of nearest-neighbour scaling do this, by whole or broken factors, also if they
differ from pixel to pixel; so does drawing a picture of rectangles on a grid of pixels.
-/

set_option autoImplicit false

namespace Spec

/-- Two rows of `n` and of `m` pixels are laid over the same stretch: pixel `i` of the first and pixel `s` of the second have
more than a point in common. -/
def Overlap (n m i s : Nat) : Prop := i * m < (s + 1) * n ∧ s * n < (i + 1) * m

-- five pixels over two: the third lies across the middle
example : (List.range 5).map (fun i => ((List.range 2).filter (fun s => i * 2 < (s + 1) * 5 ∧ s * 5 < (i + 1) * 2))) =
    [[0], [0], [0, 1], [1], [1]] := by decide

/-- The picture `px'` of size `w'` by `h'` is `px` of size `w` by `h`, resized. -/
def Resized {α : Type} (w h : Nat) (px : Nat → Nat → α) (w' h' : Nat) (px' : Nat → Nat → α) : Prop :=
  ∀ i j, i < w' → j < h' → ∃ x y, x < w ∧ y < h ∧ Overlap w' w i x ∧ Overlap h' h j y ∧ px' i j = px x y

/-- Sample a line in the middle of each of `n` equal parts. -/
def centres (n : Nat) (line : List Nat) : List Nat :=
  (List.range n).map (fun m => line.getD ((2 * m + 1) * line.length / (2 * n)) 0)

example : centres 3 [1, 1, 1, 0, 0, 1, 1, 1] = [1, 0, 1] := by decide

end Spec
