/-!
# Ink (C119)

A pen stroke, a stain or a second label printed on top of the first only adds ink; a worn label only loses it.
-/

set_option autoImplicit false

namespace Spec

/-- The number of dark modules of a row. -/
def ink (ms : List Nat) : Nat := ms.countP (fun m => m == 1)

/-- The second row is the first with some light modules (or none) made dark. -/
def InkAdded (ms ms' : List Nat) : Prop := ms.length = ms'.length ∧ ∀ i : Nat, ms[i]? = some 1 → ms'[i]? = some 1

/-- Two rows printed on top of each other. -/
def overprint (ms ms' : List Nat) : List Nat := List.zipWith (fun a b => if a = 1 ∨ b = 1 then 1 else 0) ms ms'

example : InkAdded [1, 0, 0] [1, 0, 1] ∧ ¬ InkAdded [1, 0, 1] [1, 1, 0] := by
  refine ⟨⟨rfl, fun i => ?_⟩, fun h => ?_⟩
  · match i with
    | 0 => simp
    | 1 => simp
    | 2 => simp
    | n + 3 => simp
  · have := h.2 2
    simp at this

example : overprint [1, 0, 0, 1] [0, 0, 1, 1] = [1, 0, 1, 1] := rfl

/-- The characters of Code 39 that are drawn with narrow bars only. -/
def lightCode39 : List Char := ['$', '/', '+', '%']

end Spec
