/-!
# Scratches

A scratch, a fold or a blot destroys one stretch of a row: whatever was printed there, anything may be seen instead. The rest of
the row, and its length, stay as they are.
-/

set_option autoImplicit false

namespace Spec

/-- `ms'` is `ms` with one stretch of at most `n` modules (or pixels, or characters) overwritten. -/
def Scratched {α : Type} (n : Nat) (ms ms' : List α) : Prop :=
  ∃ u v v' w, ms = u ++ v ++ w ∧ ms' = u ++ v' ++ w ∧ v'.length = v.length ∧ v.length ≤ n

example : Scratched 3 [1, 0, 1, 0, 1, 1, 0] [1, 0, 0, 1, 0, 1, 0] :=
  ⟨[1, 0], [1, 0, 1], [0, 1, 0], [1, 0], rfl, rfl, rfl, by decide⟩

end Spec
