/-!
# Characters lost and characters seen twice (C118)

A stretch of a row of modules is missing, as when paper slips under a reader or a decoder loses count, or is there twice.
-/

set_option autoImplicit false

namespace Spec

/-- The row without the `w` modules that begin at module `i`. -/
def withoutStretch (i w : Nat) (ms : List Nat) : List Nat := ms.take i ++ ms.drop (i + w)

/-- The row in which the `w` modules that begin at module `i` come twice. -/
def stretchTwice (i w : Nat) (ms : List Nat) : List Nat := ms.take (i + w) ++ ms.drop i

example : withoutStretch 1 2 [5, 6, 7, 8] = [5, 8] := rfl
example : stretchTwice 1 2 [5, 6, 7, 8] = [5, 6, 7, 6, 7, 8] := rfl

end Spec
