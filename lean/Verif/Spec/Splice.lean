/-!
# Parts of two labels (C120)

A reader that puts a symbol together from several passes, or a label half covered by another one, can join the first part of one
row of modules to the last part of another.
-/

set_option autoImplicit false

namespace Spec

/-- The first `i` modules of one row and what follows the first `j` modules of another. -/
def spliced (i j : Nat) (ms ms' : List Nat) : List Nat := ms.take i ++ ms'.drop j

example : spliced 2 1 [5, 6, 7] [8, 9] = [5, 6, 9] := rfl

end Spec
