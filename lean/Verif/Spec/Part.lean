import Verif.Spec.HandScan

/-!
# A beam that crosses a part of the symbol

A slanted beam leaves the symbol through its upper or lower edge, or starts in the middle of it: it sees white paper, a part of
a line across the bars, and white paper again. Nothing here mentions the model of the code.
-/

set_option autoImplicit false

namespace Spec

/-- What the beam sees. -/
def crossing (q : Nat) (part : List Nat) (r : Nat) : List Nat := List.replicate q 0 ++ part ++ List.replicate r 0

/-- At every module width, a reader that sees a part of the row `ms` reads something only if the part is the whole row. -/
def OnlyWhole {α : Type} (scan : List Nat → Option α) (ms : List Nat) : Prop :=
  ∀ (x q r : Nat) (part : List Nat) (t : α), 0 < x → part <:+: stretch x ms → handScan scan (crossing q part r) = some t →
    part = stretch x ms

end Spec
