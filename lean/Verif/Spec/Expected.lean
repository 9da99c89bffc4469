import Verif.Spec.Part

/-!
# A reader that knows how many characters to expect

Nothing here mentions the model of the code.
-/

set_option autoImplicit false

namespace Spec

/-- At every module width, and in either direction, whatever is read from a part of the row `ms` is the text `t`, or it has
another number of characters than `t`. -/
def OnlyItsText {β : Type} (scan : List Nat → Option (List β)) (ms : List Nat) (t : List β) : Prop :=
  ∀ (x q r : Nat) (part : List Nat) (u : List β), 0 < x → part <:+: stretch x ms →
    handScan scan (crossing q part r) = some u → u.length = t.length → u = t

end Spec
