/-!
# Counting

Nothing here mentions the model of the code.
-/

set_option autoImplicit false

namespace Spec

/-- There are exactly `n` things with a property: they can be listed without repetition, and the list has `n` entries. -/
def Exactly {α : Type} (n : Nat) (P : α → Prop) : Prop := ∃ l : List α, l.Nodup ∧ l.length = n ∧ ∀ a, a ∈ l ↔ P a

/-- Two sequences of the same length that agree except, perhaps, in some places (counted from 0). -/
def AgreeOff {α : Type} (places : List Nat) (s t : List α) : Prop :=
  t.length = s.length ∧ ∀ i : Nat, i ∉ places → t[i]? = s[i]?

end Spec
