import Verif.Spec.TwoOfFive

/-!
# Narrow/wide patterns

What a two-of-five scanner looks at: which elements are narrow and which are wide.
-/

set_option autoImplicit false

namespace Spec

/-- The narrow/wide pattern of a row. -/
def narrowWide (ms : List Nat) : Option (List Nat) := (elements ms).map (fun es => es.map classify)

/-- The narrow/wide pattern of a row up to its last bar. -/
def narrowWideBars (ms : List Nat) : Option (List Nat) :=
  (elements ms).map (fun es => (if es.length % 2 = 0 then es.dropLast else es).map classify)

end Spec
