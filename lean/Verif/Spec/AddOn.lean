import Verif.Spec.Ean

/-!
# Add-ons read without the check
-/

set_option autoImplicit false

namespace Spec

/-- The characters of an add-on, each with its set (`true` means set B), without testing whether the sets fit the digits. -/
def addOnCharacters (ms : List Nat) : Option (List (Bool × Nat)) := do
  let es ← elements ms
  let es ← expect [1, 1, 2] es
  let (first, es) ← readN 4 readAB 1 es
  let more ← readAll 6 readAddOnDigit es
  some (first ++ more)

end Spec
