import Verif.Spec.Code128

/-!
# Input that was not tidied up
-/

set_option autoImplicit false

namespace Spec

/-- The code set in force at the end of a string, `set` being in force at the beginning. -/
def lastSet (set : CodeSet) : List Char → CodeSet
  | [] => set
  | c :: s => lastSet (if c = 'À' then .A else if c = 'Ɓ' then .B else if c = 'Ć' then .C else set) s

/-- Not a visible ASCII character and not a blank: line ends, tabs, other control characters and everything beyond ASCII
(no-break spaces, byte order marks, the digits of other scripts). Lower case letters are counted too. -/
def Untidy (c : Char) : Prop := c.toNat < 32 ∨ 127 ≤ c.toNat ∨ (97 ≤ c.toNat ∧ c.toNat ≤ 122)

instance (c : Char) : Decidable (Untidy c) := by unfold Untidy; infer_instance

example : Untidy '\n' ∧ Untidy 'a' ∧ Untidy '\u00a0' ∧ Untidy '\ufeff' ∧ Untidy '\uff13' ∧ ¬ Untidy ' ' ∧ ¬ Untidy '0' ∧
    lastSet .B "ÀABĆ12".toList = .C := by decide

end Spec
