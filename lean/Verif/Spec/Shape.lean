import Verif.Spec.Elements

/-!
# What any row of bars and spaces must look like

Nothing here mentions the model of the code.
-/

set_option autoImplicit false

namespace Spec

/-- A row of `n` modules, each dark (`1`) or light (`0`), starting with a bar, whose last module is `e`, and in which no
bar or space is wider than `k` modules. -/
structure Row (n e k : Nat) (ms : List Nat) : Prop where
  binary : ∀ m ∈ ms, m = 0 ∨ m = 1
  first : ms.head? = some 1
  last : ms.getLast? = some e
  length : ms.length = n
  widest : ∀ r ∈ runs ms, r.2 ≤ k

/-- `ms` and `ms'` have the same length and differ in exactly `n` places. -/
def DifferIn (n : Nat) (ms ms' : List Nat) : Prop :=
  ms.length = ms'.length ∧ (ms.zip ms').countP (fun p => p.1 != p.2) = n

end Spec
