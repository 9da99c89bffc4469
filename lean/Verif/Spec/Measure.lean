import Verif.Spec.Elements
import Verif.Spec.Ean

/-!
# Reading a row whose module width is not known, and two symbols side by side

Nothing here mentions the model of the code.
-/

set_option autoImplicit false

namespace Spec

/-- Every module drawn `x` cells wide. -/
def stretch (x : Nat) (ms : List Nat) : List Nat := ms.flatMap (fun m => List.replicate x m)

/-- The smallest of some widths (0 if there are none). -/
def narrowest : List Nat → Nat
  | [] => 0
  | [w] => w
  | w :: ws => min w (narrowest ws)

/-- Read a row of dark and light cells without knowing how wide a module is: the narrowest bar or space is taken to be one
module; all others must be multiples of it. The result is the module width and the modules. -/
def measureRow (line : List Nat) : Option (Nat × List Nat) :=
  let rs := runs line
  let n := narrowest (rs.map Prod.snd)
  if 0 < n ∧ rs.all (fun r => r.2 % n == 0) then some (n, rs.flatMap (fun r => List.replicate (r.2 / n) r.1)) else none

/-- Read a main symbol of `k` elements, a gap, and an add-on: main number, width of the gap in modules, add-on number. -/
def scanWithAddOn (k : Nat) (main : List Nat → Option (List Nat)) (ms : List Nat) : Option (List Nat × Nat × List Nat) := do
  let es ← elements ms
  let ds ← main (es.take k)
  let gap ← es[k]?
  let ad ← readAddOn (es.drop (k + 1))
  some (ds, gap, ad)

end Spec
