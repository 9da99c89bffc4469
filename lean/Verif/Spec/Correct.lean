import Verif.Spec.Shape

/-!
# Rows received with wrong and illegible modules

A receiver sees one value per module, or cannot tell the module at all. A received row fits a symbol when at most a given number of
the modules it does tell differ from those of the symbol.
-/

set_option autoImplicit false

namespace Spec

/-- Number of modules that were told, and told wrongly. -/
def wrongIn (r : List (Option Nat)) (ms : List Nat) : Nat :=
  (r.zip ms).countP (fun p => match p.1 with
    | none => false
    | some v => v != p.2)

/-- Number of modules that could not be told. -/
def illegible (r : List (Option Nat)) : Nat := r.countP (fun v => v.isNone)

/-- The received row `r` may come from `ms`, with at most `e` wrong modules. -/
def Fits (e : Nat) (r : List (Option Nat)) (ms : List Nat) : Prop := r.length = ms.length ∧ wrongIn r ms ≤ e

instance (e : Nat) (r : List (Option Nat)) (ms : List Nat) : Decidable (Fits e r ms) := by unfold Fits; infer_instance

/-- `r` is `ms` with a stretch of `n` modules, behind the first `i`, covered up. -/
def Covered (i n : Nat) (r : List (Option Nat)) (ms : List Nat) : Prop :=
  i + n ≤ ms.length ∧ r = (ms.take i).map some ++ List.replicate n none ++ (ms.drop (i + n)).map some

example : Fits 1 [some 1, none, some 1, some 0] [1, 0, 0, 0] ∧ illegible [some 1, none, some 1, some 0] = 1 := by decide

example : ¬ Fits 1 [some 1, none, some 1, some 0] [0, 0, 0, 0] := by decide

example : Covered 1 2 [some 1, none, none, some 0] [1, 0, 1, 0] := ⟨by decide, rfl⟩

end Spec
