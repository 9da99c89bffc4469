import Verif.Spec.Scratch

/-!
# Damaged pictures

A reader that looks at every line of a picture, samples one cell of each module, and takes the first line that can be read.
-/

set_option autoImplicit false

namespace Spec

/-- Every `k`th cell of a line, beginning with the first. -/
def everyNth {α : Type} (k : Nat) (line : List α) : List α := (List.range (line.length / k)).filterMap (fun i => line[i * k]?)

example : everyNth 3 [1, 2, 3, 4, 5, 6, 7] = [1, 4] := by decide

/-- The modules of a line, each `k` cells wide. -/
def sampleRow {α : Type} (dark : α → Bool) (k : Nat) (line : List α) : List Nat :=
  (everyNth k line).map (fun c => if dark c then 1 else 0)

/-- What the first readable line says. -/
def firstReading {α β : Type} (scan : List Nat → Option β) (dark : α → Bool) (k : Nat) (lines : List (List α)) : Option β :=
  lines.findSome? (fun l => scan (sampleRow dark k l))

/-- The row reads as `t`, and with any stretch of at most `n` modules overwritten by bars and spaces it reads as `t` or not at
all. -/
def Withstands {β : Type} (scan : List Nat → Option β) (n : Nat) (ms : List Nat) (t : β) : Prop :=
  scan ms = some t ∧
    ∀ ms', Scratched n ms ms' → (∀ m ∈ ms', m = 0 ∨ m = 1) → scan ms' = none ∨ scan ms' = some t

end Spec
