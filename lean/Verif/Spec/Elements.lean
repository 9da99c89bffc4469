/-!
# Bars and spaces, as a scanner sees them

A scanner does not see modules, it sees alternating bars and spaces and measures their widths. Nothing here mentions
the model of the code.
-/

set_option autoImplicit false

namespace Spec

/-- Maximal runs of equal values: value and length. -/
def runs : List Nat → List (Nat × Nat)
  | [] => []
  | m :: ms =>
    match runs ms with
    | [] => [(m, 1)]
    | (c, n) :: r => if c = m then (c, n + 1) :: r else (m, 1) :: (c, n) :: r

/-- The element widths of a row of modules: `1` is a dark module, `0` a light one. The row must start with a bar. -/
def elements (ms : List Nat) : Option (List Nat) :=
  if ms.all (fun m => m == 0 || m == 1) && ms.head? == some 1 then some ((runs ms).map Prod.snd) else none

/-- Remove a required prefix of element widths. -/
def expect : List Nat → List Nat → Option (List Nat)
  | [], es => some es
  | _ :: _, [] => none
  | p :: ps, e :: es => if p = e then expect ps es else none

/-- Collect `k` elements after those already in `acc`, then decode the whole group with `f`; repeat `n` times and return
the decoded values and the remaining elements. -/
def readN {α : Type} (k : Nat) (f : List Nat → Option α) (n : Nat) (es : List Nat) : Option (List α × List Nat) :=
  match n with
  | 0 => some ([], es)
  | n + 1 =>
    if es.length < k then none
    else do
      let x ← f (es.take k)
      let (xs, rest) ← readN k f n (es.drop k)
      some (x :: xs, rest)

/-- Read groups of `k` elements, decoding each with `f`, until nothing is left; `acc` holds an incomplete group. -/
def readAllFrom {α : Type} (k : Nat) (f : List Nat → Option α) : List Nat → List Nat → Option (List α)
  | acc, [] => if acc = [] then some [] else none
  | acc, e :: es =>
    if acc.length + 1 = k then do
      let x ← f (acc ++ [e])
      let xs ← readAllFrom k f [] es
      some (x :: xs)
    else readAllFrom k f (acc ++ [e]) es

/-- Read everything as groups of `k` elements. -/
def readAll {α : Type} (k : Nat) (f : List Nat → Option α) (es : List Nat) : Option (List α) := readAllFrom k f [] es

/-- Position of an entry in a table. -/
def position (table : List (List Nat)) (w : List Nat) : Option Nat := table.findIdx? (fun t => t == w)

end Spec
