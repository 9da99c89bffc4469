import Verif.Spec.Elements

/-!
# Text pictures
-/

set_option autoImplicit false

namespace Spec

/-- The lines of a text: pieces between newlines. -/
def splitLines : List Char → List (List Char)
  | [] => [[]]
  | c :: cs =>
    if c = '\n' then [] :: splitLines cs
    else match splitLines cs with
      | [] => [[c]]
      | l :: ls => (c :: l) :: ls

/-- Lines put together with a newline between each two. -/
def joinLines : List (List Char) → List Char
  | [] => []
  | [l] => l
  | l :: ls => l ++ '\n' :: joinLines ls

/-- One line: every module repeated `xdim` times, `#` for a bar and a space for a space. -/
def asciiRow (xdim : Nat) (bits : List Nat) : List Char :=
  bits.flatMap (fun b => List.replicate xdim (if b = 1 then '#' else ' '))

/-- Read a character as a module. -/
def readCell (c : Char) : Option Nat := if c = '#' then some 1 else if c = ' ' then some 0 else none

/-- A group of equal modules. -/
def uniform (g : List Nat) : Option Nat :=
  match g with
  | [] => none
  | m :: ms => if ms.all (· == m) then some m else none

/-- Read a text picture: there must be `height` equal lines, made of modules `xdim` characters wide. -/
def readAscii (height xdim : Nat) (out : List Char) : Option (List Nat) :=
  match splitLines out with
  | [] => none
  | l :: ls =>
    if ls.length + 1 = height ∧ ls.all (· == l) then (l.mapM readCell).bind (readAll xdim uniform) else none

end Spec
