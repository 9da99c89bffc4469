/-!
# Reading what `{:?}` writes

How a person (or a log filter) gets the data out of the text of a barcode in a log: the numbers that follow the first opening
bracket, or the characters between single quotes. Nothing here mentions the model of the code.
-/

set_option autoImplicit false

namespace Spec

/-- All decimal numbers in a text, in order; the first argument is the number being read. -/
def numbersIn : Option Nat → List Char → List Nat
  | n?, [] => n?.toList
  | n?, c :: cs =>
    if c.isDigit then numbersIn (some (10 * n?.getD 0 + (c.toNat - 48))) cs else n?.toList ++ numbersIn none cs

/-- The numbers after the first opening bracket. -/
def numbersListed (text : List Char) : List Nat := numbersIn none (text.dropWhile (fun c => c ≠ '['))

/-- All characters that stand between single quotes. -/
def quoted : List Char → List Char
  | [] => []
  | [_] => []
  | [_, _] => []
  | a :: c :: b :: r => if a = '\'' ∧ b = '\'' then c :: quoted r else quoted (c :: b :: r)
termination_by l => l.length

/-- All words of letters in a text, in order; the first argument is the word being read. -/
def wordsIn : List Char → List Char → List (List Char)
  | w, [] => if w = [] then [] else [w]
  | w, c :: cs => if c.isAlpha then wordsIn (w ++ [c]) cs else (if w = [] then [] else [w]) ++ wordsIn [] cs

/-- The words after the first opening bracket. -/
def wordsListed (text : List Char) : List (List Char) := wordsIn [] (text.dropWhile (fun c => c ≠ '['))

/-- The names of the Codabar characters. -/
def codabarNames : List (Char × String) :=
  [('0', "Zero"), ('1', "One"), ('2', "Two"), ('3', "Three"), ('4', "Four"), ('5', "Five"), ('6', "Six"), ('7', "Seven"),
   ('8', "Eight"), ('9', "Nine"), ('-', "Dash"), ('$', "Dollar"), (':', "Colon"), ('/', "Slash"), ('.', "Point"), ('+', "Plus"),
   ('A', "A"), ('B', "B"), ('C', "C"), ('D', "D")]

/-- The name of a Codabar character. -/
def codabarName (c : Char) : List Char := ((codabarNames.lookup c).getD "").toList

end Spec
