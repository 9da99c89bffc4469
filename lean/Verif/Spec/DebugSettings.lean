import Verif.Spec.DebugText

/-!
# Reading what `{:?}` writes of a generator

The numbers and the words are those of `Spec.DebugText`; a string stands between double quotes, with `\` before characters that
would be misunderstood. Nothing here mentions the model of the code.
-/

set_option autoImplicit false

namespace Spec

/-- The character meant by a letter after `\`. -/
def unescaped (c : Char) : Char := if c = 'n' then '\n' else if c = 'r' then '\r' else if c = 't' then '\t' else if c = '0' then '\x00' else c

/-- The text up to the next double quote that has no `\` before it. -/
def upToQuote : List Char → Option (List Char)
  | [] => none
  | '"' :: _ => some []
  | '\\' :: c :: r => (upToQuote r).map (unescaped c :: ·)
  | c :: r => (upToQuote r).map (c :: ·)

/-- The first string in a text. -/
def stringIn (text : List Char) : Option (List Char) :=
  match text.dropWhile (fun c => c ≠ '"') with
  | [] => none
  | _ :: r => upToQuote r

example : stringIn "a: \"b\\\"c\", d: \"e\"".toList = some "b\"c".toList ∧ stringIn "None".toList = none := by decide

/-- The word after a given word. -/
def wordAfter (w : List Char) : List (List Char) → Option (List Char)
  | a :: b :: r => if a = w then some b else wordAfter w (b :: r)
  | _ => none

end Spec
