import Verif.Spec.Code128Message

/-!
# GS1-128 (GS1 General Specifications, 7.8)

A Code 128 symbol whose first symbol is FNC1 carries fields: an application identifier and its data. The first two digits of
some identifiers fix the length of the field; any other field lasts until the next separator (FNC1, transmitted as GS) or the
end. Nothing here mentions the model of the code.
-/

set_option autoImplicit false

namespace Spec

/-- Identifiers (by their first two digits) of fields of fixed length, with that length. -/
def gs1Lengths : List (List Char × Nat) :=
  [("00".toList, 20), ("01".toList, 16), ("02".toList, 16), ("03".toList, 16), ("04".toList, 18), ("11".toList, 8),
   ("12".toList, 8), ("13".toList, 8), ("14".toList, 8), ("15".toList, 8), ("16".toList, 8), ("17".toList, 8),
   ("18".toList, 8), ("19".toList, 8), ("20".toList, 4), ("31".toList, 10), ("32".toList, 10), ("33".toList, 10),
   ("34".toList, 10), ("35".toList, 10), ("36".toList, 10), ("41".toList, 16)]

/-- The length of a field that begins like this, if it is fixed. -/
def gs1Fixed (f : List Char) : Option Nat := gs1Lengths.lookup (f.take 2)

/-- The field is complete: it begins with two digits and has the fixed length, or at least one more character. -/
def gs1Complete (f : List Char) : Bool :=
  (f.take 2).all Char.isDigit &&
    match gs1Fixed f with
    | some n => f.length == n
    | none => 2 < f.length

/-- Read fields; `cur` is the beginning of the field at hand. -/
def gs1FieldsFrom (cur : List Char) : List Char → Option (List (List Char))
  | [] => if cur = [] then some [] else if gs1Complete cur then some [cur] else none
  | c :: cs =>
    if c = '\u001d' then
      if gs1Complete cur then (gs1FieldsFrom [] cs).map (cur :: ·) else none
    else if gs1Fixed cur = some cur.length then
      if gs1Complete cur then (gs1FieldsFrom [c] cs).map (cur :: ·) else none
    else gs1FieldsFrom (cur ++ [c]) cs

/-- The fields of a message. -/
def gs1Fields (message : List Char) : Option (List (List Char)) := gs1FieldsFrom [] message

/-- Fields one after the other, with a separator behind every field of variable length that is not the last. -/
def gs1Join (separator : Char) : List (List Char) → List Char
  | [] => []
  | [f] => f
  | f :: fs => f ++ (if gs1Fixed f = none then [separator] else []) ++ gs1Join separator fs

example : gs1Join '|' ["0109312345678907".toList, "10ABC".toList, "17261231".toList] =
    "010931234567890710ABC|17261231".toList := by decide
example : gs1Fields "010931234567890710ABC\u001d17261231".toList =
    some ["0109312345678907".toList, "10ABC".toList, "17261231".toList] := by decide +kernel
example : gs1Fields "1ABC".toList = none ∧ gs1Fields "17".toList = none := by decide

/-- A well-formed field: complete, and made of printable ASCII characters. -/
def Gs1Field (f : List Char) : Prop := gs1Complete f = true ∧ ∀ c ∈ f, 32 ≤ c.toNat ∧ c.toNat < 127

/-- A reader for GS1-128: the first symbol after the start must be FNC1. -/
def scanGs1 (ms : List Nat) : Option (List (List Char)) :=
  match scanCode128 ms with
  | some (_ :: c :: _) => if c = fnc1 then (receiveCode128 ms).bind gs1Fields else none
  | _ => none

end Spec
