import Verif.Spec.Code128Message
import Verif.Spec.Code128Write

/-!
# FNC4: the characters 128 to 255 (ISO/IEC 15417, 4.3.4.2)

FNC4 (symbol 101 in set A, 100 in set B) adds 128 to the one following data character; between FNC4 and that character only
SHIFT may stand. Two FNC4 in a row latch: from there on 128 is added to every data character, until two more FNC4; a single
FNC4 in between exempts one character. Digit pairs of set C while latched, and FNC4 before anything else, are left undefined.
-/

set_option autoImplicit false

namespace Spec

/-- `once`: the previous symbol was a (first) FNC4; `latch`: extended characters are latched. -/
structure ExtendedState where
  reader : ReaderState
  once : Bool
  latch : Bool
  deriving DecidableEq, Repr

/-- The character 128 places further on. -/
def extendChar (c : Char) : Char := Char.ofNat (c.toNat + 128)

/-- One symbol: the characters transmitted and the next state. -/
def extendedSymbol (st : ExtendedState) (v : Nat) : Option (List Char × ExtendedState) :=
  if st.reader.shift = false ∧ (st.reader.set = .A ∧ v = 101 ∨ st.reader.set = .B ∧ v = 100) then
    some ([], if st.once then ⟨⟨st.reader.set, false, false⟩, false, !st.latch⟩ else ⟨⟨st.reader.set, false, false⟩, true, st.latch⟩)
  else match transmitSymbol st.reader v with
    | none => none
    | some (o, r) =>
      if r.shift then some (o, ⟨r, st.once, st.latch⟩)
      else if st.reader.set ≠ .C ∧ v < 96 then
        some (if st.once ≠ st.latch then o.map extendChar else o, ⟨r, false, st.latch⟩)
      else if st.once ∨ (st.latch ∧ st.reader.set = .C ∧ v < 100) then none
      else some (o, ⟨r, false, st.latch⟩)

/-- A sequence of symbols; a dangling SHIFT or FNC4 is undefined. -/
def extendedAll {α : Type} (step : ExtendedState → α → Option (List Char × ExtendedState)) (st : ExtendedState) :
    List α → Option (List Char)
  | [] => if st.reader.shift ∨ st.once then none else some []
  | v :: vs => (step st v).bind fun p => (extendedAll step p.2 vs).map (p.1 ++ ·)

/-- The Code 128 scanner with FNC4. -/
def receiveExtended (ms : List Nat) : Option (List Char) := do
  let vs ← readCode128 ms
  let (start, data) ← verifyCode128 vs
  let set ← code128Start start
  extendedAll extendedSymbol ⟨⟨set, false, true⟩, false, false⟩ data

/-- One character of the library's notation: what it contributes to the message. -/
def extendedNote (st : ExtendedState) (c : Char) : Option (List Char × ExtendedState) :=
  if st.reader.shift = false ∧ c = fnc4 then
    if st.reader.set = .C then none
    else some ([], if st.once then ⟨⟨st.reader.set, false, false⟩, false, !st.latch⟩
      else ⟨⟨st.reader.set, false, false⟩, true, st.latch⟩)
  else match messageChar st.reader c with
    | none => none
    | some (o, r) =>
      if r.shift then some (o, ⟨r, st.once, st.latch⟩)
      else if c ∈ ['À', 'Ɓ', 'Ć', fnc1, fnc2, fnc3] then if st.once then none else some (o, ⟨r, false, st.latch⟩)
      else if st.reader.set ≠ .C then some (if st.once ≠ st.latch then o.map extendChar else o, ⟨r, false, st.latch⟩)
      else if st.once ∨ st.latch then none
      else some (o, ⟨r, false, st.latch⟩)

/-- The message a string in the library's notation stands for, FNC4 included. -/
def extendedMessage : List Char → Option (List Char)
  | 'À' :: r => extendedAll extendedNote ⟨⟨.A, false, true⟩, false, false⟩ r
  | 'Ɓ' :: r => extendedAll extendedNote ⟨⟨.B, false, true⟩, false, false⟩ r
  | 'Ć' :: r => extendedAll extendedNote ⟨⟨.C, false, true⟩, false, false⟩ r
  | _ => none

/-- `é` twice, by a single FNC4 and latched; the latch ends with two more. -/
example : extendedMessage ['Ɓ', fnc4, 'i', 'i', fnc4, fnc4, 'i', fnc4, 'i', fnc4, fnc4, 'i'] = some "éiéii".toList := by decide +kernel

/-- One character up to `ÿ`, set B being selected before and after it. -/
def latinInB (c : Char) : List Char :=
  if c.toNat < 128 then asciiInB c
  else if c.toNat < 160 then ['À', fnc4, Char.ofNat (c.toNat - 128), 'Ɓ']
  else if c.toNat = 255 then [fnc4, delChar]
  else [fnc4, Char.ofNat (c.toNat - 128)]

/-- A Latin-1 text as data for `Code128::new`. -/
def latinAsCode128 (t : List Char) : List Char := 'Ɓ' :: t.flatMap latinInB

end Spec
