import Verif.Spec.Code128

/-!
# What a Code 128 scanner transmits (ISO/IEC 15417)

Code-set characters and FNC2, FNC3 are not transmitted. FNC1 straight after the start symbol is a flag, elsewhere it is
transmitted as GS. SHIFT interprets the one following symbol in the other of the sets A and B. FNC4 (extended characters)
and SHIFT before anything but a data symbol are left undefined (`none`).
-/

set_option autoImplicit false

namespace Spec

/-- What the reader keeps in mind: the set in force, whether the previous symbol was SHIFT, whether nothing followed the
start symbol yet. -/
structure ReaderState where
  set : CodeSet
  shift : Bool
  first : Bool
  deriving DecidableEq, Repr

/-- The data symbols of sets A and B. -/
def code128Data : CodeSet → Nat → Option Char
  | .A, v => if v < 64 then some (Char.ofNat (v + 32)) else if v < 96 then some (Char.ofNat (v - 64)) else none
  | .B, v => if v < 96 then some (Char.ofNat (v + 32)) else none
  | .C, _ => none

/-- The set SHIFT selects. -/
def CodeSet.other : CodeSet → CodeSet
  | .A => .B
  | .B => .A
  | .C => .C

/-- One symbol: the characters transmitted and the next state. -/
def transmitSymbol (st : ReaderState) (v : Nat) : Option (List Char × ReaderState) :=
  if st.shift then (code128Data st.set.other v).map (fun c => ([c], ⟨st.set, false, false⟩))
  else if v = 102 then some (if st.first then [] else ['\u001d'], ⟨st.set, false, false⟩)
  else match st.set with
    | .C =>
      if v < 100 then some ([Char.ofNat (48 + v / 10), Char.ofNat (48 + v % 10)], ⟨.C, false, false⟩)
      else if v = 100 then some ([], ⟨.B, false, false⟩)
      else if v = 101 then some ([], ⟨.A, false, false⟩)
      else none
    | set =>
      if v < 96 then (code128Data set v).map (fun c => ([c], ⟨set, false, false⟩))
      else if v = 96 ∨ v = 97 then some ([], ⟨set, false, false⟩)
      else if v = 98 then some ([], ⟨set, true, false⟩)
      else if v = 99 then some ([], ⟨.C, false, false⟩)
      else if v = 100 ∧ set = .A then some ([], ⟨.B, false, false⟩)
      else if v = 101 ∧ set = .B then some ([], ⟨.A, false, false⟩)
      else none

/-- A sequence of steps; a dangling SHIFT is undefined. -/
def transmitAll {α : Type} (step : ReaderState → α → Option (List Char × ReaderState)) (st : ReaderState) :
    List α → Option (List Char)
  | [] => if st.shift then none else some []
  | v :: vs => do
    let (o, st') ← step st v
    let r ← transmitAll step st' vs
    some (o ++ r)

/-- The message in the symbols between start and check symbol. -/
def transmit (set : CodeSet) (data : List Nat) : Option (List Char) := transmitAll transmitSymbol ⟨set, false, true⟩ data

/-- What SHIFT makes of a character written in the set in force. -/
def shifted : CodeSet → Char → Option Char
  | .A, c => if c.toNat < 32 then some (Char.ofNat (c.toNat + 96)) else if c.toNat < 96 then some c else none
  | .B, c =>
    if c = delChar then some (Char.ofNat 31)
    else if 32 ≤ c.toNat ∧ c.toNat < 96 then some c
    else if 96 ≤ c.toNat ∧ c.toNat < 127 then some (Char.ofNat (c.toNat - 96))
    else none
  | .C, _ => none

/-- One character of the library's notation: what it contributes to the message. -/
def messageChar (st : ReaderState) (c : Char) : Option (List Char × ReaderState) :=
  if st.shift then (shifted st.set c).map (fun d => ([d], ⟨st.set, false, false⟩))
  else if c = 'À' then some ([], ⟨.A, false, false⟩)
  else if c = 'Ɓ' then some ([], ⟨.B, false, false⟩)
  else if c = 'Ć' then some ([], ⟨.C, false, false⟩)
  else if c = fnc1 then some (if st.first then [] else ['\u001d'], ⟨st.set, false, false⟩)
  else if c = fnc2 ∨ c = fnc3 then some ([], ⟨st.set, false, false⟩)
  else if c = fnc4 then none
  else if c = shiftChar then some ([], ⟨st.set, true, false⟩)
  else if c = delChar then some ([Char.ofNat 127], ⟨st.set, false, false⟩)
  else some ([c], ⟨st.set, false, false⟩)

/-- The message a string in the library's notation stands for. -/
def code128Message : List Char → Option (List Char)
  | 'À' :: r => transmitAll messageChar ⟨.A, false, true⟩ r
  | 'Ɓ' :: r => transmitAll messageChar ⟨.B, false, true⟩ r
  | 'Ć' :: r => transmitAll messageChar ⟨.C, false, true⟩ r
  | _ => none

/-- The message of a string without SHIFT and FNC4, directly: drop code-set characters, FNC2 and FNC3; FNC1 becomes GS, `÷`
becomes DEL. -/
def plainMessage (s : List Char) : List Char :=
  (s.filter (fun c => c ∉ ['À', 'Ɓ', 'Ć', fnc2, fnc3])).map
    (fun c => if c = fnc1 then '\u001d' else if c = delChar then Char.ofNat 127 else c)

/-- The Code 128 scanner: read, verify, transmit. -/
def receiveCode128 (ms : List Nat) : Option (List Char) := do
  let vs ← readCode128 ms
  let (start, data) ← verifyCode128 vs
  let set ← code128Start start
  transmit set data

end Spec
