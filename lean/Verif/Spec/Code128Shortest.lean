import Verif.Spec.Code128Message

/-!
# The shortest Code 128 symbol for a text

For every rest of the text, the shortest sequence of symbols that transmits it, for each code set that may be in force. SHIFT is
used for single characters of the other set, and FNC1 (102) for GS, except at the very beginning, where it is not transmitted but
marks a GS1 message. Nothing here mentions the model of the code.
-/

set_option autoImplicit false

namespace Spec

/-- The shorter of two sequences. -/
def shorter (p q : List Nat) : List Nat := if p.length ≤ q.length then p else q

/-- One sequence for each code set in force. -/
structure Plans where
  a : List Nat
  b : List Nat
  c : List Nat
  deriving DecidableEq, Repr

def Plans.of (p : Plans) : CodeSet → List Nat
  | .A => p.a
  | .B => p.b
  | .C => p.c

/-- An ASCII character in set A: control characters and capitals are single symbols, others need SHIFT. -/
def symbolsInA (c : Char) : List Nat :=
  if c.toNat < 32 then [c.toNat + 64] else if c.toNat < 96 then [c.toNat - 32] else [98, c.toNat - 32]

/-- An ASCII character in set B: GS is FNC1, other control characters need SHIFT. -/
def symbolsInB (c : Char) : List Nat :=
  if c = '\u001d' then [102] else if c.toNat < 32 then [98, c.toNat + 64] else [c.toNat - 32]

/-- Go on in the set in force, or switch first (99, 100, 101 select sets C, B, A). -/
def orSwitch (a b : List Nat) : Option (List Nat) → Plans
  | none => ⟨shorter a (100 :: b), shorter b (101 :: a), shorter (101 :: a) (100 :: b)⟩
  | some c => ⟨shorter a (shorter (100 :: b) (99 :: c)), shorter b (shorter (101 :: a) (99 :: c)),
      shorter c (shorter (101 :: a) (100 :: b))⟩

/-- The shortest sequences for a text. -/
def plans : List Char → Plans
  | [] => ⟨[], [], []⟩
  | [c] => orSwitch (symbolsInA c) (symbolsInB c) (if c = '\u001d' then some [102] else none)
  | c :: d :: t =>
    orSwitch (symbolsInA c ++ (plans (d :: t)).a) (symbolsInB c ++ (plans (d :: t)).b)
      (if c = '\u001d' then some (102 :: (plans (d :: t)).c)
      else if c.isDigit && d.isDigit then some (((c.toNat - 48) * 10 + (d.toNat - 48)) :: (plans t).c) else none)

/-- The code set to start with, if something precedes the text. -/
def bestSet (t : List Char) : CodeSet :=
  if (plans t).b.length ≤ (plans t).a.length ∧ (plans t).b.length ≤ (plans t).c.length then .B
  else if (plans t).a.length ≤ (plans t).c.length then .A else .C

/-- The code set to start with: a GS at the beginning cannot be FNC1 and is in set A. -/
def bestStart (t : List Char) : CodeSet := if t.head? = some '\u001d' then .A else bestSet t

/-- The number of symbols between the start and the check symbol. -/
def shortestCount (t : List Char) : Nat := ((plans t).of (bestStart t)).length

/-- The text in the notation of the library. -/
def shortestCode128 (t : List Char) : List Char :=
  (bestStart t).char :: (code128Decode (bestStart t) ((plans t).of (bestStart t))).getD []

example : shortestCode128 "AB123456".toList = "ƁABĆ123456".toList ∧ shortestCount "AB123456".toList = 6 := by decide +kernel
example : shortestCode128 "123456x".toList = "Ć123456Ɓx".toList ∧ shortestCode128 "A12B".toList = "ƁA12B".toList ∧
    shortestCode128 "a\tb".toList = ['Ɓ', 'a', shiftChar, 'i', 'b'] := by decide +kernel
example : shortestCode128 "1234\u001d56".toList = ['Ć', '1', '2', '3', '4', fnc1, '5', '6'] ∧
    shortestCode128 "\u001dab".toList = ['À', '\u001d', 'Ɓ', 'a', 'b'] := by decide +kernel

/-- The shortest GS1 symbol for a message: FNC1 first. -/
def shortestGs1 (t : List Char) : List Char :=
  (bestSet t).char :: (code128Decode (bestSet t) (102 :: (plans t).of (bestSet t))).getD []

/-- The number of symbols between the start and the check symbol, with FNC1. -/
def shortestGs1Count (t : List Char) : Nat := 1 + ((plans t).of (bestSet t)).length

/-- A reader for GS1-128: the first symbol after the start must be FNC1. -/
def receiveGs1 (ms : List Nat) : Option (List Char) :=
  match scanCode128 ms with
  | some (_ :: c :: _) => if c = fnc1 then receiveCode128 ms else none
  | _ => none

example : shortestGs1 "0109312345678907".toList = 'Ć' :: fnc1 :: "0109312345678907".toList := by decide +kernel

end Spec
