/-!
# A small JSON reader (RFC 8259)

Objects, arrays, natural numbers and strings without escapes; that is all of JSON that is needed. Anything else is not read.
-/

set_option autoImplicit false

namespace Spec

inductive JToken where
  | lbrace
  | rbrace
  | lbracket
  | rbracket
  | comma
  | colon
  | str (s : List Char)
  | num (n : Nat)
  deriving DecidableEq, Repr

/-- The part of a token that has been read. A number `0` ends there: JSON has no leading zeros. -/
inductive JState where
  | start
  | inStr (s : List Char)
  | inNum (n : Nat)
  deriving DecidableEq, Repr

/-- A one-character token, or white space (`none`). -/
def punctuation (c : Char) : Option (List JToken) :=
  if c = '{' then some [.lbrace]
  else if c = '}' then some [.rbrace]
  else if c = '[' then some [.lbracket]
  else if c = ']' then some [.rbracket]
  else if c = ',' then some [.comma]
  else if c = ':' then some [.colon]
  else if c = ' ' ∨ c = '\n' ∨ c = '\t' ∨ c = '\r' then some []
  else none

/-- Split a text into tokens. -/
def jsonTokens : JState → List Char → Option (List JToken)
  | .start, [] => some []
  | .inStr _, [] => none
  | .inNum n, [] => some [.num n]
  | .start, c :: cs =>
    if c = '"' then jsonTokens (.inStr []) cs
    else if c.isDigit then jsonTokens (.inNum (c.toNat - 48)) cs
    else (punctuation c).bind (fun t => (jsonTokens .start cs).map (t ++ ·))
  | .inStr s, c :: cs =>
    if c = '"' then (jsonTokens .start cs).map (.str s :: ·)
    else if c = '\\' ∨ c.toNat < 32 then none
    else jsonTokens (.inStr (s ++ [c])) cs
  | .inNum n, c :: cs =>
    if c.isDigit then
      if n = 0 then none else jsonTokens (.inNum (10 * n + (c.toNat - 48))) cs
    else (punctuation c).bind (fun t => (jsonTokens .start cs).map (fun r => .num n :: (t ++ r)))

inductive JValue where
  | num (n : Nat)
  | str (s : List Char)
  | arr (l : List JValue)
  | obj (l : List (List Char × JValue))

mutual
/-- Read one value; `fuel` bounds the number of calls. -/
def jsonValue : Nat → List JToken → Option (JValue × List JToken)
  | 0, _ => none
  | fuel + 1, ts =>
    match ts with
    | .num n :: ts => some (.num n, ts)
    | .str s :: ts => some (.str s, ts)
    | .lbracket :: .rbracket :: ts => some (.arr [], ts)
    | .lbracket :: ts => (jsonElements fuel ts).map (fun r => (.arr r.1, r.2))
    | .lbrace :: .rbrace :: ts => some (.obj [], ts)
    | .lbrace :: ts => (jsonMembers fuel ts).map (fun r => (.obj r.1, r.2))
    | _ => none
/-- Read the elements of an array and the closing bracket. -/
def jsonElements : Nat → List JToken → Option (List JValue × List JToken)
  | 0, _ => none
  | fuel + 1, ts =>
    match jsonValue fuel ts with
    | some (v, .rbracket :: ts) => some ([v], ts)
    | some (v, .comma :: ts) => (jsonElements fuel ts).map (fun r => (v :: r.1, r.2))
    | _ => none
/-- Read the members of an object and the closing brace. -/
def jsonMembers : Nat → List JToken → Option (List (List Char × JValue) × List JToken)
  | 0, _ => none
  | fuel + 1, ts =>
    match ts with
    | .str k :: .colon :: ts =>
      match jsonValue fuel ts with
      | some (v, .rbrace :: ts) => some ([(k, v)], ts)
      | some (v, .comma :: ts) => (jsonMembers fuel ts).map (fun r => ((k, v) :: r.1, r.2))
      | _ => none
    | _ => none
end

/-- Read a JSON text. -/
def parseJson (s : List Char) : Option JValue := do
  let ts ← jsonTokens .start s
  match jsonValue (2 * ts.length + 1) ts with
  | some (v, []) => some v
  | _ => none

end Spec
