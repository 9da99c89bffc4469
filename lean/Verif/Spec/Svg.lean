/-!
# A small XML and SVG reader

`readXml` reads the tags of an XML text: names, attributes with double quotes and no references, white space only
between tags. `readSvg` then reads an `svg` element with a view box and `rect` children.
-/

set_option autoImplicit false

namespace Spec

/-- The attributes of a tag, in order. -/
abbrev Attrs := List (List Char × List Char)

inductive XEvent where
  /-- `<name attrs>` -/
  | start (name : List Char) (attrs : Attrs)
  /-- `<name attrs/>` -/
  | empty (name : List Char) (attrs : Attrs)
  /-- `</name>` -/
  | stop (name : List Char)
  deriving DecidableEq, Repr

/-- Where the reader is. -/
inductive XState where
  | text
  | lt
  | name (n : List Char)
  | close (n : List Char)
  /-- inside a tag; `sp` tells whether white space precedes, as an attribute needs -/
  | attrs (sp : Bool) (n : List Char) (as : Attrs)
  | attrName (n : List Char) (as : Attrs) (a : List Char)
  | attrEq (n : List Char) (as : Attrs) (a : List Char)
  | attrVal (n : List Char) (as : Attrs) (a v : List Char)
  | slash (n : List Char) (as : Attrs)
  deriving DecidableEq, Repr

def xmlSpace (c : Char) : Bool := c == ' ' || c == '\n' || c == '\t' || c == '\r'

/-- Names here consist of ASCII letters, digits and a few marks. -/
def xmlNameChar (c : Char) : Bool := c.isAlphanum || c == '-' || c == '_' || c == ':' || c == '.'

/-- They begin with a letter, `_` or `:`. -/
def xmlNameStart (c : Char) : Bool := c.isAlpha || c == '_' || c == ':'

/-- XML 1.0 production 2: the characters an XML text may contain. -/
def xmlChar (c : Char) : Bool :=
  c == '\t' || c == '\n' || c == '\r' || (32 ≤ c.toNat && c.toNat ≤ 0xD7FF) || (0xE000 ≤ c.toNat && c.toNat ≤ 0xFFFD) ||
    0x10000 ≤ c.toNat

/-- Characters that stand for themselves between double quotes (white space other than a blank is normalised by XML
readers, so it does not). -/
def xmlPlain (c : Char) : Bool :=
  xmlChar c && c != '"' && c != '<' && c != '&' && c != '\n' && c != '\t' && c != '\r'

/-- No attribute occurs twice. -/
def distinctNames : Attrs → Bool
  | [] => true
  | a :: as => !(as.map Prod.fst).elem a.1 && distinctNames as

/-- Read one character. -/
def xmlStep : XState → Char → Option (XState × List XEvent)
  | .text, c => if c = '<' then some (.lt, []) else if xmlSpace c then some (.text, []) else none
  | .lt, c => if c = '/' then some (.close [], []) else if xmlNameStart c then some (.name [c], []) else none
  | .name n, c =>
    if xmlNameChar c then some (.name (n ++ [c]), [])
    else if xmlSpace c then some (.attrs true n [], [])
    else if c = '/' then some (.slash n [], [])
    else if c = '>' then some (.text, [.start n []])
    else none
  | .close n, c =>
    if c = '>' then some (.text, [.stop n]) else if xmlNameChar c then some (.close (n ++ [c]), []) else none
  | .attrs sp n as, c =>
    if xmlSpace c then some (.attrs true n as, [])
    else if c = '/' then some (.slash n as, [])
    else if c = '>' then if distinctNames as then some (.text, [.start n as]) else none
    else if sp && xmlNameStart c then some (.attrName n as [c], [])
    else none
  | .attrName n as a, c =>
    if c = '=' then some (.attrEq n as a, [])
    else if xmlNameChar c then some (.attrName n as (a ++ [c]), [])
    else none
  | .attrEq n as a, c => if c = '"' then some (.attrVal n as a [], []) else none
  | .attrVal n as a v, c =>
    if c = '"' then some (.attrs false n (as ++ [(a, v)]), [])
    else if xmlPlain c then some (.attrVal n as a (v ++ [c]), [])
    else none
  | .slash n as, c => if c = '>' then if distinctNames as then some (.text, [.empty n as]) else none else none

/-- Read several characters. -/
def xmlSteps : XState → List Char → Option (XState × List XEvent)
  | st, [] => some (st, [])
  | st, c :: cs => (xmlStep st c).bind (fun p => (xmlSteps p.1 cs).map (fun q => (q.1, p.2 ++ q.2)))

/-- The tags of a text. -/
def readXml (s : List Char) : Option (List XEvent) :=
  match xmlSteps .text s with
  | some (.text, es) => some es
  | _ => none

/-- Natural numbers separated by blanks; the first argument is the number being read. -/
def readNats : Option Nat → List Char → Option (List Nat)
  | none, [] => some []
  | some n, [] => some [n]
  | n?, c :: cs =>
    if c.isDigit then readNats (some (10 * n?.getD 0 + (c.toNat - 48))) cs
    else if c = ' ' then (readNats none cs).map (n?.toList ++ ·)
    else none

/-- One natural number. -/
def readNat1 (s : List Char) : Option Nat :=
  match readNats none s with
  | some [n] => some n
  | _ => none

def hexDigit (c : Char) : Option Nat :=
  if '0' ≤ c ∧ c ≤ '9' then some (c.toNat - 48)
  else if 'a' ≤ c ∧ c ≤ 'f' then some (c.toNat - 87)
  else if 'A' ≤ c ∧ c ≤ 'F' then some (c.toNat - 55)
  else none

def hexByte (a b : Char) : Option Nat := do
  let h ← hexDigit a
  let l ← hexDigit b
  some (16 * h + l)

/-- A colour `#rrggbb`. -/
def readColour : List Char → Option (Nat × Nat × Nat)
  | ['#', a, b, c, d, e, f] => do
    let r ← hexByte a b
    let g ← hexByte c d
    let b ← hexByte e f
    some (r, g, b)
  | _ => none

/-- An opacity with two decimals, in hundredths; at most 1. -/
def readOpacity : List Char → Option Nat
  | [a, '.', b, c] =>
    if a.isDigit ∧ b.isDigit ∧ c.isDigit then
      let n := 100 * (a.toNat - 48) + 10 * (b.toNat - 48) + (c.toNat - 48)
      if n ≤ 100 then some n else none
    else none
  | _ => none

/-- A colour to paint with: red, green, blue and the opacity in hundredths. -/
structure Paint where
  rgb : Nat × Nat × Nat
  opacity : Nat
  deriving DecidableEq, Repr

/-- The paint shows a colour given by bytes: the same red, green and blue, and the opacity nearest to `a / 255`, that is,
`|opacity/100 - a/255| ≤ 1/200`. -/
def Paint.Shows (p : Paint) (r g b a : Nat) : Prop :=
  p.rgb = (r, g, b) ∧ 2 * (255 * p.opacity) ≤ 2 * (100 * a) + 255 ∧ 2 * (100 * a) ≤ 2 * (255 * p.opacity) + 255

structure SvgRect where
  x : Nat
  y : Nat
  width : Nat
  height : Nat
  fill : Paint
  deriving DecidableEq, Repr

/-- The opacity is 1 unless it is given. -/
def readRect (as : Attrs) : Option SvgRect := do
  let x ← as.lookup "x".toList >>= readNat1
  let y ← as.lookup "y".toList >>= readNat1
  let w ← as.lookup "width".toList >>= readNat1
  let h ← as.lookup "height".toList >>= readNat1
  let c ← as.lookup "fill".toList >>= readColour
  let o ← match as.lookup "fill-opacity".toList with
    | none => some 100
    | some v => readOpacity v
  some ⟨x, y, w, h, ⟨c, o⟩⟩

structure SvgDoc where
  version : Option (List Char)
  xmlns : Option (List Char)
  viewBox : List Nat
  rects : List SvgRect
  deriving DecidableEq, Repr

/-- The children of the `svg` element and its closing tag. -/
def readRects : List XEvent → Option (List SvgRect)
  | [.stop n] => if n = "svg".toList then some [] else none
  | .empty n as :: es =>
    if n = "rect".toList then do
      let r ← readRect as
      let rs ← readRects es
      some (r :: rs)
    else none
  | _ => none

/-- Read an SVG picture made of rectangles. -/
def readSvg (s : List Char) : Option SvgDoc := do
  match ← readXml s with
  | .start n as :: es =>
    if n = "svg".toList then do
      let box ← as.lookup "viewBox".toList >>= readNats none
      let rs ← readRects es
      some ⟨as.lookup "version".toList, as.lookup "xmlns".toList, box, rs⟩
    else none
  | _ => none

/-- The attributes of a rectangle write a colour given by bytes: `fill` is `#` and six lower-case hexadecimal digits that
read back as red, green and blue; `fill-opacity` has two decimals and is nearest to `a / 255`; it is left out exactly when
it would be `1.00`. -/
def WritesColour (as : Attrs) (r g b a : Nat) : Prop :=
  (∃ hex, as.lookup "fill".toList = some ('#' :: hex) ∧ hex.length = 6 ∧ (∀ d ∈ hex, d.isDigit ∨ d ∈ "abcdef".toList) ∧
    readColour ('#' :: hex) = some (r, g, b)) ∧
  (as.lookup "fill-opacity".toList = none ↔ 2 * (100 * a) ≥ 2 * (255 * 99) + 255) ∧
  ∀ v, as.lookup "fill-opacity".toList = some v → ∃ o, readOpacity v = some o ∧ o < 100 ∧
    2 * (255 * o) ≤ 2 * (100 * a) + 255 ∧ 2 * (100 * a) ≤ 2 * (255 * o) + 255

/-- The rectangle covers the unit square at column `x` and row `y`. -/
def SvgRect.covers (r : SvgRect) (x y : Nat) : Bool :=
  r.x ≤ x && x < r.x + r.width && r.y ≤ y && y < r.y + r.height

/-- Rectangles are painted in order, so the last one that covers a point is on top. -/
def topmost (rs : List SvgRect) (x y : Nat) : Option SvgRect := rs.reverse.find? (·.covers x y)

/-- Read the modules of a picture whose first rectangle is the background: module `i` is a bar if some further rectangle
covers the unit square at column `i * xdim`, row 0. -/
def svgModules (xdim : Nat) (d : SvgDoc) : Option (List Nat) :=
  match d.viewBox, d.rects with
  | [_, _, w, _], _ :: bars =>
    if 0 < xdim then some ((List.range (w / xdim)).map (fun i => if bars.any (·.covers (i * xdim) 0) then 1 else 0))
    else none
  | _, _ => none

end Spec
