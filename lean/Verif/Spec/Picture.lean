import Verif.Spec.AsciiArt
import Verif.Spec.Json

/-!
# Reading modules off a picture
-/

set_option autoImplicit false

namespace Spec

/-- The modules of a line of colours: anything that is not the background is a bar; every module is `xdim` cells wide. -/
def readColours {α : Type} [DecidableEq α] (background : α) (xdim : Nat) (line : List α) : Option (List Nat) :=
  readAll xdim uniform (line.map (fun c => if c = background then 0 else 1))

/-- Directions to read a picture in. -/
inductive Heading where
  | right
  | down
  | left
  | up
  deriving DecidableEq, Repr

/-- The number of parallel lines when reading a picture of width `w` and height `h` in a direction. -/
def lineCount (w h : Nat) : Heading → Nat
  | .right => h
  | .left => h
  | .down => w
  | .up => w

/-- Line number `j` of a picture with pixels `px x y`, row 0 on top. -/
def pictureLine {α : Type} (w h : Nat) (px : Nat → Nat → α) (j : Nat) : Heading → List α
  | .right => (List.range w).map (fun i => px i j)
  | .down => (List.range h).map (fun i => px j i)
  | .left => (List.range w).map (fun i => px (w - 1 - i) j)
  | .up => (List.range h).map (fun i => px j (h - 1 - i))

/-- The numbers in the array stored under a key of a JSON object. -/
def jsonNumbers (key : List Char) : JValue → Option (List Nat)
  | .obj l =>
    match l.lookup key with
    | some (.arr vs) => vs.mapM (fun v => match v with
      | .num n => some n
      | _ => none)
    | _ => none
  | _ => none

end Spec
