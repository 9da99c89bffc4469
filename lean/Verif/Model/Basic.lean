/-!
# Rust semantics used by the model

`Outcome` is the result of running a Rust function: a value, a returned `Err(e)`, or a panic.
-/

set_option autoImplicit false

namespace Barcoders

/-- `src/error.rs` lines 9-18: `enum Error`. -/
inductive Error where
  | character
  | length
  | generate
  | checksum
  deriving DecidableEq, Repr

/-- `src/error.rs` lines 23-32: `impl fmt::Display for Error`. -/
def Error.display : Error → String
  | .character => "Barcode data is invalid"
  | .length => "Barcode data length is invalid"
  | .generate => "Could not generate barcode data"
  | .checksum => "Invalid checksum"

/-- The ways the modelled code can panic. Rust panics carry a message; only the cause is kept. -/
inductive Panic where
  /-- integer overflow with overflow checks on -/
  | overflow
  /-- slice or array index out of bounds, or bad slice range -/
  | bounds
  /-- `unwrap`/`expect` on `None`, or an explicit `panic!` -/
  | unwrap
  /-- allocation larger than `isize::MAX` bytes, or `ImageBuffer` length overflow -/
  | capacity
  deriving DecidableEq, Repr

/-- Result of a Rust computation whose return type is `Result<α, Error>` (or just `α`: then `err` is never used). -/
inductive Outcome (α : Type) where
  | ok (a : α)
  | err (e : Error)
  | panic (p : Panic)
  deriving DecidableEq, Repr

namespace Outcome

/-- Sequencing: `?` propagates `err`, and a panic aborts. -/
def bind {α β : Type} (x : Outcome α) (f : α → Outcome β) : Outcome β :=
  match x with
  | ok a => f a
  | err e => err e
  | panic p => panic p

instance : Monad Outcome where
  pure := ok
  bind := bind

@[simp] theorem pure_eq {α : Type} (a : α) : (pure a : Outcome α) = ok a := rfl
@[simp] theorem ok_bind {α β : Type} (a : α) (f : α → Outcome β) : (ok a >>= f) = f a := rfl
@[simp] theorem err_bind {α β : Type} (e : Error) (f : α → Outcome β) : (err e >>= f) = err e := rfl
@[simp] theorem panic_bind {α β : Type} (p : Panic) (f : α → Outcome β) : (panic p >>= f) = panic p := rfl

/-- Whether the computation panicked. -/
def isPanic {α : Type} : Outcome α → Bool
  | panic _ => true
  | _ => false

/-- Whether the computation returned a value. -/
def isOk {α : Type} : Outcome α → Bool
  | ok _ => true
  | _ => false

end Outcome

/-- Cargo build profile: with overflow checks (`debug`) or without (`release`). -/
inductive Build where
  | debug
  | release
  deriving DecidableEq, Repr

/-- A `u8` result: checked in debug builds, truncated in release builds. -/
def u8 (b : Build) (n : Nat) : Outcome Nat :=
  if n < 2 ^ 8 then .ok n
  else match b with
    | .debug => .panic .overflow
    | .release => .ok (n % 2 ^ 8)

/-- A `u32` result: checked in debug builds, truncated in release builds. -/
def u32 (b : Build) (n : Nat) : Outcome Nat :=
  if n < 2 ^ 32 then .ok n
  else match b with
    | .debug => .panic .overflow
    | .release => .ok (n % 2 ^ 32)

/-- `n as u32` for an unsigned `n`: always truncates. -/
def asU32 (n : Nat) : Nat := n % 2 ^ 32

/-- `x as i32` of an integer: two's complement truncation. -/
def asI32 (x : Int) : Int := (x + 2 ^ 31) % 2 ^ 32 - 2 ^ 31

/-- An `i32` result: checked in debug builds, wrapped in release builds. -/
def i32 (b : Build) (x : Int) : Outcome Int :=
  if -(2 ^ 31) ≤ x ∧ x < 2 ^ 31 then .ok x
  else match b with
    | .debug => .panic .overflow
    | .release => .ok (asI32 x)

/-- `x as u8` of a signed integer: low eight bits. -/
def asU8 (x : Int) : Nat := (x % 2 ^ 8).toNat

/-- `slice[i]`. -/
def idx {α : Type} (l : List α) (i : Nat) : Outcome α :=
  match l[i]? with
  | some a => .ok a
  | none => .panic .bounds

/-- `&slice[a..b]`. -/
def slice {α : Type} (l : List α) (a b : Nat) : Outcome (List α) :=
  if a ≤ b ∧ b ≤ l.length then .ok ((l.drop a).take (b - a)) else .panic .bounds

/-- `&slice[a..]`. -/
def sliceFrom {α : Type} (l : List α) (a : Nat) : Outcome (List α) :=
  if a ≤ l.length then .ok (l.drop a) else .panic .bounds

/-- `Option::unwrap` / `Option::expect`. -/
def unwrap {α : Type} : Option α → Outcome α
  | some a => .ok a
  | none => .panic .unwrap

/-- An iterator `map` whose closure can panic, collected into a `Vec`: the first panic wins. -/
def mapO {α β : Type} (f : α → Outcome β) : List α → Outcome (List β)
  | [] => .ok []
  | a :: as => do
    let b ← f a
    let bs ← mapO f as
    .ok (b :: bs)

/-- An iterator `fold` (or a `for` loop over an accumulator) whose body can panic. -/
def foldO {α β : Type} (f : β → α → Outcome β) (init : β) : List α → Outcome β
  | [] => .ok init
  | a :: as => do
    let b ← f init a
    foldO f b as

/-- `.iter().enumerate()`: pairs `(i, a)` counting from `k`. -/
def enumFrom {α : Type} (k : Nat) : List α → List (Nat × α)
  | [] => []
  | a :: as => (k, a) :: enumFrom (k + 1) as

/-- `.iter().enumerate()`. -/
def enumerate {α : Type} (l : List α) : List (Nat × α) := enumFrom 0 l

/-- `str::len`: number of UTF-8 bytes. -/
def strLen (s : List Char) : Nat := (s.map Char.utf8Size).sum

/-- `char::to_digit(10)` (core): the value of an ASCII decimal digit. -/
def toDigit (c : Char) : Option Nat :=
  if 48 ≤ c.toNat ∧ c.toNat ≤ 57 then some (c.toNat - 48) else none

/-- `char::from_digit(i, 10)` (core). -/
def fromDigit (i : Nat) : Option Char :=
  if i < 10 then some (Char.ofNat (48 + i)) else none

/-- `char::is_ascii_digit` (core). -/
def isAsciiDigit (c : Char) : Bool := 48 ≤ c.toNat ∧ c.toNat ≤ 57

/-- `format!("{}", n)` / `to_string` of an unsigned integer: its decimal digits. -/
def showNat (n : Nat) : List Char := Nat.toDigits 10 n

end Barcoders
