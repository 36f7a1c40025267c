/-!
# Outcomes of Rust computations

`Res ε α` is the outcome of a Rust function returning `Result<α, ε>`: it returns `Ok`, returns
`Err`, or panics.  `panic` stands for every Rust panic (slice index out of range, arithmetic
overflow when overflow checks are compiled in, `unreachable!`, `ArrayVec::push` on a full vector).
-/
namespace MBus

/-- Outcome of a Rust function with return type `Result<α, ε>`. -/
inductive Res (ε α : Type) where
  | ok (a : α)
  | err (e : ε)
  | panic
  deriving DecidableEq, Repr, Inhabited

namespace Res

/-- Sequencing: the `?` operator, with panics propagating. -/
def bind {ε α β : Type} (x : Res ε α) (f : α → Res ε β) : Res ε β :=
  match x with
  | ok a => f a
  | err e => err e
  | panic => panic

instance {ε : Type} : Monad (Res ε) where
  pure := ok
  bind := bind

/-- `Option::ok_or(e)?` -/
def ofOption {ε α : Type} (e : ε) : Option α → Res ε α
  | some a => ok a
  | none => err e

/-- `Result::map_err(f)` -/
def mapErr {ε ε' α : Type} (f : ε → ε') : Res ε α → Res ε' α
  | ok a => ok a
  | err e => err (f e)
  | panic => panic

/-- `Result::ok()`; a panic stays a panic, so this is only used where none can happen or where the
caller handles it explicitly. -/
def toOption {ε α : Type} : Res ε α → Option α
  | ok a => some a
  | _ => none

end Res

/-- Build configuration the behaviour of the library depends on: whether the crate is compiled
with arithmetic overflow checks (debug profile) and whether the cargo feature
`plaintext-before-extension` is on. -/
structure Cfg where
  overflowChecks : Bool
  plaintextFirst : Bool
  deriving DecidableEq, Repr

/-- `usize` subtraction `a - b`.  On underflow it panics with overflow checks on, otherwise it
wraps modulo 2^64 (the library targets 64-bit hosts; every use only needs the wrapped value to be
larger than any slice length). -/
def usizeSub (cfg : Cfg) {ε : Type} (a b : Nat) : Res ε Nat :=
  if b ≤ a then .ok (a - b)
  else if cfg.overflowChecks then .panic
  else .ok (2 ^ 64 + a - b)

/-- Rust `slice.get(a..b)`. -/
def slice? {α : Type} (l : List α) (a b : Nat) : Option (List α) :=
  if a ≤ b ∧ b ≤ l.length then some ((l.take b).drop a) else none

/-- Rust `slice.get(a..)`. -/
def sliceFrom? {α : Type} (l : List α) (a : Nat) : Option (List α) :=
  if a ≤ l.length then some (l.drop a) else none

/-- Rust `slice.get(..b)`. -/
def sliceTo? {α : Type} (l : List α) (b : Nat) : Option (List α) :=
  if b ≤ l.length then some (l.take b) else none

/-- `u16::from_le_bytes([lo, hi])` -/
def u16le (lo hi : UInt8) : UInt16 := lo.toUInt16 ||| (hi.toUInt16 <<< 8)

/-- `u16::from_be_bytes([hi, lo])` -/
def u16be (hi lo : UInt8) : UInt16 := u16le lo hi

end MBus
