import Verif.Model.Base
/-!
# Integer-valued `f64` arithmetic

The record decoder stores every number in an `f64`.  Apart from 32-bit reals (kept as their bit
pattern, widening them is exact) all these numbers are integers of magnitude below 2^64, where
IEEE 754 binary64 arithmetic is "exact result, then rounded to a 53-bit significand, ties to even":
no overflow, subnormal or NaN can occur.
-/
namespace MBus

/-- Round a natural number to a 53-bit significand, to nearest, ties to even (IEEE 754 binary64
without exponent limits). -/
def roundNat53 (n : Nat) : Nat :=
  let drop := n.log2 + 1 - 53
  let unit := 2 ^ drop
  let q := n / unit
  let r := n % unit
  if 2 * r < unit ∨ (2 * r = unit ∧ q % 2 = 0) then q * unit else (q + 1) * unit

/-- Rounding of an exact integer result to binary64; also the Rust cast `x as f64` of an integer. -/
def roundF64 (v : Int) : Int :=
  if v < 0 then -(roundNat53 v.natAbs : Int) else (roundNat53 v.natAbs : Int)

/-- The `f64` values the record decoder can produce: an integer value, negative zero, or a widened
32-bit real given by its bit pattern. -/
inductive F64 where
  | int (v : Int)
  | negZero
  | real32 (bits : UInt32)
  deriving DecidableEq, Repr, Inhabited

/-- `v as f64` for an integer `v`. -/
def F64.ofInt (v : Int) : F64 := .int (roundF64 v)

/-- `value * (sign as f64)` for an integer-valued float and `sign = 1` or `-1`. -/
def F64.withSign (v sign : Int) : F64 :=
  if v = 0 ∧ sign < 0 then .negZero else .int (v * sign)

end MBus
