import Mathlib.Algebra.Polynomial.Basic
import Mathlib.Algebra.Polynomial.Div
import Mathlib.Algebra.Field.ZMod
/-!
# Specification of the EN 13757 CRC as polynomial division over GF(2)
-/
namespace MBus.Spec
open Polynomial

/-- Polynomials over the two-element field. -/
abbrev GF2X := (ZMod 2)[X]

/-- The low `n` bits of `w` as a polynomial, bit `i` being the coefficient of `X^i`. -/
noncomputable def bitsPoly (n w : Nat) : GF2X :=
  ∑ i ∈ Finset.range n, if w.testBit i then X ^ i else 0

/-- A byte string as a polynomial: first byte, most significant bit first. -/
noncomputable def msgPoly (bytes : List UInt8) : GF2X :=
  bytes.foldl (fun p b => p * X ^ 8 + bitsPoly 8 b.toNat) 0

/-- The generator polynomial of EN 13757-4. -/
noncomputable def crcGen : GF2X :=
  X ^ 16 + X ^ 13 + X ^ 12 + X ^ 11 + X ^ 10 + X ^ 8 + X ^ 6 + X ^ 5 + X ^ 2 + 1

/-- `hi lo` is the CRC of `block`: the block followed by the complemented CRC is divisible by the
generator. -/
def CrcOk (block : List UInt8) (hi lo : UInt8) : Prop :=
  crcGen ∣ msgPoly (block ++ [~~~hi, ~~~lo])

/-- A block followed by its CRC. -/
def Codeword (w : List UInt8) : Prop := ∃ block hi lo, w = block ++ [hi, lo] ∧ CrcOk block hi lo

/-- Bit `p` of a byte string, counted from the end (bit 0 is the least significant bit of the last
byte). -/
def bitAt (w : List UInt8) (p : Nat) : Bool := ((w.reverse[p / 8]?).getD 0).toNat.testBit (p % 8)

/-- Number of one bits in a byte string. -/
def popcount (w : List UInt8) : Nat :=
  (w.map (fun b => ((List.range 8).filter (fun i => b.toNat.testBit i)).length)).sum

end MBus.Spec
