import Verif.Spec.DataInfo
import Mathlib.Algebra.Order.Field.Rat
/-!
# Specification of decimal texts: C45-C47
-/
namespace MBus.Spec

/-- `ds` consists of decimal digits. -/
def Digits (ds : List Char) : Prop := ∀ c ∈ ds, '0' ≤ c ∧ c ≤ '9'

/-- The number spelled by decimal digits. -/
def natOf (ds : List Char) : Nat := ds.foldl (fun n c => 10 * n + (c.toNat - '0'.toNat)) 0

/-- The text of a sign. -/
def signText (negative : Bool) : List Char := if negative then ['-'] else []

/-- The decimal text of a natural number, without leading zeros. -/
def decimal (n : Nat) : List Char :=
  if n < 10 then [Char.ofNat ('0'.toNat + n)] else decimal (n / 10) ++ [Char.ofNat ('0'.toNat + n % 10)]

/-- The decimal text of an integer: no leading zeros, `-` exactly for negative numbers. -/
def decimalInt (i : Int) : List Char := signText (decide (i < 0)) ++ decimal i.natAbs

/-- `text` is an integer in decimal, possibly with leading zeros or a sign before 0, of value `i`. -/
def DenotesInt (text : List Char) (i : Int) : Prop :=
  ∃ neg ds, ds ≠ [] ∧ Digits ds ∧ text = signText neg ++ ds ∧ i = if neg then -(natOf ds : Int) else natOf ds

/-- The value of a decimal number with sign `neg`, digits `ip` before and `fp` after the point. -/
def decimalValue (neg : Bool) (ip fp : List Char) : ℚ :=
  (if neg then -1 else 1) * (natOf (ip ++ fp) : ℚ) / 10 ^ fp.length

/-- The text of such a number; the point is written only if digits follow it. -/
def decimalText (neg : Bool) (ip fp : List Char) : List Char :=
  signText neg ++ ip ++ (if fp = [] then [] else '.' :: fp)

/-- `text` is a decimal number of value `q`. -/
def Denotes (text : List Char) (q : ℚ) : Prop :=
  ∃ neg ip fp, ip ≠ [] ∧ Digits ip ∧ Digits fp ∧ text = decimalText neg ip fp ∧
    q = decimalValue neg ip fp

/-- `text` is a decimal number without redundant characters: no leading zero before another digit, no
trailing zero after the point, no sign before zero. -/
def Canonical (text : List Char) : Prop :=
  ∃ neg ip fp, Digits ip ∧ Digits fp ∧ text = decimalText neg ip fp ∧
    (ip = ['0'] ∨ ip.head?.any (· ≠ '0')) ∧ fp.getLast? ≠ some '0' ∧
    (neg → natOf (ip ++ fp) ≠ 0)

/-- The value meant by a significand, a decimal scale and an optional additive power of ten. -/
def scaledValue (significand scale : Int) (offset : Option Int) : ℚ :=
  significand * 10 ^ scale + offset.elim 0 (fun o => 10 ^ o)

end MBus.Spec
