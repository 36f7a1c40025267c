import Verif.Spec.Sent
import Verif.Spec.Json
import Verif.Spec.SentJson
import Mathlib.Algebra.Order.Field.Rat
/-!
# Specification of the texts of reals: C140
-/
namespace MBus.Spec

/-- `w` is ±`m`·2^`q` with a significand and an exponent of IEEE 754 binary64. -/
def DoubleForm (m : Nat) (q : Int) (w : ℚ) : Prop :=
  m < 2 ^ 53 ∧ -1074 ≤ q ∧ q ≤ 971 ∧ (w = m * 2 ^ q ∨ w = -(m * 2 ^ q))

/-- `w` is a finite number of binary64. -/
def IsDouble (w : ℚ) : Prop := ∃ m q, DoubleForm m q w

/-- `w` is a finite number of binary64 with an even significand. -/
def IsEvenDouble (w : ℚ) : Prop := ∃ m q, DoubleForm m q w ∧ m % 2 = 0

/-- Whoever reads the number `x` as binary64 gets `v`: it is the nearest, and of two that are as near the one with the
even significand. -/
def ReadsAs (x v : ℚ) : Prop :=
  IsDouble v ∧ ∀ w, IsDouble w → w ≠ v → |x - v| < |x - w| ∨ (|x - v| = |x - w| ∧ IsEvenDouble v)

/-- The value of a number of JSON, with or without an exponent, RFC 8259 section 6. -/
def NumberValue (text : List Char) (x : ℚ) : Prop :=
  ∃ neg ip fp exp e, text = decimalText neg ip fp ++ exp ∧ ip ≠ [] ∧ Digits ip ∧ Digits fp ∧
    ((exp = [] ∧ e = 0) ∨ ∃ sign ds, ds ≠ [] ∧ Digits ds ∧ exp = 'e' :: sign ++ ds ∧
      ((sign = [] ∨ sign = ['+']) ∧ e = (natOf ds : Int) ∨ sign = ['-'] ∧ e = -(natOf ds : Int))) ∧
    x = decimalValue neg ip fp * 10 ^ e

/-- `text` is a number that reads back as `v`. -/
def ReadsBackAs (text : List Char) (v : ℚ) : Prop := ∃ x, NumberValue text x ∧ ReadsAs x v

/-- The finite reals among the readings are found in the JSON text as numbers that read back as what the meter sent, in
the base units of their codes. -/
def RealsReadBack (readings : List MeterReading) (text : List Char) : Prop :=
  ∃ d, JsonText text d ∧ ∀ i (h : i < readings.length) bits, readings[i].content = .real bits →
    bits / 2 ^ 23 % 256 ≠ 255 → ∃ es number, codeMeanings readings[i].codes = some es ∧
      follow [.key "records", .at i, .key "value", .key "value"] d = some (.num number) ∧
      ReadsBackAs number (realValue bits * 10 ^ (total es).scale)

end MBus.Spec
