import Verif.Spec.Decimal
import Verif.Model.Xml
/-!
# The numbers of the XML output: what they should be (C135)
-/
namespace MBus.Spec.Xml
open MBus.Xml

/-- The number a factor of the table is written as. -/
def factorValue (f : Factor) : ℚ := f.mantissa * 10 ^ f.exponent

/-- The number a record means: the decoded number times the factor, corrected. -/
def meant (v : ℚ) (f : Factor) : Correction → ℚ
  | .none => v * factorValue f
  | .times n => v * factorValue f * 10 ^ n
  | .plus n => v * factorValue f + 10 ^ n

/-- How large the numbers are that the record's number is computed from. -/
def magnitude (v : ℚ) (f : Factor) : Correction → ℚ
  | .none => |v * factorValue f|
  | .times n => |v * factorValue f * 10 ^ n|
  | .plus n => |v * factorValue f| + 10 ^ n

/-- `text` is a number with six decimals and no superfluous zeros in front. -/
def SixDecimals (text : List Char) (q : ℚ) : Prop :=
  ∃ neg ip fp, ip ≠ [] ∧ Digits ip ∧ Digits fp ∧ (ip = ['0'] ∨ ip.head? ≠ some '0') ∧ fp.length = 6 ∧
    text = decimalText neg ip fp ∧ q = decimalValue neg ip fp

end MBus.Spec.Xml
