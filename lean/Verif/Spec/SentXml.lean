import Verif.Spec.Sent
import Verif.Spec.Units
import Verif.Spec.Xml
import Verif.Spec.XmlFloat
/-!
# What a meter sends, in the XML report (C136)
-/
namespace MBus.Spec.Xml
open MBus.Spec

/-- Readings in the fields the report has a form for: text in fields of variable length (code D), other values in
other fields, and no fields for selections (code 8). -/
inductive ReportMessage : List MeterReading → List UInt8 → Prop
  | nil : ReportMessage [] []
  | filler (readings : List MeterReading) (data : List UInt8) : ReportMessage readings data →
      ReportMessage readings (0x2F :: data)
  | reading (r : MeterReading) (dif : UInt8) (record : List UInt8) (readings : List MeterReading) (data : List UInt8) :
      Sent 7 r (dif :: record) → dif.toNat % 16 ≠ 8 → (dif.toNat % 16 = 13 → ∃ t, r.content = .text t) →
      ReportMessage readings data → ReportMessage (r :: readings) ((dif :: record) ++ data)

/-- What the codes' quantity is called in the report: the name of the first quantity. -/
def reportName (e : ValueInfo) : Option String := e.labels.head?.bind quantityName

/-- The codes the report shows as they are meant: one code or, after FB and FD, two, or one code of the primary table
and a power of ten.  All other combinable codes are ignored by the report; the excluded codes after FB are those with
another unit or name in the report. -/
def reportCodes : List Nat → Bool
  | [0x7B, c] => c ∉ [0x08, 0x09, 0x0C, 0x0D, 0x0E, 0x0F, 0x20, 0x30, 0x31, 0x79]
  | [0x7D, _] => true
  | [_] => true
  | [c, k] => c ∉ [0x6C, 0x6D] ∧ ((0x70 ≤ k ∧ k ≤ 0x77) ∨ k = 0x7D)
  | _ => false

/-- Readings the report shows.  Code 6C is the code of dates, 6D and FD 70 are those of dates with a time; the texts have no characters XML does not allow. -/
def Reportable (r : MeterReading) : Prop :=
  reportCodes r.codes = true ∧ (∃ es name, codeMeanings r.codes = some es ∧ reportName (total es) = some name) ∧
  (r.codes.head? = some 0x6C ↔ ∃ day month year, r.content = .date day month year) ∧
  (r.codes = [0x6D] ∨ r.codes = [0x7D, 0x70] ↔
    ∃ day month year hour minute second, r.content = .dateTime day month year hour minute second) ∧
  ∀ t, r.content = .text t → noNon t

/-- The unit shown is that of the codes, up to a factor; what has no unit is shown without one. -/
def UnitShown (e : ValueInfo) (unit : List Char) : Prop :=
  if e.units = [] then xmlUnit (String.ofList unit) = none
  else ∃ a us, libraryQuantity e.scale e.units = some a ∧ xmlUnit (String.ofList unit) = some us ∧
    ∀ x, (product 1 us).dim x = a.dim x

/-- `shown` of the unit shown is the same amount as `sent` of the unit and scale of the codes. -/
def SameAmount (e : ValueInfo) (unit : List Char) (sent shown : ℚ) : Prop :=
  if e.units = [] then shown = sent * 10 ^ e.scale
  else ∃ a us, libraryQuantity e.scale e.units = some a ∧ xmlUnit (String.ofList unit) = some us ∧
    shown * (product 1 us).factor = sent * a.factor

/-- The text shows the number with six decimals, up to half a millionth and one part in 2^50; numbers up to 10^9 with no
more decimals than six are shown exactly, if `sent` is not above 2^53. -/
def NumberShown (sent number : ℚ) (text : List Char) : Prop :=
  ∃ q, SixDecimals text q ∧ |q - number| ≤ 1 / (2 * 10 ^ 6) + |number| / 2 ^ 50 ∧
    (|sent| ≤ 2 ^ 53 → |number| ≤ 10 ^ 9 → (∃ j : Int, number = j / 10 ^ 6) → q = number)

/-- The text of the value of a reading.  Control characters of texts are shown as blanks; the years of dates are taken
to be in this century. -/
def ValueShown (e : ValueInfo) (unit : List Char) : MBus.Spec.Content → List Char → Prop
  | .number v, text => ∃ n, SameAmount e unit v n ∧ NumberShown v n text
  | .real bits, text =>
    if bits / 2 ^ 23 % 256 = 255 then
      text = (if bits % 2 ^ 23 ≠ 0 then "NaN" else if bits < 2 ^ 31 then "inf" else "-inf").toList
    else ∃ n, SameAmount e unit (realValue bits) n ∧ ∃ q, SixDecimals text q ∧
      |q - n| ≤ 1 / (2 * 10 ^ 6) + |n| / 2 ^ 50 ∧ (|n| ≤ 10 ^ 9 → (∃ j : Int, n = j / 10 ^ 6) → q = n)
  | .text t, text => text = blanked t
  | .date day month year, text => text = isoDate (2000 + year) month day
  | .dateTime day month year hour minute second, text =>
    text = isoDate (2000 + year) month day ++ ['T'] ++ isoTime hour minute (second.getD 0) ++ ['Z']
  | .nothing, text => text = []

/-- The elements of a record show a reading.  Tariff and device may be missing if they are 0. -/
def Reported (r : MeterReading) (nodes : List Node) : Prop :=
  ∃ es name function unit value more, codeMeanings r.codes = some es ∧ reportName (total es) = some name ∧
    functionNames[r.function]? = some function ∧ UnitShown (total es) unit ∧
    ValueShown (total es) unit r.content value ∧
    (more = [] ∧ r.tariff = 0 ∧ r.subunit = 0 ∨
      more = [leaf "Tariff".toList (decimal r.tariff), leaf "Device".toList (decimal r.subunit)]) ∧
    nodes = [leaf "Function".toList function.toList, leaf "StorageNumber".toList (decimal r.storage)] ++ more ++
      [leaf "Unit".toList unit, leaf "Quantity".toList name.toList, leaf "Value".toList value]

end MBus.Spec.Xml
