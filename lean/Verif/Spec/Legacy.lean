import Mathlib.Data.List.Forall2
import Verif.Model.Legacy
import Verif.Spec.Decimal
/-!
# Specification of the older outputs: what they have in common with the structured output
-/
namespace MBus.Spec

/-- How the older outputs and the structured output name the function of a record. -/
def functionTexts : List (List Char × List Char) :=
  [ ("Inst".toList, "Instantaneous value".toList), ("Max".toList, "Maximum value".toList),
    ("Min".toList, "Minimum value".toList),
    ("Value During Error State".toList, "Value during error state".toList) ]

/-- How the older outputs and the structured output name the coding of a record. -/
def codingTexts : List (List Char × List Char) :=
  [ ("No Data".toList, "No data".toList), ("8-bit Integer".toList, "8-bit integer".toList),
    ("16-bit Integer".toList, "16-bit integer".toList), ("24-bit Integer".toList, "24-bit integer".toList),
    ("32-bit Integer".toList, "32-bit integer".toList), ("32-bit Real".toList, "32-bit real".toList),
    ("48-bit Integer".toList, "48-bit integer".toList), ("64-bit Integer".toList, "64-bit integer".toList),
    ("Selection for Readout".toList, "Selection for readout".toList),
    ("BCD 2-digit".toList, "2-digit BCD".toList), ("BCD 4-digit".toList, "4-digit BCD".toList),
    ("BCD 6-digit".toList, "6-digit BCD".toList), ("BCD 8-digit".toList, "8-digit BCD".toList),
    ("Variable Length".toList, "Variable length".toList), ("BCD 12-digit".toList, "12-digit BCD".toList),
    ("Date Type G".toList, "Date (type G)".toList),
    ("Date Time Type F".toList, "Date and time (type F)".toList),
    ("Date Time Type J".toList, "Time (type J)".toList),
    ("Date Time Type I".toList, "Date and time (type I)".toList) ]

/-- How the older outputs and the structured output name special functions. -/
def specialTexts : List (List Char × List Char) :=
  [ ("Special Functions (ManufacturerSpecific)".toList, "Manufacturer specific".toList),
    ("Special Functions (MoreRecordsFollow)".toList, "More records follow".toList),
    ("Special Functions (IdleFiller)".toList, "Idle filler".toList),
    ("Special Functions (Reserved)".toList, "Reserved special function".toList),
    ("Special Functions (GlobalReadoutRequest)".toList, "Global readout request".toList) ]

/-- The texts of a record in the older outputs and in the structured output say the same of its storage
number, function and coding. -/
inductive SameInformation : (older : List Char) → RecordOutput → Prop
  | value {b f c} : (f, b.function) ∈ functionTexts → (c, b.dataCoding) ∈ codingTexts →
    SameInformation (decimal b.storageNumber ++ [','] ++ f ++ [','] ++ c) b
  | special {b f c} : f ∈ functionTexts.map (·.1) → (c, b.dataCoding) ∈ specialTexts →
    b.function = b.dataCoding → SameInformation (decimal b.storageNumber ++ [','] ++ f ++ [','] ++ c) b
  | none {b} : b.dataCoding ∈ "Special function".toList :: specialTexts.map (·.2) →
    b.function = b.dataCoding → SameInformation "None".toList b

/-- A record of the older outputs and a record of the structured output are made of the same bytes, and
agree on the storage number, the function and the coding, on whether there is a number, a unit and a
quantity. -/
structure SameRecord (a : RecordSummary) (b : RecordOutput) : Prop where
  header : a.headerHex = b.headerHex
  data : a.dataHex = b.dataHex
  information : SameInformation a.dataInformation b
  number : a.value.isSome = true ↔ b.value.kind ∈ ["decimal".toList, "float".toList]
  unit : a.unit = none ↔ b.unit = none
  quantity : a.quantity = none ↔ b.quantities = []

/-- A serialised record and a record of the structured output are made of the same bytes, the header and the data,
one after the other. -/
def SameBytes (a : DataRecord) (b : RecordOutput) : Prop :=
  hexSpaced a.headerBytes = b.headerHex ∧ hexSpaced a.dataBytes = b.dataHex ∧
    a.rawBytes = a.headerBytes ++ a.dataBytes

/-- `value` times ten to the power of `exponent` is the number the structured output states. -/
def SameNumber (a : RecordSummary) (b : RecordOutput) : Prop :=
  ∃ v text, a.value = some (.int v) ∧ b.value = ⟨"decimal".toList, some (.str text)⟩ ∧
    Denotes text (v * 10 ^ a.exponent.getD 0)

end MBus.Spec
