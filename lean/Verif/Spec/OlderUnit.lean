import Verif.Spec.Ucum
import Verif.Model.ValueInfo
/-!
# Units and quantities in the older outputs

Units as symbols with superscript exponents, and quantities as identifiers.
-/
namespace MBus.Spec

/-- The symbol of a unit in the older outputs. -/
def olderSymbol : UnitName → String
  | .watt => "W"
  | .reactiveWatt => "W (reactive)"
  | .apparentWatt => "W (apparent)"
  | .joul => "J"
  | .kilogram => "Kg"
  | .tonne => "t"
  | .meter => "m"
  | .feet => "ft"
  | .celsius => "°C"
  | .kelvin => "°K"
  | .bar => "Bar"
  | .hca => "HCA"
  | .reserved => "Reserved"
  | .withoutUnits => "-"
  | .second => "s"
  | .minute => "min"
  | .hour => "h"
  | .day => "day"
  | .week => "week"
  | .month => "month"
  | .year => "year"
  | .revolution => "revolution"
  | .increment => "increment"
  | .inputPulseOnChannel0 => "InputPulseOnChannel0"
  | .outputPulseOnChannel0 => "OutputPulseOnChannel0"
  | .inputPulseOnChannel1 => "InputPulseOnChannel1"
  | .outputPulseOnChannel1 => "OutputPulseOnChannel1"
  | .liter => "l"
  | .volt => "V"
  | .ampere => "A"
  | .localMoneyCurrency => "$ (local)"
  | .symbol => "Symbol"
  | .bitTime => "BitTime"
  | .decibelMilliWatt => "dBmW"
  | .percent => "%"
  | .degree => "°"
  | .hertz => "Hz"
  | .hcaUnit => "HCAUnit"
  | .fahrenheit => "°F"
  | .americanGallon => "UsGal"
  | .calorie => "cal"

/-- The superscript of a digit or of the minus sign, by its number in Unicode. -/
def superscript (c : Char) : Char :=
  Char.ofNat (if c = '-' then 0x207B else if c = '1' then 0xB9 else if c = '2' then 0xB2 else if c = '3' then 0xB3
    else 0x2070 + (c.toNat - '0'.toNat))

/-- A unit: its symbol with the exponent as a superscript; nothing stands for the exponent 1, and exponents beyond 19 are
written after a caret. -/
def olderUnit (u : MUnit) : List Char :=
  (olderSymbol u.name).toList ++
    if u.exponent = 1 then []
    else if u.exponent.natAbs ≤ 19 then (decimalInt u.exponent).map superscript
    else '^' :: decimalInt u.exponent

/-- Words written as one, each with a capital letter: `Volume flow` is `VolumeFlow`. -/
def joinWords (capital : Bool) : List Char → List Char
  | [] => []
  | ' ' :: rest => joinWords true rest
  | c :: rest => (if capital then c.toUpper else c) :: joinWords false rest

/-- The identifiers that are not the words of `quantityText` written as one. -/
def olderIdentifiers : List (String × String) :=
  [("Time point (date)", "Date"), ("Time point (time)", "Time"),
   ("VIF contains uncorrected unit or value", "VifContainsUncorrectedUnitOrValue"), ("OBIS declaration", "ObisDeclaration"),
   ("Data container for wireless M-Bus protocol", "DataContainerForWmbusProtocol"), ("Phase U-to-U", "PhaseUtoU"),
   ("Phase U-to-I", "PhaseUtoI"), ("Phase I-to-U", "PhaseItoU")]

/-- The identifier of a quantity.  A point in time tells, other than in the structured output, whether it has seconds. -/
def olderQuantity (l : ValueLabel) : List Char :=
  if l = .dateTime then "DateTime".toList
  else if l = .dateTimeWithSeconds then "DateTimeWithSeconds".toList
  else match olderIdentifiers.lookup (quantityText l) with
    | some identifier => identifier.toList
    | none => joinWords true (quantityText l).toList

/-- The units of a record, written without space; the quantities with commas. -/
def olderUnits (v : ValueInfo) : List Char := v.units.flatMap olderUnit

def olderQuantities (v : ValueInfo) : List Char := commaJoined (v.labels.map olderQuantity)
where
  /-- Texts with a comma and a space between them. -/
  commaJoined : List (List Char) → List Char
    | [] => []
    | [t] => t
    | t :: rest => t ++ ", ".toList ++ commaJoined rest

end MBus.Spec
