import Verif.Model.Names
/-!
# Model of the `Display` of values: `data_information.rs`, `value_information.rs`

`Display` of a 32-bit real (`{}` of the widened `f64`) is the parameter `realText`.
-/
namespace MBus

/-- The multiple of `p` next to `v` among those that round to `v`, if there is one. -/
def multipleNear (v p : Nat) : Option Nat :=
  let low := v / p * p
  let high := (v / p + 1) * p
  if roundNat53 low = v then
    if roundNat53 high = v ∧ high - v < v - low then some high else some low
  else if roundNat53 high = v then some high else none

/-- The number with the fewest digits that rounds to `v`, counted down from multiples of `10^k`. -/
def shortestFrom (v : Nat) : (k : Nat) → Nat
  | 0 => v
  | k + 1 => (multipleNear v (10 ^ (k + 1))).getD (shortestFrom v k)

/-- `{}` of an integer-valued `f64`, below 10^30: `float_to_decimal_common_shortest` of the standard
library prints the shortest sequence of digits that reads back as the number (the nearest to it if there
are several) and fills up with zeros. -/
def shortestNat (v : Nat) : Nat := if v = 0 then 0 else shortestFrom v 30

/-- `{}` of an `f64`. -/
def f64Text (realText : UInt32 → List Char) : F64 → List Char
  | .int v => if v < 0 then '-' :: natText (shortestNat v.natAbs) else natText (shortestNat v.natAbs)
  | .negZero => "-0".toList
  | .real32 bits => realText bits

/-- `Display` of `Month`, data_information.rs:335-354. -/
def Month.display : Month → List Char
  | .january => "Jan".toList
  | .february => "Feb".toList
  | .march => "Mar".toList
  | .april => "Apr".toList
  | .may => "May".toList
  | .june => "Jun".toList
  | .july => "Jul".toList
  | .august => "Aug".toList
  | .september => "Sep".toList
  | .october => "Oct".toList
  | .november => "Nov".toList
  | .december => "Dec".toList

/-- `Display` of `SingleEveryOrInvalid`, data_information.rs:420-428. -/
def SEI.display {α : Type} (f : α → List Char) : SEI α → List Char
  | .single a => f a
  | .every => "Every".toList
  | .invalid => "Invalid".toList

/-- `Display` of the components of dates and times, which are `u8` (data_information.rs:373-407). -/
def byteText (b : UInt8) : List Char := natText b.toNat

/-- `{:?}` of a byte slice: the numbers, separated by a comma and a blank, in brackets. -/
def bytesDebug (bytes : List UInt8) : List Char :=
  '[' :: ", ".toList.intercalate (bytes.map byteText) ++ [']']

/-- The first part of the text of a date, data_information.rs:436-447. -/
def dateText (day : SEI UInt8) (month : SEI Month) (year : SEI UInt16) : List Char :=
  day.display byteText ++ '/' :: (month.display Month.display ++ '/' ::
    year.display (fun y => natText y.toNat))

/-- `Display` of `DataType`, data_information.rs:434-459. -/
def DataType.display (realText : UInt32 → List Char) : DataType → List Char
  | .number v => f64Text realText v
  | .lossyNumber v => f64Text realText v
  | .date day month year => dateText day month year
  | .dateTime day month year hour minute =>
    dateText day month year ++ ' ' :: (hour.display byteText ++ ':' :: (minute.display byteText
      ++ ":00".toList))
  | .dateTimeWithSeconds day month year hour minute second =>
    dateText day month year ++ ' ' :: (hour.display byteText ++ ':' :: (minute.display byteText
      ++ ':' :: second.display byteText))
  | .time second minute hour =>
    hour.display byteText ++ ':' :: (minute.display byteText ++ ':' :: second.display byteText)
  | .text bytes => decodeTextUnit bytes
  | .manufacturerSpecific bytes => "Manufacturer Specific: ".toList ++ bytesDebug bytes

/-- `Display` of `Data`, data_information.rs:431-462. -/
def Data.display (realText : UInt32 → List Char) (d : Data) : List Char :=
  match d.value with
  | some value => value.display realText
  | none => "No Data".toList

/-- `Display` of `FunctionField`, data_information.rs:897-906. -/
def FunctionField.display : FunctionField → List Char
  | .instantaneousValue => "Inst".toList
  | .maximumValue => "Max".toList
  | .minimumValue => "Min".toList
  | .valueDuringErrorState => "Value During Error State".toList

/-- `{:?}` of `SpecialFunctions`, data_information.rs:907-917. -/
def SpecialFunction.debug : SpecialFunction → List Char
  | .manufacturerSpecific => "ManufacturerSpecific".toList
  | .moreRecordsFollow => "MoreRecordsFollow".toList
  | .idleFiller => "IdleFiller".toList
  | .reserved => "Reserved".toList
  | .globalReadoutRequest => "GlobalReadoutRequest".toList

/-- `Display` of `DataFieldCoding`, data_information.rs:953-979. -/
def Coding.display : Coding → List Char
  | .noData => "No Data".toList
  | .integer8 => "8-bit Integer".toList
  | .integer16 => "16-bit Integer".toList
  | .integer24 => "24-bit Integer".toList
  | .integer32 => "32-bit Integer".toList
  | .real32 => "32-bit Real".toList
  | .integer48 => "48-bit Integer".toList
  | .integer64 => "64-bit Integer".toList
  | .selectionForReadout => "Selection for Readout".toList
  | .bcd2 => "BCD 2-digit".toList
  | .bcd4 => "BCD 4-digit".toList
  | .bcd6 => "BCD 6-digit".toList
  | .bcd8 => "BCD 8-digit".toList
  | .variableLength => "Variable Length".toList
  | .bcd12 => "BCD 12-digit".toList
  | .dateTypeG => "Date Type G".toList
  | .dateTimeTypeF => "Date Time Type F".toList
  | .dateTimeTypeJ => "Date Time Type J".toList
  | .dateTimeTypeI => "Date Time Type I".toList
  | .specialFunctions f => "Special Functions (".toList ++ f.debug ++ [')']

/-- `Display` of `DataInformation`, data_information.rs:150-159. -/
def DataInfo.display (d : DataInfo) : List Char :=
  natText d.storageNumber ++ ',' :: (d.functionField.display ++ ',' :: d.coding.display)

/-- `Display` of `ValueInformation`, value_information.rs:1029-1060. -/
def ValueInfo.display (v : ValueInfo) : List Char :=
  (if v.offset ≠ 0 then '+' :: intDisplay v.offset ++ [')'] else [')'])
  ++ (if v.scale ≠ 0 then 'e' :: intDisplay v.scale else [])
  ++ (if v.units ≠ [] then '[' :: v.units.flatMap MUnit.display ++ [']'] else [])
  ++ (if v.labels ≠ [] then '(' :: ", ".toList.intercalate (v.labels.map (fun l => l.debug.toList)) ++ [')']
    else [])

end MBus
