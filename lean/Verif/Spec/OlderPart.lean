import Verif.Spec.Display
/-!
# Dates, times and other values in the older outputs

Texts with the parts that are left open and those that are not valid.
-/
namespace MBus.Spec

/-- A part of a date or time: a number, `Every` where the telegram leaves it open, `Invalid` where it has no meaning. -/
def partText {α : Type} (text : α → List Char) : SEI α → List Char
  | .single a => text a
  | .every => "Every".toList
  | .invalid => "Invalid".toList

/-- The three letters of a month. -/
def monthShort (m : Month) : List Char := ((months.zip monthNames).lookup m).getD []

def bytePart : SEI UInt8 → List Char := partText (fun b => decimal b.toNat)

/-- Day, month and year. -/
def dateWords (day : SEI UInt8) (month : SEI Month) (year : SEI UInt16) : List Char :=
  bytePart day ++ ['/'] ++ partText monthShort month ++ ['/'] ++ partText (fun y => decimal y.toNat) year

/-- Numbers with a comma and a blank between them. -/
def numbersText : List UInt8 → List Char
  | [] => []
  | [b] => decimal b.toNat
  | b :: rest => decimal b.toNat ++ ", ".toList ++ numbersText rest

/-- Values that are neither numbers nor texts, as they are written. -/
def olderValue : DataType → Option (List Char)
  | .date day month year => some (dateWords day month year)
  | .dateTime day month year hour minute =>
    some (dateWords day month year ++ [' '] ++ bytePart hour ++ [':'] ++ bytePart minute ++ ":00".toList)
  | .dateTimeWithSeconds day month year hour minute second =>
    some (dateWords day month year ++ [' '] ++ bytePart hour ++ [':'] ++ bytePart minute ++ [':'] ++ bytePart second)
  | .time second minute hour => some (bytePart hour ++ [':'] ++ bytePart minute ++ [':'] ++ bytePart second)
  | .manufacturerSpecific bytes => some ("Manufacturer Specific: [".toList ++ numbersText bytes ++ [']'])
  | _ => none

end MBus.Spec
