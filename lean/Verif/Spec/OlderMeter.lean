import Verif.Spec.SentStatus
import Verif.Spec.LegacyJson
import Verif.Spec.OlderLink
/-!
# The meter in the older outputs
-/
namespace MBus.Spec

/-- The text is JSON, and the summary of its one reading names the meter. -/
def OlderJsonMeter (m : SentMeter) (text : List Char) : Prop :=
  ∃ d, (∀ d', JsonText text d' ↔ d' = d) ∧
    let found := fun steps => follow (.key "summary" :: steps) d
    found [.key "identification_number"] = some (.str (eightDigits m.number)) ∧
    found [.key "manufacturer", .key "code"] = some (.str (threeLetters m)) ∧
    found [.key "version"] = some (number m.version.toNat) ∧
    found [.key "device_type"] = some (.str (deviceName m.device))

/-- The text is a CSV file of names and values which name the meter. -/
def OlderCsvMeter (m : SentMeter) (text : List Char) : Prop :=
  ∃ names values, (∀ rows, CsvFile text rows ↔ rows = [names, values]) ∧ names.Nodup ∧ values.length = names.length ∧
    column (names, values) "Identification Number".toList = some (eightDigits m.number) ∧
    column (names, values) "Manufacturer".toList = some (threeLetters m) ∧
    column (names, values) "Version".toList = some (toString m.version.toNat).toList ∧
    column (names, values) "Device Type".toList = some (deviceName m.device)

/-- The text is JSON, and the summary of its one reading shows the access number and the words of the status. -/
def OlderJsonHeader (h : SentHeader) (text : List Char) : Prop :=
  ∃ d, (∀ d', JsonText text d' ↔ d' = d) ∧
    follow [.key "summary", .key "access_number"] d = some (number h.access.toNat) ∧
    ∃ words, follow [.key "summary", .key "status"] d = some (.str words) ∧ SaysAlarms h.status words

/-- The text is a CSV file of names and values which show them. -/
def OlderCsvHeader (h : SentHeader) (text : List Char) : Prop :=
  ∃ names values, (∀ rows, CsvFile text rows ↔ rows = [names, values]) ∧ names.Nodup ∧ values.length = names.length ∧
    column (names, values) "Access Number".toList = some (toString h.access.toNat).toList ∧
    ∃ words, column (names, values) "Status".toList = some words ∧ SaysAlarms h.status words

/-- What the older diagram says of a meter: in the frame of a wireless telegram its number is written as the library
prints its own data. -/
def olderMeterLabels (m : SentMeter) (wireless : Bool) : List (List Char) :=
  [if wireless then "ID: IdentificationNumber { number: ".toList ++ (toString m.number).toList ++ " }".toList
    else "ID: ".toList ++ eightDigits m.number,
   "Manufacturer: ".toList ++ threeLetters m,
   "Version: ".toList ++ (toString m.version.toNat).toList,
   "Device Type: ".toList ++ olderDevice m.device]

end MBus.Spec
