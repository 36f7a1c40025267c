import Verif.Spec.SentFixed
import Verif.Spec.LegacyJson
/-!
# Meters with the fixed data structure in the older JSON
-/
namespace MBus.Spec

/-- The text is JSON, and its one reading shows the number of the meter, its access number, the words of its status, the
two bytes of units and medium as one number, and the two counters. -/
def OlderFixed (m : SentFixed) (text : List Char) : Prop :=
  ∃ d, (∀ d', JsonText text d' ↔ d' = d) ∧
    let layer := fun steps => follow ([.key "user_data", .key "FixedDataStructure"] ++ steps) d
    let summary := fun name => follow [.key "summary", .key name] d
    layer [.key "identification_number", .key "number"] = some (number m.number) ∧
    layer [.key "access_number"] = some (number m.access.toNat) ∧
    layer [.key "device_type_and_unit"] = some (number (256 * (m.unit1.val + 64 * (m.medium.val % 4)) +
      (m.unit2.val + 64 * (m.medium.val / 4)))) ∧
    layer [.key "counter1", .key "count"] = some (number m.counter1) ∧
    layer [.key "counter2", .key "count"] = some (number m.counter2) ∧
    summary "identification_number" = some (.str (eightDigits m.number)) ∧
    summary "access_number" = some (number m.access.toNat) ∧
    summary "status" =
      some (.str (if m.status.fixedWords = [] then "No Error(s)".toList else commaSeparated m.status.fixedWords)) ∧
    follow [.key "data_records"] d = some .null ∧ follow [.key "summary", .key "records", .at 0] d = none

/-- The text is a CSV file of names and values which show the number of the meter, its access number and the words of its
status; there are no readings. -/
def OlderFixedRow (m : SentFixed) (text : List Char) : Prop :=
  ∃ names values, (∀ rows, CsvFile text rows ↔ rows = [names, values]) ∧ names.Nodup ∧ values.length = names.length ∧
    names.length = 11 ∧
    column (names, values) "Identification Number".toList = some (eightDigits m.number) ∧
    column (names, values) "Access Number".toList = some (toString m.access.toNat).toList ∧
    column (names, values) "Status".toList =
      some (if m.status.fixedWords = [] then "No Error(s)".toList else commaSeparated m.status.fixedWords)

end MBus.Spec
