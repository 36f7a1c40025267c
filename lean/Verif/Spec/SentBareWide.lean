import Verif.Spec.SentReset
/-!
# Telegrams without readings in `csv-wide`
-/
namespace MBus.Spec

/-- The text is a CSV file of names and values: the eleven columns of the frame, and all those of the meter and of its
header are empty. -/
def BareRow (text : List Char) : Prop :=
  ∃ names values, (∀ rows, CsvFile text rows ↔ rows = [names, values]) ∧ names.Nodup ∧ values.length = names.length ∧
    names.length = 11 ∧
    ∀ name ∈ ["Identification Number", "Manufacturer", "Access Number", "Status", "Version", "Device Type"],
      column (names, values) name.toList = some []

end MBus.Spec
