import Verif.Spec.SentJson
import Verif.Spec.CsvText
import Verif.Spec.Render
/-!
# What a meter sends, in CSV

What the reader of the CSV texts expects to find of the readings of a meter.
-/
namespace MBus.Spec

/-- The cells `value_type` and `value` of a reading in the base units of its codes; `real` is how finite reals are
written. -/
def CsvValue (real : UInt32 → List Char) (scale : Int) (kind value : Option (List Char)) : Content → Prop
  | .number v => kind = some "decimal".toList ∧
      ∃ text, value = some text ∧ Denotes text ((v : ℚ) * 10 ^ scale) ∧ Canonical text
  | .text t => kind = some "text".toList ∧ value = some t
  | .real bits => kind = some "float".toList ∧
      if bits / 2 ^ 23 % 256 = 255 then
        value = some (if bits % 2 ^ 23 ≠ 0 then "nan" else
          if bits < 2 ^ 31 then "positive_infinity" else "negative_infinity").toList
      else ∃ b : UInt32, value = some (real b) ∧ b.toNat / 2 ^ 23 % 256 < 255 ∧
        realValue b.toNat = realValue bits * 10 ^ scale
  | .date day month year => kind = some "date".toList ∧ value = some (isoDate year month day)
  | .dateTime day month year hour minute second => kind = some "datetime".toList ∧
      value = some (isoDate year month day ++ ['T'] ++ isoTime hour minute (second.getD 0))
  | .nothing => kind = some "none".toList ∧ value = some "No data".toList

/-- The cells of a record show a reading; `cell` is what is below a name. -/
def CsvShows (real : UInt32 → List Char) (r : MeterReading) (cell : String → Option (List Char)) : Prop :=
  (∃ name, (["Instantaneous value", "Maximum value", "Minimum value", "Value during error state"].map
    String.toList)[r.function]? = some name ∧ cell "function" = some name) ∧
  cell "storage_number" = some (toString r.storage).toList ∧ cell "tariff" = some (toString r.tariff).toList ∧
  cell "subunit" = some (toString r.subunit).toList ∧
  ∃ es, codeMeanings r.codes = some es ∧
    CsvValue real (total es).scale (cell "value_type") (cell "value") r.content ∧
    cell "quantities" = some (['|'].intercalate ((total es).labels.map (fun l => (quantityText l).toList))) ∧
    ((total es).units = [] → cell "unit" = some []) ∧
    ((total es).units ≠ [] → ∃ text, cell "unit" = some text ∧
      ((∀ u ∈ (total es).units, (ucumOf u.name).isSome) →
        UcumTerm text ((total es).units.map (fun u => ((ucumOf u.name).getD "", u.exponent)))))

/-- The text is a CSV file of a row of distinct names and a row of values, eighteen for the telegram and eleven for each
of the readings. -/
def CsvReadings (real : UInt32 → List Char) (readings : List MeterReading) (text : List Char) : Prop :=
  ∃ names values, (∀ rows, CsvFile text rows ↔ rows = [names, values]) ∧ names.Nodup ∧
    names.length = 18 + 11 * readings.length ∧ values.length = names.length ∧
    column (names, values) "decode_state".toList = some "complete".toList ∧
    column (names, values) "record_count".toList = some (toString readings.length).toList ∧
    ∀ i (h : i < readings.length), CsvShows real readings[i]
      (fun field => column (names, values) ("record_".toList ++ (toString i).toList ++ ['_'] ++ field.toList))

end MBus.Spec
