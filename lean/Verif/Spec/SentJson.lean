import Verif.Spec.Sent
import Verif.Spec.Json
import Verif.Spec.Api
/-!
# What a meter sends, in JSON

What the reader of the JSON texts expects to find of the readings of a meter.
-/
namespace MBus.Spec

/-- The kind and the value of a reading in the base units of its codes; `real` is how finite reals are written. -/
def JsonValue (real : UInt32 → List Char) (scale : Int) (kind value : Option Doc) : Content → Prop
  | .number v => kind = some (.str "decimal".toList) ∧
      ∃ text, value = some (.str text) ∧ Denotes text ((v : ℚ) * 10 ^ scale) ∧ Canonical text
  | .text t => kind = some (.str "text".toList) ∧ value = some (.str t)
  | .real bits => kind = some (.str "float".toList) ∧
      if bits / 2 ^ 23 % 256 = 255 then
        value = some (.str (if bits % 2 ^ 23 ≠ 0 then "nan" else
          if bits < 2 ^ 31 then "positive_infinity" else "negative_infinity").toList)
      else ∃ b : UInt32, value = some (.num (real b)) ∧ b.toNat / 2 ^ 23 % 256 < 255 ∧
        realValue b.toNat = realValue bits * 10 ^ scale
  | .date day month year => kind = some (.str "date".toList) ∧ value = some (.str (isoDate year month day))
  | .dateTime day month year hour minute second => kind = some (.str "datetime".toList) ∧
      value = some (.str (isoDate year month day ++ ['T'] ++ isoTime hour minute (second.getD 0)))
  | .nothing => kind = some (.str "none".toList) ∧ value = none

/-- A record shows a reading; `found` is what is found at a path below the record. -/
def JsonShows (real : UInt32 → List Char) (r : MeterReading) (found : List Step → Option Doc) : Prop :=
  (∃ name, (["Instantaneous value", "Maximum value", "Minimum value", "Value during error state"].map
    String.toList)[r.function]? = some name ∧ found [.key "function"] = some (.str name)) ∧
  found [.key "storage_number"] = some (number r.storage) ∧ found [.key "tariff"] = some (number r.tariff) ∧
  found [.key "subunit"] = some (number r.subunit) ∧
  ∃ es, codeMeanings r.codes = some es ∧
    JsonValue real (total es).scale (found [.key "value", .key "kind"]) (found [.key "value", .key "value"]) r.content ∧
    found [.key "quantities"] = some (.arr ((total es).labels.map (fun l => .str (quantityText l).toList))) ∧
    ((total es).units = [] → found [.key "unit"] = none) ∧
    ((total es).units ≠ [] → ∃ text, found [.key "unit"] = some (.str text) ∧
      ((∀ u ∈ (total es).units, (ucumOf u.name).isSome) →
        UcumTerm text ((total es).units.map (fun u => ((ucumOf u.name).getD "", u.exponent)))))

/-- The text is JSON, and its one reading has the readings as its records: each of them in its place and nothing after
them. -/
def JsonReadings (real : UInt32 → List Char) (readings : List MeterReading) (text : List Char) : Prop :=
  ∃ d, (∀ d', JsonText text d' ↔ d' = d) ∧ follow [.key "decode_state"] d = some (.str "complete".toList) ∧
    (∀ i (h : i < readings.length),
      JsonShows real readings[i] (fun path => follow (.key "records" :: .at i :: path) d)) ∧
    ∀ i, readings.length ≤ i → follow [.key "records", .at i] d = none

/-- A telegram as text is answered well by all front ends in a format: the command line program ends well and prints a
good text, for the telegram on the command line and in a file, JavaScript and Python return one. -/
structure AnsweredWell (cfg : Cfg) (env : CliEnv) (aes : AesBlock) (text : List Char) (keyText : Option (List Char))
    (enrichment : Bool) (format : String) (Good : List Char → Prop) : Prop where
  commandLine : ∀ file data width detected, ¬ (file.isSome = true ∧ data.isSome = true) → InputGiven env file data text →
    ∃ out, cliMain cfg env aes file data ⟨format.toList, keyText, width, !enrichment, detected⟩ = ⟨0, out, []⟩ ∧ Good out
  javaScript : ∀ width, ∃ out,
    jsRender cfg env.front aes text format.toList keyText width (some enrichment) = .ok out ∧ Good out
  python : ∀ width, ∃ out,
    pyRender cfg env.front aes (.text text) format.toList (keyText.map .text) width enrichment = .ok out ∧ Good out

/-- The readings are in the JSON texts of all front ends and in what Python parses. -/
structure ReadEverywhere (cfg : Cfg) (env : CliEnv) (aes : AesBlock) (text : List Char) (keyText : Option (List Char))
    (enrichment : Bool) (readings : List MeterReading) : Prop where
  json : AnsweredWell cfg env aes text keyText enrichment "json" (JsonReadings env.front.text.realText readings)
  parsed : ∃ out, pyParse cfg env.front aes (.text text) (keyText.map .text) enrichment = .ok out ∧
    JsonReadings env.front.text.realText readings out

end MBus.Spec
