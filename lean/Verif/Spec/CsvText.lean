import Mathlib.Tactic.Common
/-!
# CSV files, RFC 4180

Lines end with a line feed, with or without a carriage return before it; every line has its end.
-/
namespace MBus.Spec

/-- The inside of a quoted field and its value: a quote is written twice. -/
inductive CsvQuoted : List Char → List Char → Prop
  | nil : CsvQuoted [] []
  | plain {t v : List Char} (c : Char) : c ≠ '"' → CsvQuoted t v → CsvQuoted (c :: t) (c :: v)
  | quote {t v : List Char} : CsvQuoted t v → CsvQuoted ('"' :: '"' :: t) ('"' :: v)

/-- A field and its value: in quotes, or without quotes, commas and line ends. -/
inductive CsvField : List Char → List Char → Prop
  | quoted {t v : List Char} : CsvQuoted t v → CsvField ('"' :: t ++ ['"']) v
  | plain {v : List Char} : (∀ c ∈ v, c ∉ [',', '"', '\r', '\n']) → CsvField v v

/-- The fields of a line, separated by commas. -/
inductive CsvRecord : List Char → List (List Char) → Prop
  | one {t v : List Char} : CsvField t v → CsvRecord t [v]
  | more {t v s : List Char} {vs : List (List Char)} : CsvField t v → CsvRecord s vs →
      CsvRecord (t ++ ',' :: s) (v :: vs)

/-- The lines of a file. -/
inductive CsvFile : List Char → List (List (List Char)) → Prop
  | nil : CsvFile [] []
  | line {t s e : List Char} {r : List (List Char)} {rs : List (List (List Char))} :
      CsvRecord t r → e ∈ [['\n'], ['\r', '\n']] → CsvFile s rs → CsvFile (t ++ e ++ s) (r :: rs)

end MBus.Spec
