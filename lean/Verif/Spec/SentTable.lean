import Verif.Spec.SentCsv
import Verif.Spec.SentIdentity
/-!
# Tables as documents

A table is a text of lines and boxes; boxes have a head and rows of cells.  What the reader of a table expects to find of
a telegram and of the readings of a meter.
-/
namespace MBus.Spec

/-! ## Lines and boxes -/

/-- A part of the text: a line, or a box with a head and rows of cells. -/
inductive TablePart where
  | line (text : List Char)
  | box (head : List (List Char)) (rows : List (List (List Char)))
  deriving DecidableEq

/-- A horizontal line of a box. -/
def boxRule (left middle right : Char) (widths : List Nat) : List Char :=
  left :: [middle].intercalate (widths.map (fun w => List.replicate (w + 2) '─')) ++ [right]

/-- How a part is drawn.  A box has a rule above and below, and rules between the head and the rows; its rows have a cell
for each column.  A line does not look like the top of a box. -/
inductive Drawn (w : Char → Nat) : TablePart → List (List Char) → Prop
  | line (text : List Char) : '\n' ∉ text → text.head? ≠ some '┌' → Drawn w (.line text) [text]
  | box (head : List (List Char)) (rows : List (List (List Char))) (widths : List Nat) (top : List (List Char))
      (drawn : List (List (List Char))) : (∀ r ∈ head :: rows, r.length = widths.length) →
      TableRow w head widths top → List.Forall₂ (fun r lines => TableRow w r widths lines) rows drawn →
      Drawn w (.box head rows) (boxRule '┌' '┬' '┐' widths :: top ++
        drawn.flatMap (fun lines => boxRule '├' '┼' '┤' widths :: lines) ++ [boxRule '└' '┴' '┘' widths])

/-- The text consists of the drawn parts, each line with a line break. -/
def TableDocument (w : Char → Nat) (parts : List TablePart) (text : List Char) : Prop :=
  ∃ drawn, List.Forall₂ (Drawn w) parts drawn ∧ text = drawn.flatten.flatMap (· ++ ['\n'])

/-- A text without its blanks and line breaks: what can be told of a cell that is broken and padded to fit. -/
def bare (text : List Char) : List Char := text.filter (fun c => c ≠ ' ' ∧ c ≠ '\n')

/-- A part up to blanks and line breaks in cells. -/
def TablePart.bare : TablePart → TablePart
  | .line text => .line text
  | .box head rows => .box (head.map Spec.bare) (rows.map (·.map Spec.bare))

/-! ## A telegram as a table -/

/-- The texts of a record: its number, what was read, the function, storage number, tariff and subunit, the coding and the
bytes. -/
structure RecordTexts where
  index : List Char
  reading : List Char
  function : List Char
  place : List Char
  coding : List Char
  raw : List Char
  deriving DecidableEq

/-- A box of names and values. -/
def factsBox (rows : List (List Char × List Char)) : TablePart :=
  .box ["Field".toList, "Value".toList] (rows.map (fun r => [r.1, r.2]))

/-- The parts for the records: a row for each if there is space, else a box for each. -/
def recordParts (width : Nat) (records : List RecordTexts) : List TablePart :=
  if records = [] then []
  else if 100 ≤ width then
    [.box (["#", "Reading", "Function", "S/T/U", "Coding", "Raw"].map String.toList)
      (records.map (fun r => [r.index, r.reading, r.function, r.place, r.coding, r.raw]))]
  else if 72 ≤ width then
    [.box (["#", "Reading / detail", "Function", "S/T/U"].map String.toList)
      (records.map (fun r =>
        [r.index, r.reading ++ ['\n'] ++ r.coding ++ " · raw ".toList ++ r.raw, r.function, r.place]))]
  else records.flatMap (fun r =>
    [.line ("Record ".toList ++ r.index),
     factsBox [("Reading".toList, r.reading), ("Function".toList, r.function),
      ("Storage/Tariff/Subunit".toList, r.place), ("Coding".toList, r.coding), ("Raw".toList, r.raw)]])

/-- The text of a table: a title, the facts about the telegram, the records and the diagnostics. -/
def IsTable (w : Char → Nat) (width : Nat) (title : List Char) (facts : List (List Char × List Char))
    (records : List RecordTexts) (diagnostics : List (List Char × List Char)) (text : List Char) : Prop :=
  ∃ titleLines, Wrapped w width title titleLines ∧ TableDocument w
    (titleLines.map .line ++ [factsBox facts] ++ recordParts width records ++
      if diagnostics = [] then [] else [.line "Diagnostics".toList, factsBox diagnostics]) text

/-- The facts about a telegram. -/
def telegramFacts (o : DecodedOutput) : List (List Char × List Char) :=
  let or_dash := fun (x : Option (List Char)) => x.getD ['—']
  [("Function".toList, or_dash o.frame.function), ("Meter".toList, or_dash (o.meter.identity.bind (·.id))),
   ("Manufacturer".toList, or_dash (o.meter.identity.bind (·.manufacturerCode))),
   ("Device".toList, or_dash (o.meter.identity.bind (·.deviceType))),
   ("Security".toList, o.security.payloadProtection ++ " · ".toList ++ o.security.decryptionState)] ++
  o.enrichment.toList.flatMap (fun e =>
    [("Manufacturer name".toList, e.info.name.toList), ("Website".toList, e.info.website.toList),
     ("Description".toList, e.info.description.toList)])

/-- The texts of a record of the structured output; the value is written as in the CSV text. -/
def recordTexts (env : TextEnv) (r : RecordOutput) : RecordTexts where
  index := (toString r.index).toList
  reading := (if r.quantities = [] then "Reading".toList else ", ".toList.intercalate r.quantities) ++ ": ".toList ++
    valueDisplay env r ++ (match r.unit with
    | some u => ' ' :: u
    | none => [])
  function := r.function
  place := (toString r.storageNumber).toList ++ ['/'] ++ (toString r.tariff).toList ++ ['/'] ++
    (toString r.subunit).toList
  coding := r.dataCoding
  raw := [' '].intercalate ([r.headerHex, r.dataHex].filter (· ≠ []))

/-! ## The readings of a meter -/

/-- What was read: the quantities, the value and the unit. -/
def ReadingText (real : UInt32 → List Char) (r : MeterReading) (text : List Char) : Prop :=
  ∃ es kind value unit, codeMeanings r.codes = some es ∧ CsvValue real (total es).scale kind (some value) r.content ∧
    text = (if (total es).labels = [] then "Reading".toList
      else ", ".toList.intercalate ((total es).labels.map (fun l => (quantityText l).toList))) ++
      ": ".toList ++ value ++ unit ∧
    ((total es).units = [] → unit = []) ∧
    ((total es).units ≠ [] → ∃ u, unit = ' ' :: u ∧ ((∀ u ∈ (total es).units, (ucumOf u.name).isSome) →
        UcumTerm u ((total es).units.map (fun u => ((ucumOf u.name).getD "", u.exponent)))))

/-- The texts of a record show the reading with number `i`. -/
structure RecordShows (real : UInt32 → List Char) (r : MeterReading) (i : Nat) (t : RecordTexts) : Prop where
  index : t.index = (toString i).toList
  reading : ReadingText real r t.reading
  function : (["Instantaneous value", "Maximum value", "Minimum value", "Value during error state"].map
    String.toList)[r.function]? = some t.function
  place : t.place = (toString r.storage).toList ++ ['/'] ++ (toString r.tariff).toList ++ ['/'] ++
    (toString r.subunit).toList

/-- The text is a table of a completely decoded telegram that lists exactly the readings. -/
def TableReadings (w : Char → Nat) (real : UInt32 → List Char) (width : Nat) (readings : List MeterReading)
    (text : List Char) : Prop :=
  ∃ protocol kind facts records diagnostics,
    IsTable w width (protocol ++ [' '] ++ kind ++ " frame · complete decode".toList) facts records diagnostics text ∧
    records.length = readings.length ∧
    ∀ i r t, readings[i]? = some r → records[i]? = some t → RecordShows real r i t

/-- The text is a table that names the meter. -/
def TableMeter (w : Char → Nat) (width : Nat) (m : SentMeter) (text : List Char) : Prop :=
  ∃ title function rest records diagnostics,
    IsTable w width title ([("Function".toList, function), ("Meter".toList, eightDigits m.number),
      ("Manufacturer".toList, threeLetters m), ("Device".toList, deviceName m.device)] ++ rest) records diagnostics text

/-- All front ends answer with a good table: with the width asked for, that of the terminal or 100 columns. -/
structure TableAnswered (cfg : Cfg) (env : CliEnv) (aes : AesBlock) (text : List Char) (keyText : Option (List Char))
    (enrichment : Bool) (Good : Nat → List Char → Prop) : Prop where
  commandLine : ∀ file data width detected, ¬ (file.isSome = true ∧ data.isSome = true) → InputGiven env file data text →
    32 ≤ (width.or detected).getD 100 →
    ∃ out, cliMain cfg env aes file data ⟨"table".toList, keyText, width, !enrichment, detected⟩ = ⟨0, out, []⟩ ∧
      Good ((width.or detected).getD 100) out
  javaScript : ∀ width, 32 ≤ Option.getD width 100 → ∃ out,
    jsRender cfg env.front aes text "table".toList keyText width (some enrichment) = .ok out ∧ Good (width.getD 100) out
  python : ∀ width, 32 ≤ Option.getD width 100 → ∃ out,
    pyRender cfg env.front aes (.text text) "table".toList (keyText.map .text) width enrichment = .ok out ∧
      Good (width.getD 100) out

end MBus.Spec
