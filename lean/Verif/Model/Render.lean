import Verif.Model.Output
/-!
# Model of the table, CSV and Mermaid renderings of `src/output.rs`

The functions that push whole lines are modelled by the lists of lines they push; `unlines` gives the text.
-/
namespace MBus

/-- What is taken from libraries: the text `serde_json` gives a finite real, `UnicodeWidthChar::width`,
`UnicodeWidthStr::width` and the text `{}` gives a widened 32-bit real. -/
structure TextEnv where
  realText : UInt32 → List Char
  charWidth : Char → Option Nat
  textWidth : List Char → Nat
  realDisplay : UInt32 → List Char

/-- Lines of text, each ended by a newline. -/
def unlines (lines : List (List Char)) : List Char := lines.flatMap (· ++ ['\n'])

/-- `OutputFormat`, src/output.rs:27-39. -/
inductive OutputFormat where
  | table | json | yaml | csv | mermaid | xml | annotated | annotatedText
  deriving DecidableEq, Repr

/-- `OutputFormat::as_str`, src/output.rs:43-54. -/
def OutputFormat.asStr : OutputFormat → List Char
  | .table => "table".toList
  | .json => "json".toList
  | .yaml => "yaml".toList
  | .csv => "csv".toList
  | .mermaid => "mermaid".toList
  | .xml => "xml".toList
  | .annotated => "annotated".toList
  | .annotatedText => "annotated-text".toList

/-- `OutputFormat::from_str`, src/output.rs:66-80; the error carries the text. -/
def OutputFormat.fromStr (value : List Char) : Option OutputFormat :=
  let v := (trim value).map asciiLower
  if v = "table".toList ∨ v = "table_format".toList then some .table
  else if v = "json".toList then some .json
  else if v = "yaml".toList ∨ v = "yml".toList then some .yaml
  else if v = "csv".toList then some .csv
  else if v = "mermaid".toList then some .mermaid
  else if v = "xml".toList then some .xml
  else if v = "annotated".toList ∨ v = "hexview".toList then some .annotated
  else if v = "annotated-text".toList then some .annotatedText
  else none

/-- Insertion into an association list ordered by key, as in the `BTreeMap` of `serde_json::Map`. -/
def insertMember (m : List Char × Json) : List (List Char × Json) → List (List Char × Json)
  | [] => [m]
  | x :: rest => if m.1 < x.1 then m :: x :: rest else x :: insertMember m rest

/-- The members of an object in the order of iteration. -/
def sortedMembers (members : List (List Char × Json)) : List (List Char × Json) :=
  members.foldr insertMember []

/-- The text of a member of a temporal value, src/output.rs:2082-2084.  Members are numbers or strings;
nested objects do not occur. -/
def memberText (env : TextEnv) : Json → List Char
  | .str text => text
  | .nat n => natText n
  | .real bits => env.realText bits
  | .obj _ => []

/-- `value_display`, src/output.rs:2075-2095. -/
def valueDisplay (env : TextEnv) (r : RecordOutput) : List Char :=
  match r.value.value with
  | some (.str text) => text
  | some (.nat n) => natText n
  | some (.real bits) => env.realText bits
  | some (.obj members) =>
    ", ".toList.intercalate ((sortedMembers members).map (fun m => m.1 ++ ['='] ++ memberText env m.2))
  | none =>
    if r.value.kind = "manufacturer_specific".toList then r.dataHex.filter (· ≠ ' ')
    else if r.value.kind = "none".toList then "No data".toList
    else if r.value.kind = "unknown".toList then "Unsupported value type".toList
    else []

/-! ## CSV -/

/-- The names in `headers`, src/output.rs:1945-1966. -/
def csvFrameFields : List String :=
  ["schema_version", "protocol", "frame_kind", "frame_function", "address", "meter_id",
    "manufacturer_code", "identity_source", "access_numbers", "status_codes", "security_mode",
    "decryption_state", "decode_state", "record_count", "diagnostic_codes", "manufacturer_name",
    "manufacturer_website", "frame_hex"]

/-- `RECORD_FIELDS`, src/output.rs:1930-1942. -/
def csvRecordFields : List String :=
  ["function", "storage_number", "tariff", "subunit", "quantities", "value_type", "value", "unit",
    "data_coding", "header_hex", "data_hex"]

/-- The header row of `render_csv`, src/output.rs:1945-1973. -/
def csvHeaders (o : DecodedOutput) : List (List Char) :=
  csvFrameFields.map String.toList ++ o.records.flatMap (fun r =>
    csvRecordFields.map (fun f => "record_".toList ++ natText r.index ++ ['_'] ++ f.toList))

/-- `csv_frame_row`, src/output.rs:2004-2057. -/
def csvFrameRow (o : DecodedOutput) : List (List Char) :=
  let identity := o.meter.identity
  [ natText 3,
    o.protocol,
    o.frame.kind,
    o.frame.function.getD [],
    o.frame.address.getD [],
    (identity.bind (·.id)).getD [],
    (identity.bind (·.manufacturerCode)).getD [],
    (identity.map (·.source)).getD [],
    ['|'].intercalate (o.transport.accessNumbers.map (fun v => v.1 ++ [':'] ++ natText v.2.toNat)),
    ['|'].intercalate (o.transport.statuses.map (·.raw)),
    o.security.mode.getD [],
    o.security.decryptionState,
    o.decodeState,
    natText o.records.length,
    ['|'].intercalate (o.diagnostics.map (·.code)),
    (o.enrichment.map (fun e => e.info.name.toList)).getD [],
    (o.enrichment.map (fun e => e.info.website.toList)).getD [],
    o.raw.originalFrameHex ]

/-- `csv_record_values`, src/output.rs:2059-2073. -/
def csvRecordValues (env : TextEnv) (r : RecordOutput) : List (List Char) :=
  [ r.function, natText r.storageNumber, natText r.tariff, natText r.subunit,
    ['|'].intercalate r.quantities, r.value.kind, valueDisplay env r, r.unit.getD [], r.dataCoding,
    r.headerHex, r.dataHex ]

/-- `render_csv`, src/output.rs:1927-2002, up to the writing of the two rows by the `csv` crate. -/
def csvRows (env : TextEnv) (o : DecodedOutput) : List (List Char) × List (List Char) :=
  (csvHeaders o, csvFrameRow o ++ o.records.flatMap (csvRecordValues env))

/-! ## Table -/

/-- `record_hex`, src/output.rs:2097-2104. -/
def recordHex (r : RecordOutput) : List Char :=
  if r.headerHex ≠ [] ∧ r.dataHex ≠ [] then r.headerHex ++ [' '] ++ r.dataHex
  else if r.headerHex ≠ [] then r.headerHex
  else r.dataHex

/-- `reading`, src/output.rs:2279-2291. -/
def reading (env : TextEnv) (r : RecordOutput) : List Char :=
  let quantity := if r.quantities = [] then "Reading".toList else ", ".toList.intercalate r.quantities
  let unit := (r.unit.map (' ' :: ·)).getD []
  quantity ++ ": ".toList ++ valueDisplay env r ++ unit

/-- `str::split('\n')`. -/
def splitLines : List Char → List (List Char)
  | [] => [[]]
  | c :: rest =>
    if c = '\n' then [] :: splitLines rest
    else match splitLines rest with
    | line :: lines => (c :: line) :: lines
    | [] => [[c]]

/-- The inner loop of `wrap_display`, src/output.rs:2375-2385, with the line under construction and its
width. -/
def wrapChars (env : TextEnv) (width : Nat) : List Char → (line : List Char) → (lineWidth : Nat) →
    List (List Char)
  | [], line, _ => [line]
  | c :: rest, line, lineWidth =>
    let characterWidth := (env.charWidth c).getD 0
    if lineWidth ≠ 0 ∧ lineWidth + characterWidth > width then
      line :: wrapChars env width rest [c] characterWidth
    else wrapChars env width rest (line ++ [c]) (lineWidth + characterWidth)

/-- `wrap_display`, src/output.rs:2363-2391.  The final `is_empty` test never succeeds. -/
def wrapDisplay (env : TextEnv) (value : List Char) (width : Nat) : List (List Char) :=
  if width = 0 then [[]]
  else (splitLines value).flatMap (fun line => if line = [] then [[]] else wrapChars env width line [] 0)

/-- `push_border`, src/output.rs:2326-2337. -/
def borderLine (left middle right : Char) (widths : List Nat) : List Char :=
  left :: widths.zipIdx.flatMap (fun (w, i) =>
    List.replicate (w + 2) '─' ++ [if i + 1 = widths.length then right else middle])

/-- `push_row`, src/output.rs:2339-2361. -/
def rowLines (env : TextEnv) (cells : List (List Char)) (widths : List Nat) : List (List Char) :=
  let wrapped := widths.zipIdx.map (fun (w, i) => wrapDisplay env (cells[i]?.getD []) w)
  let height := ((wrapped.map List.length).max?).getD 1
  (List.range height).map (fun line =>
    '│' :: widths.zipIdx.flatMap (fun (w, i) =>
      let value := (wrapped[i]?.bind (·[line]?)).getD []
      [' '] ++ value ++ List.replicate (w - env.textWidth value) ' ' ++ [' ', '│']))

/-- `box_table`, src/output.rs:2304-2324. -/
def boxTable (env : TextEnv) (headers : List (List Char)) (rows : List (List (List Char)))
    (widths : List Nat) : List (List Char) :=
  [borderLine '┌' '┬' '┐' widths] ++ rowLines env headers widths ++ [borderLine '├' '┼' '┤' widths]
  ++ rows.zipIdx.flatMap (fun (row, index) =>
    rowLines env row widths ++ if index + 1 ≠ rows.length then [borderLine '├' '┼' '┤' widths] else [])
  ++ [borderLine '└' '┴' '┘' widths]

/-- `key_value_box`, src/output.rs:2293-2302. -/
def keyValueBox (env : TextEnv) (rows : List (List Char × List Char)) (width : Nat) :
    List (List Char) :=
  let content := width - 7
  let keyWidth := min (max (content / 3) 10) 24
  let valueWidth := max (content - keyWidth) 1
  boxTable env ["Field".toList, "Value".toList] (rows.map (fun r => [r.1, r.2])) [keyWidth, valueWidth]

/-- The third column of a record, src/output.rs:2192-2195, 2228-2231 and 2249-2252. -/
def stuText (r : RecordOutput) : List Char :=
  natText r.storageNumber ++ ['/'] ++ natText r.tariff ++ ['/'] ++ natText r.subunit

/-- The rows of the summary box, src/output.rs:2121-2170. -/
def summaryRows (o : DecodedOutput) : List (List Char × List Char) :=
  let identity := o.meter.identity
  [ ("Function".toList, o.frame.function.getD ['—']),
    ("Meter".toList, (identity.bind (·.id)).getD ['—']),
    ("Manufacturer".toList, (identity.bind (·.manufacturerCode)).getD ['—']),
    ("Device".toList, (identity.bind (·.deviceType)).getD ['—']),
    ("Security".toList, o.security.payloadProtection ++ " · ".toList ++ o.security.decryptionState) ]
  ++ match o.enrichment with
  | some e =>
    [ ("Manufacturer name".toList, e.info.name.toList), ("Website".toList, e.info.website.toList),
      ("Description".toList, e.info.description.toList) ]
  | none => []

/-- The record section of `render_table`, src/output.rs:2173-2261. -/
def recordSection (env : TextEnv) (records : List RecordOutput) (width : Nat) : List (List Char) :=
  if records = [] then []
  else if width ≥ 100 then
    let content := width - 19
    let readingWidth := max (content * 34 / 100) 18
    boxTable env ["#".toList, "Reading".toList, "Function".toList, "S/T/U".toList, "Coding".toList,
        "Raw".toList]
      (records.map (fun r =>
        [natText r.index, reading env r, r.function, stuText r, r.dataCoding, recordHex r]))
      [3, readingWidth, 12, 11, 13, content - (3 + readingWidth + 12 + 11 + 13)]
  else if width ≥ 72 then
    let content := width - 13
    let readingWidth := max (content * 52 / 100) 24
    boxTable env ["#".toList, "Reading / detail".toList, "Function".toList, "S/T/U".toList]
      (records.map (fun r =>
        [natText r.index,
          reading env r ++ ['\n'] ++ r.dataCoding ++ " · raw ".toList ++ recordHex r,
          r.function, stuText r]))
      [3, readingWidth, 12, content - (3 + readingWidth + 12)]
  else records.flatMap (fun r =>
    ["Record ".toList ++ natText r.index]
    ++ keyValueBox env
      [ ("Reading".toList, reading env r), ("Function".toList, r.function),
        ("Storage/Tariff/Subunit".toList, stuText r), ("Coding".toList, r.dataCoding),
        ("Raw".toList, recordHex r) ] width)

/-- The lines of `render_table`, src/output.rs:2106-2277; `none` is the error for a width below
`MINIMUM_TABLE_WIDTH`, src/output.rs:25. -/
def tableLines (env : TextEnv) (o : DecodedOutput) (width : Nat) : Option (List (List Char)) :=
  if width < 32 then none
  else
    let title := o.protocol ++ [' '] ++ o.frame.kind ++ " frame · ".toList ++ o.decodeState
      ++ " decode".toList
    some (wrapDisplay env title width
      ++ keyValueBox env (summaryRows o) width
      ++ recordSection env o.records width
      ++ (if o.diagnostics = [] then []
        else ["Diagnostics".toList] ++ keyValueBox env
          (o.diagnostics.map (fun d => (d.code, d.severity ++ ": ".toList ++ d.message))) width))

/-- `render_table`, src/output.rs:2106-2277. -/
def renderTable (env : TextEnv) (o : DecodedOutput) (width : Nat) : Option (List Char) :=
  (tableLines env o width).map unlines

/-! ## Mermaid -/

/-- `str::replace` of a single character. -/
def replaceChar (c : Char) (text value : List Char) : List Char :=
  value.flatMap (fun x => if x = c then text else [x])

/-- `mermaid_escape`, src/output.rs:2569-2576. -/
def mermaidEscape (value : List Char) : List Char :=
  replaceChar '\n' [' '] (replaceChar '>' "&gt;".toList (replaceChar '<' "&lt;".toList
    (replaceChar '"' "&quot;".toList (replaceChar '&' "&amp;".toList value))))

/-- `mermaid_escape` of the older rendering, src/mbus_data.rs:1442-1446. -/
def mermaidEscapeOld (value : List Char) : List Char :=
  replaceChar ']' "#93;".toList (replaceChar '[' "#91;".toList (replaceChar '"' "#quot;".toList value))

/-- `        {id}["{label}"]`. -/
def nodeLine (id label : List Char) : List Char :=
  "        ".toList ++ id ++ "[\"".toList ++ label ++ "\"]".toList

/-- `    subgraph {id}["{label}"]`. -/
def subgraphLine (id label : List Char) : List Char :=
  "    subgraph ".toList ++ id ++ "[\"".toList ++ label ++ "\"]".toList

/-- The edges between neighbours: `for pair in nodes.windows(2)`, src/output.rs:2422-2426, 2457-2461 and
2490-2494. -/
def chainLines (arrow : List Char) : List (List Char) → List (List Char)
  | a :: b :: rest => ("        ".toList ++ a ++ arrow ++ b) :: chainLines arrow (b :: rest)
  | _ => []

/-- `R{index}`. -/
def recordNode (r : RecordOutput) : List Char := 'R' :: natText r.index

/-- The nodes of the frame, src/output.rs:2399-2421. -/
def frameNodes (o : DecodedOutput) : List (List Char × List Char) :=
  [("FRAME_KIND".toList, mermaidEscape o.protocol ++ " · ".toList ++ mermaidEscape o.frame.kind)]
  ++ (o.frame.function.map (fun f =>
    ("FRAME_FUNCTION".toList, "Function · ".toList ++ mermaidEscape f))).toList
  ++ (o.frame.address.map (fun a =>
    ("FRAME_ADDRESS".toList, "Address · ".toList ++ mermaidEscape a))).toList

/-- The nodes of the meter, src/output.rs:2430-2456. -/
def meterNodes (identity : MeterIdentity) : List (List Char × List Char) :=
  [ ("METER_ID".toList, "ID · ".toList ++ mermaidEscape (identity.id.getD "unknown".toList)),
    ("METER_MANUFACTURER".toList, "Manufacturer · ".toList
      ++ mermaidEscape (identity.manufacturerCode.getD "unknown manufacturer".toList)) ]
  ++ (identity.deviceType.map (fun t =>
    ("METER_TYPE".toList, "Type · ".toList ++ mermaidEscape t))).toList
  ++ (identity.version.map (fun v =>
    ("METER_VERSION".toList, "Version · ".toList ++ natText v.toNat))).toList

/-- The `classDef` lines, src/output.rs:2512-2535. -/
def classDefs : List (String × String) :=
  [ ("frame", "fill:#1565c0,color:#fff,stroke:#0d47a1,stroke-width:2px"),
    ("meter", "fill:#2e7d32,color:#fff,stroke:#1b5e20,stroke-width:2px"),
    ("security", "fill:#e65100,color:#fff,stroke:#bf360c,stroke-width:2px"),
    ("record0", "fill:#1565c0,color:#fff,stroke:#0d47a1,stroke-width:2px"),
    ("record1", "fill:#2e7d32,color:#fff,stroke:#1b5e20,stroke-width:2px"),
    ("record2", "fill:#e65100,color:#fff,stroke:#bf360c,stroke-width:2px"),
    ("record3", "fill:#6a1b9a,color:#fff,stroke:#4a148c,stroke-width:2px"),
    ("record4", "fill:#c62828,color:#fff,stroke:#8e0000,stroke-width:2px"),
    ("record5", "fill:#00695c,color:#fff,stroke:#004d40,stroke-width:2px"),
    ("record6", "fill:#f9a825,color:#000,stroke:#f57f17,stroke-width:2px"),
    ("record7", "fill:#4527a0,color:#fff,stroke:#311b92,stroke-width:2px"),
    ("diagnostic", "fill:#b71c1c,color:#fff,stroke:#7f0000,stroke-width:2px") ]

/-- `RECORD_CLASSES`, src/output.rs:2394-2396. -/
def recordClasses : List String :=
  ["record0", "record1", "record2", "record3", "record4", "record5", "record6", "record7"]

/-- A subgraph: its opening, direction, nodes, the links between them, and `end`. -/
def subgraphLines (id label : List Char) (nodes : List (List Char × List Char)) (arrow : List Char) :
    List (List Char) :=
  [subgraphLine id label, "        direction LR".toList]
  ++ nodes.map (fun n => nodeLine n.1 n.2) ++ chainLines arrow (nodes.map (·.1)) ++ ["    end".toList]

/-- The lines of `render_mermaid`, src/output.rs:2393-2567. -/
def mermaidLines (env : TextEnv) (o : DecodedOutput) : List (List Char) :=
  ["flowchart TD".toList]
  ++ subgraphLines "FRAME_SG".toList "Frame".toList (frameNodes o) " --> ".toList
  ++ (match o.meter.identity with
    | some identity =>
      subgraphLines "METER_SG".toList "Meter".toList (meterNodes identity) " --> ".toList
      ++ ["    FRAME_SG --> METER_SG".toList]
    | none => [])
  ++ subgraphLines "SECURITY_SG".toList "Security".toList
    [ ("SECURITY_MODE".toList, mermaidEscape o.security.payloadProtection),
      ("SECURITY_STATE".toList, mermaidEscape o.security.decryptionState) ] " --> ".toList
  ++ ["    FRAME_SG --> SECURITY_SG".toList]
  ++ (if o.records = [] then []
    else subgraphLines "RECORDS_SG".toList ("Data Records · ".toList ++ natText o.records.length)
        (o.records.map (fun r => (recordNode r, mermaidEscape (reading env r)))) " ~~~ ".toList
      ++ [if o.meter.identity.isSome then "    METER_SG --> RECORDS_SG".toList
        else "    FRAME_SG --> RECORDS_SG".toList])
  ++ (match o.diagnostics with
    | d :: _ =>
      [ "    DIAG[\"".toList ++ natText o.diagnostics.length ++ " diagnostic(s) · ".toList
          ++ mermaidEscape d.code ++ "\"]".toList,
        "    FRAME_SG --> DIAG".toList ]
    | [] => [])
  ++ [[]]
  ++ classDefs.map (fun c => "    classDef ".toList ++ c.1.toList ++ [' '] ++ c.2.toList)
  ++ ["    class ".toList ++ [','].intercalate ((frameNodes o).map (·.1)) ++ " frame".toList]
  ++ (match o.meter.identity with
    | some identity =>
      ["    class METER_ID,METER_MANUFACTURER meter".toList]
      ++ (if identity.deviceType.isSome then ["    class METER_TYPE meter".toList] else [])
      ++ (if identity.version.isSome then ["    class METER_VERSION meter".toList] else [])
    | none => [])
  ++ ["    class SECURITY_MODE,SECURITY_STATE security".toList]
  ++ o.records.map (fun r =>
    "    class ".toList ++ recordNode r ++ [' ']
      ++ (recordClasses[r.index % recordClasses.length]?.getD "record0").toList)
  ++ (if o.diagnostics = [] then [] else ["    class DIAG diagnostic".toList])
  ++ ["    style FRAME_SG fill:#e8f1fb,stroke:#1565c0,color:#0d1117".toList]
  ++ (if o.meter.identity.isSome then
      ["    style METER_SG fill:#e8f5e9,stroke:#2e7d32,color:#0d1117".toList] else [])
  ++ ["    style SECURITY_SG fill:#fff3e0,stroke:#e65100,color:#0d1117".toList]
  ++ (if o.records = [] then []
    else ["    style RECORDS_SG fill:#f3e5f5,stroke:#6a1b9a,color:#0d1117".toList])

/-- `render_mermaid`, src/output.rs:2393-2567. -/
def renderMermaid (env : TextEnv) (o : DecodedOutput) : List Char := unlines (mermaidLines env o)

end MBus
