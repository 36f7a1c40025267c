import Mathlib.Data.List.Forall2
import Verif.Model.Render
import Verif.Spec.Hex
/-!
# Specification of the table, CSV and Mermaid renderings: C51, C52, C92-C95
-/
namespace MBus.Spec

/-! ## Tables -/

/-- The width of a text on a terminal, given the width of the characters. -/
def displayWidth (w : Char → Nat) (text : List Char) : Nat := (text.map w).sum

/-- The width of a character; control characters have none. -/
def charW (env : TextEnv) (c : Char) : Nat := (env.charWidth c).getD 0

/-- What is assumed of the library for widths: a text is as wide as its characters together, no character
is wider than two columns, and printable ASCII and the lines of boxes are one column wide. -/
structure SaneWidths (env : TextEnv) : Prop where
  additive (text : List Char) : env.textWidth text = displayWidth (charW env) text
  narrow (c : Char) : charW env c ≤ 2
  ascii (c : Char) : 32 ≤ c.toNat → c.toNat < 127 → charW env c = 1
  box (c : Char) : c ∈ "│─┌┬┐├┼┤└┴┘".toList → charW env c = 1

/-- `lines` is one line of text broken to fit a width: nothing is lost, every line fits, and a line is
broken only where the next character does not fit. -/
structure Broken (w : Char → Nat) (width : Nat) (text : List Char) (lines : List (List Char)) : Prop where
  all : lines.flatten = text
  some_line : lines ≠ []
  fits : ∀ l ∈ lines, displayWidth w l ≤ width
  needed : ∀ i a b, lines[i]? = some a → lines[i + 1]? = some b →
    ∃ c rest, b = c :: rest ∧ width < displayWidth w a + w c

/-- `lines` is a text of several lines, each broken to fit a width. -/
def Wrapped (w : Char → Nat) (width : Nat) (text : List Char) (lines : List (List Char)) : Prop :=
  ∃ source groups, text = ['\n'].intercalate source ∧ (∀ s ∈ source, '\n' ∉ s) ∧
    lines = groups.flatten ∧ List.Forall₂ (Broken w width) source groups

/-- A line of a table: the values, padded with `pad` blanks, between vertical bars. -/
def tableLine (values : List (List Char × Nat)) : List Char :=
  '│' :: values.flatMap (fun (v, pad) => [' '] ++ v ++ List.replicate pad ' ' ++ [' ', '│'])

/-- `lines` is a row of a table: below one another the lines of each cell, wrapped to the width of its
column, all of them, and padded to that width. -/
def TableRow (w : Char → Nat) (cells : List (List Char)) (widths : List Nat) (lines : List (List Char)) :
    Prop :=
  ∃ columns : List (List (List Char)), columns.length = widths.length ∧
    (∀ (i width : Nat), widths[i]? = some width → ∃ cell, columns[i]? = some cell ∧
      cell.length ≤ lines.length ∧ Wrapped w width (cells[i]?.getD []) cell) ∧
    ∀ (k : Nat) line, lines[k]? = some line →
      line = tableLine ((columns.zip widths).map (fun (cell, width) =>
        (cell[k]?.getD [], width - displayWidth w (cell[k]?.getD []))))

/-! ## Labels of diagrams -/

/-- `Shows escaped text`: the label `escaped` is displayed as `text`.  Four characters are written as
entities; a newline is written as a blank. -/
inductive Shows : List Char → List Char → Prop
  | nil : Shows [] []
  | amp {e t} : Shows e t → Shows ("&amp;".toList ++ e) ('&' :: t)
  | quot {e t} : Shows e t → Shows ("&quot;".toList ++ e) ('"' :: t)
  | lt {e t} : Shows e t → Shows ("&lt;".toList ++ e) ('<' :: t)
  | gt {e t} : Shows e t → Shows ("&gt;".toList ++ e) ('>' :: t)
  | newline {e t} : Shows e t → Shows (' ' :: e) ('\n' :: t)
  | plain {e t} (c : Char) : c ∉ ['&', '"', '<', '>', '\n'] → Shows e t → Shows (c :: e) (c :: t)

/-- A label that does not end early, start markup or break the line. -/
def SafeLabel (label : List Char) : Prop := ∀ c ∈ label, c ∉ ['"', '<', '>', '\n']

/-! ## Diagrams -/

/-- The statements of a flowchart used in the diagrams. -/
inductive Stmt where
  | subgraph (id label : List Char)
  | direction
  | close
  | node (indent : Nat) (id label : List Char)
  | edge (indent : Nat) (visible : Bool) (a b : List Char)
  | blank
  | classDef (name attributes : List Char)
  | classes (ids : List (List Char)) (name : List Char)
  | style (id attributes : List Char)

/-- How a statement is written. -/
def Stmt.text : Stmt → List Char
  | .subgraph id label => "    subgraph ".toList ++ id ++ "[\"".toList ++ label ++ "\"]".toList
  | .direction => "        direction LR".toList
  | .close => "    end".toList
  | .node n id label => List.replicate n ' ' ++ id ++ "[\"".toList ++ label ++ "\"]".toList
  | .edge n visible a b =>
    List.replicate n ' ' ++ a ++ (if visible then " --> " else " ~~~ ").toList ++ b
  | .blank => []
  | .classDef name attributes => "    classDef ".toList ++ name ++ [' '] ++ attributes
  | .classes ids name => "    class ".toList ++ [','].intercalate ids ++ [' '] ++ name
  | .style id attributes => "    style ".toList ++ id ++ [' '] ++ attributes

/-- The identifiers of nodes. -/
def Stmt.nodeId : Stmt → Option (List Char)
  | .node _ id _ => some id
  | _ => none

/-- The identifiers of nodes and subgraphs. -/
def Stmt.declared : Stmt → Option (List Char)
  | .node _ id _ => some id
  | .subgraph id _ => some id
  | _ => none

def Stmt.className : Stmt → Option (List Char)
  | .classDef name _ => some name
  | _ => none

/-- The nodes a `class` statement names. -/
def Stmt.classified : Stmt → List (List Char)
  | .classes ids _ => ids
  | _ => []

/-- Subgraphs are opened and closed in turn. -/
def Nested : (inside : Bool) → List Stmt → Prop
  | inside, [] => inside = false
  | inside, .subgraph _ _ :: rest => inside = false ∧ Nested true rest
  | inside, .close :: rest => inside = true ∧ Nested false rest
  | inside, _ :: rest => Nested inside rest

/-- Capital letters, digits and underscores; in particular not the keyword `end`. -/
def Identifier (id : List Char) : Prop :=
  id ≠ [] ∧ ∀ c ∈ id, ('A' ≤ c ∧ c ≤ 'Z') ∨ ('0' ≤ c ∧ c ≤ '9') ∨ c = '_'

/-- A diagram Mermaid accepts, with every node in one class. -/
structure WellFormed (ss : List Stmt) : Prop where
  nested : Nested false ss
  distinct : (ss.filterMap Stmt.declared).Nodup
  identifiers : ∀ id ∈ ss.filterMap Stmt.declared, Identifier id
  labels : ∀ s ∈ ss, ∀ n id label, s = .node n id label ∨ s = .subgraph id label →
    ∀ c ∈ label, c ∉ ['"', '<', '>', '\n']
  edges : ∀ s ∈ ss, ∀ n v a b, s = .edge n v a b →
    a ∈ ss.filterMap Stmt.declared ∧ b ∈ ss.filterMap Stmt.declared
  classes : ∀ s ∈ ss, ∀ ids name, s = .classes ids name → ids ≠ [] ∧ name ∈ ss.filterMap Stmt.className
  classified : ss.flatMap Stmt.classified = ss.filterMap Stmt.nodeId
  styles : ∀ s ∈ ss, ∀ id attributes, s = .style id attributes → id ∈ ss.filterMap Stmt.declared

/-! ## CSV -/

/-- What the columns of a record are called and contain. -/
def recordColumns (env : TextEnv) (r : RecordOutput) : List (String × List Char) :=
  [ ("function", r.function),
    ("storage_number", (toString r.storageNumber).toList),
    ("tariff", (toString r.tariff).toList),
    ("subunit", (toString r.subunit).toList),
    ("quantities", ['|'].intercalate r.quantities),
    ("value_type", r.value.kind),
    ("value", valueDisplay env r),
    ("unit", r.unit.getD []),
    ("data_coding", r.dataCoding),
    ("header_hex", r.headerHex),
    ("data_hex", r.dataHex) ]

/-- What the columns of the telegram are called and contain. -/
def frameColumns (o : DecodedOutput) : List (String × List Char) :=
  [ ("schema_version", "3".toList),
    ("protocol", o.protocol),
    ("frame_kind", o.frame.kind),
    ("frame_function", o.frame.function.getD []),
    ("address", o.frame.address.getD []),
    ("meter_id", (o.meter.identity.bind (·.id)).getD []),
    ("manufacturer_code", (o.meter.identity.bind (·.manufacturerCode)).getD []),
    ("identity_source", (o.meter.identity.map (·.source)).getD []),
    ("access_numbers", ['|'].intercalate (o.transport.accessNumbers.map
      (fun v => v.1 ++ [':'] ++ (toString v.2.toNat).toList))),
    ("status_codes", ['|'].intercalate (o.transport.statuses.map (·.raw))),
    ("security_mode", o.security.mode.getD []),
    ("decryption_state", o.security.decryptionState),
    ("decode_state", o.decodeState),
    ("record_count", (toString o.records.length).toList),
    ("diagnostic_codes", ['|'].intercalate (o.diagnostics.map (·.code))),
    ("manufacturer_name", (o.enrichment.map (fun e => e.info.name.toList)).getD []),
    ("manufacturer_website", (o.enrichment.map (fun e => e.info.website.toList)).getD []),
    ("frame_hex", o.raw.originalFrameHex) ]

/-- The value below a header. -/
def column (rows : List (List Char) × List (List Char)) (name : List Char) : Option (List Char) :=
  (rows.1.zip rows.2).lookup name

/-! ## Names of formats -/

/-- The names of the output formats. -/
def formatNames : List (String × OutputFormat) :=
  [ ("table", .table), ("table_format", .table), ("json", .json), ("yaml", .yaml), ("yml", .yaml),
    ("csv", .csv), ("mermaid", .mermaid), ("xml", .xml), ("annotated", .annotated),
    ("hexview", .annotated), ("annotated-text", .annotatedText) ]

/-- `text` is `name`, which has no capital letters, in any mixture of capital and small letters. -/
def AnyCase (text name : List Char) : Prop :=
  List.Forall₂ (fun c n => c = n ∨ ('A' ≤ c ∧ c ≤ 'Z' ∧ n.toNat = c.toNat + 32)) text name

end MBus.Spec
