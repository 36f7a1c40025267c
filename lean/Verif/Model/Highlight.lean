import Verif.Model.RecordOutput
/-!
# Model of the CSV highlighter of the web binding, `wasm/src/highlight.rs`

The other languages are highlighted by the `syntect` crate, which is not modelled.
-/
namespace MBus

/-- One step of `push_escaped_html`, wasm/src/highlight.rs:117-128. -/
def escapeHtmlChar (c : Char) : List Char :=
  if c = '&' then "&amp;".toList
  else if c = '<' then "&lt;".toList
  else if c = '>' then "&gt;".toList
  else if c = '"' then "&quot;".toList
  else if c = '\'' then "&#39;".toList
  else [c]

/-- `push_escaped_html`, wasm/src/highlight.rs:117-128: the text pushed. -/
def escapedHtml (source : List Char) : List Char := source.flatMap escapeHtmlChar

/-- `push_csv_field`, wasm/src/highlight.rs:108-115: the text pushed. -/
def csvFieldHtml (field : List Char) (column : Nat) : List Char :=
  "<span class=\"syn-csv-column syn-csv-column-".toList ++ natText (column % 8) ++ "\">".toList
  ++ escapedHtml field ++ "</span>".toList

/-- The delimiter pushed by `highlight_csv`, wasm/src/highlight.rs:83. -/
def csvDelimiterHtml : List Char := "<span class=\"syn-punctuation syn-csv-delimiter\">,</span>".toList

/-- The loop of `highlight_csv` over the characters and the last field, wasm/src/highlight.rs:70-103. -/
def highlightLoop : List Char → (html field : List Char) → (column : Nat) → (quoted : Bool) → List Char
  | [], html, field, column, _ => html ++ csvFieldHtml field column
  | c :: rest, html, field, column, quoted =>
    if c = '"' then
      if quoted = true ∧ rest.head? = some '"' then
        highlightLoop rest.tail html (field ++ [c, '"']) column quoted
      else highlightLoop rest html (field ++ [c]) column (!quoted)
    else if c = ',' ∧ quoted = false then
      highlightLoop rest (html ++ csvFieldHtml field column ++ csvDelimiterHtml) [] (column + 1) quoted
    else if c = '\r' ∧ quoted = false ∧ rest.head? = some '\n' then
      highlightLoop rest.tail (html ++ csvFieldHtml field column ++ ['\r', '\n']) [] 0 quoted
    else if (c = '\n' ∨ c = '\r') ∧ quoted = false then
      highlightLoop rest (html ++ csvFieldHtml field column ++ [c]) [] 0 quoted
    else highlightLoop rest html (field ++ [c]) column quoted
  termination_by source => source.length
  decreasing_by all_goals simp <;> omega

/-- `highlight_csv`, wasm/src/highlight.rs:63-106. -/
def highlightCsv (source : List Char) : List Char :=
  highlightLoop source "<span class=\"syn-source syn-csv\">".toList [] 0 false ++ "</span>".toList

end MBus
