import Verif.Spec.Checksums
import Verif.Spec.SentTable
/-!
# Answers without the details of the manufacturer

A user may switch off the details of the manufacturer, which are not part of a telegram.  What they may expect: nothing
else changes.
-/
namespace MBus.Spec

/-- All front ends give related answers in a format with the details and without them, whatever the text and the key are.
The relation is given the width of a table: the one asked for, that of the terminal or 100 columns. -/
structure DetailsSwitched (cfg : Cfg) (env : CliEnv) (aes : AesBlock) (format : String)
    (R : Nat → List Char → List Char → Prop) : Prop where
  commandLine : ∀ file data text key width detected, InputGiven env file data text →
    let a := cliMain cfg env aes file data ⟨format.toList, key, width, false, detected⟩
    let a' := cliMain cfg env aes file data ⟨format.toList, key, width, true, detected⟩
    a.status = a'.status ∧ a.stderr = a'.stderr ∧
      (a.status = 0 → R ((width.or detected).getD 100) a.stdout a'.stdout) ∧ (a.status ≠ 0 → a.stdout = a'.stdout)
  javaScript : ∀ text key width,
    Alike (R (Option.getD width 100)) (jsRender cfg env.front aes text format.toList key width (some true))
      (jsRender cfg env.front aes text format.toList key width (some false))
  javaScriptDefault : ∀ text key width,
    jsRender cfg env.front aes text format.toList key width none =
      jsRender cfg env.front aes text format.toList key width (some true)
  python : ∀ value key width,
    Alike (R (Option.getD width 100)) (pyRender cfg env.front aes value format.toList key width true)
      (pyRender cfg env.front aes value format.toList key width false)

/-- The formats that never have details of the manufacturer. -/
def detailFree : List String := ["mermaid", "xml", "annotated", "annotated-text"]

/-- Two JSON texts say the same, but for the details, which the second does not have. -/
def WithoutMember (out out' : List Char) : Prop :=
  ∃ d d', (∀ x, JsonText out x ↔ x = d) ∧ (∀ x, JsonText out' x ↔ x = d') ∧
    (∀ name path, name ≠ "enrichment" → follow (.key name :: path) d = follow (.key name :: path) d') ∧
    follow [.key "enrichment"] d' = none

/-- Two CSV texts have the same names of columns and the same cells, but for the two columns with details, which are empty in
the second. -/
def WithoutColumns (out out' : List Char) : Prop :=
  ∃ names cells cells', (∀ rows, CsvFile out rows ↔ rows = [names, cells]) ∧
    (∀ rows, CsvFile out' rows ↔ rows = [names, cells']) ∧ cells.length = names.length ∧ cells'.length = names.length ∧
    ∀ (i : Nat) name, names[i]? = some name →
      if name = "manufacturer_name".toList ∨ name = "manufacturer_website".toList then cells'[i]? = some []
      else cells'[i]? = cells[i]?

/-- Two tables are the same, but for at most three rows of facts, which the second does not have. -/
def WithoutRows (w : Char → Nat) (width : Nat) (out out' : List Char) : Prop :=
  ∃ title facts details records diagnostics,
    IsTable w width title (facts ++ details) records diagnostics out ∧
    IsTable w width title facts records diagnostics out' ∧
    (details = [] ∨ details.map (·.1) = ["Manufacturer name", "Website", "Description"].map String.toList) ∧
    ∀ row ∈ facts, row.1 ∉ ["Manufacturer name", "Website", "Description"].map String.toList

end MBus.Spec
