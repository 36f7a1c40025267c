import Verif.Model.Render
import Verif.Model.Legacy
/-!
# Model of the text of the CSV outputs

The rows are written by `csv::Writer` of the `csv` crate with its default settings, which is modelled
from its documentation: comma, double quotes, doubled inside quoted fields, quotes where necessary, lines
ended by a line feed, and all records of the same number of fields.
-/
namespace MBus

/-- The fields the `csv` crate quotes with `QuoteStyle::Necessary`: those with a delimiter, a quote or a
part of a line end. -/
def csvNeedsQuotes (field : List Char) : Bool :=
  field.any (fun c => c == ',' || c == '"' || c == '\r' || c == '\n')

/-- A field as the `csv` crate writes it, at src/output.rs:1974-1986 and src/mbus_data.rs:783-815. -/
def csvField (field : List Char) : List Char :=
  if csvNeedsQuotes field then
    '"' :: field.flatMap (fun c => if c = '"' then ['"', '"'] else [c]) ++ ['"']
  else field

/-- `Writer::write_record` of the `csv` crate, as called at src/output.rs:1974-1986 and
src/mbus_data.rs:783-815; a record without any character is written as an empty quoted field. -/
def csvRecord (fields : List (List Char)) : List Char :=
  let text := [','].intercalate (fields.map csvField)
  (if text = [] then ['"', '"'] else text) ++ ['\n']

/-- Successive calls of `Writer::write_record`: the text written, or none if a record is refused
because it has not as many fields as the first one. -/
def csvWrite : List (List (List Char)) → Option (List Char)
  | [] => some []
  | first :: rest =>
    if rest.all (fun r => r.length == first.length) then some ((first :: rest).flatMap csvRecord) else none

/-- `render_csv`, src/output.rs:1927-2002; `none` is `OutputError::Serialization`. -/
def renderCsv (env : TextEnv) (o : DecodedOutput) : Option (List Char) :=
  csvWrite [(csvRows env o).1, (csvRows env o).2]

/-- `parse_to_csv`, src/mbus_data.rs:745-824, as text.  A refused record is left out there
(`unwrap_or_default`); the model says none instead. -/
def wideCsv (cfg : Cfg) (realText : UInt32 → List Char) (aes : AesBlock) (input : List Char)
    (key : Option (List UInt8)) : Res Unit (Option (List Char)) :=
  match parseToCsv cfg realText aes input key with
  | .ok rows => .ok (csvWrite rows)
  | .err e => .err e
  | .panic => .panic

end MBus
