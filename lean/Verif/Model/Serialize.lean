import Verif.Model.Frontend
import Verif.Model.CsvText
import Verif.Model.Hexview
import Verif.Model.LegacyJson
/-!
# Model of `serialize_mbus_data` and of the older annotated outputs

`src/mbus_data.rs:141-164` and `1166-1265`.  The text `serde_yaml` makes of a parsed frame for `yaml-legacy`, the
digits `serde_json` gives a number, and the free texts of errors, are parameters.
-/
namespace MBus

/-- The older JSON of a segment, `derive(Serialize)` of `ByteSegment`, src/annotate.rs:104-120: the fields in the
order of their declaration. -/
def ByteSegment.olderDoc (s : ByteSegment) : Doc :=
  .obj (field "start" (.nat s.start) ++ field "end" (.nat s.stop)
    ++ field "kind" (.str s.kind.snakeCase.toList) ++ field "detail" (.str s.detail)
    ++ field "group" (match s.group with | some g => .nat g | none => .null)
    ++ field "layer" (.str s.layer.snakeCase.toList))

/-- `{"error": "…"}` with the only error of `annotate_frame`, src/mbus_data.rs:1192 and 1263; the text is
`Display` of `FrameError::InvalidStartByte`, crates/m-bus-core/src/lib.rs:506. -/
def olderError : List Char := "{\"error\": \"Invalid start byte\"}".toList

/-- `annotated_segments_to_json`, src/mbus_data.rs:1260-1265. -/
def annotatedSegmentsToJson (cfg : Cfg) (dataText : Data → List Char) (data : List UInt8) :
    Res Unit (List Char) :=
  match annotateFrame cfg dataText data with
  | .ok segs => .ok ((Doc.arr (segs.map ByteSegment.olderDoc)).text true 0)
  | .err _ => .ok olderError
  | .panic => .panic

/-- `parse_to_annotated`, src/mbus_data.rs:1169-1172. -/
def parseToAnnotated (cfg : Cfg) (dataText : Data → List Char) (input : List Char) : Res Unit (List Char) :=
  annotatedSegmentsToJson cfg dataText (cleanAndConvert input)

/-- The object of `parse_to_hexview`, src/mbus_data.rs:1185-1189; `json!` sorts the names. -/
def hexviewDoc (bytes : List UInt8) (segs : List ByteSegment) : Doc :=
  .obj (field "bytes" (bytesDoc bytes) ++ field "decrypted" (.bool true)
    ++ field "segments" (.arr (segs.map ByteSegment.doc)))

/-- The decrypted half of `parse_to_hexview`, src/mbus_data.rs:1182-1193. -/
def olderDecrypted (cfg : Cfg) (dataText : Data → List Char) (display : List UInt8) : Res Unit (List Char) :=
  match annotateFrame cfg dataText display with
  | .ok segs => do
    let segs ← replaceEncrypted cfg dataText display segs
    .ok ((hexviewDoc display segs).text true 0)
  | .err _ => .ok olderError
  | .panic => .panic

/-- `parse_to_hexview`, src/mbus_data.rs:1176-1201. -/
def parseToHexview (cfg : Cfg) (dataText : Data → List Char) (aes : AesBlock) (input : List Char)
    (key : Option (List UInt8)) : Res Unit (List Char) :=
  let data := cleanAndConvert input
  match key with
  | none => annotatedSegmentsToJson cfg dataText data
  | some key =>
    match decryptedHexview cfg aes key data with
    | .ok display => olderDecrypted cfg dataText display
    | .err _ => annotatedSegmentsToJson cfg dataText data
    | .panic => .panic

/-- What `json-legacy`, `yaml-legacy` and the messages of errors take from libraries. -/
structure OlderEnv where
  literal : F64 → List Char
  yaml : List UInt8 → ParsedOutput → List Char
  message : Failure → List Char

/-- `parse_to_json`, src/mbus_data.rs:619-624. -/
def parseToJson (cfg : Cfg) (env : FrontEnv) (older : OlderEnv) (aes : AesBlock) (input : List Char)
    (key : Option (List UInt8)) : Res Unit (List Char) :=
  match parseFrameOutput cfg env.text.realDisplay aes (cleanAndConvert input) key with
  | .ok o => .ok ((olderDocument cfg older.literal (cleanAndConvert input) o).text true 0)
  | .err _ => .ok "{}".toList
  | .panic => .panic

/-- `parse_to_yaml`, src/mbus_data.rs:628-633. -/
def parseToYaml (cfg : Cfg) (env : FrontEnv) (older : OlderEnv) (aes : AesBlock) (input : List Char)
    (key : Option (List UInt8)) : Res Unit (List Char) :=
  match parseFrameOutput cfg env.text.realDisplay aes (cleanAndConvert input) key with
  | .ok o => .ok (older.yaml (cleanAndConvert input) o)
  | .err _ => .ok "---\nerror: Could not parse data\n".toList
  | .panic => .panic

/-- `format!("Error [{}]: {}", error.code(), error)`, src/mbus_data.rs:160-161. -/
def errorText (older : OlderEnv) (e : Failure) : List Char :=
  "Error [".toList ++ e.code ++ "]: ".toList ++ older.message e

/-- The arm `_` of `serialize_mbus_data`, src/mbus_data.rs:148-162. -/
def serializeStructured (cfg : Cfg) (env : FrontEnv) (older : OlderEnv) (aes : AesBlock)
    (data format : List Char) (key : Option (List UInt8)) : Res Unit (List Char) :=
  match formatNamed format with
  | .ok f =>
    match renderHex cfg env aes data f ⟨⟨key, true⟩, some 100⟩ with
    | .ok text => .ok text
    | .err e => .ok (errorText older e)
    | .panic => .panic
  | .err e => .ok (errorText older e)
  | .panic => .panic

/-- `serialize_mbus_data`, src/mbus_data.rs:141-164.  The text of `csv-wide` is never refused by the writer
(`C113_wide`). -/
def serializeMbusData (cfg : Cfg) (env : FrontEnv) (older : OlderEnv) (aes : AesBlock) (data format : List Char)
    (key : Option (List UInt8)) : Res Unit (List Char) :=
  if format = "json-legacy".toList then parseToJson cfg env older aes data key
  else if format = "yaml-legacy".toList then parseToYaml cfg env older aes data key
  else if format = "csv-wide".toList then
    match wideCsv cfg env.text.realDisplay aes data key with
    | .ok text => .ok (text.getD [])
    | .err e => .err e
    | .panic => .panic
  else if format = "annotated-legacy".toList then parseToAnnotated cfg env.dataText data
  else if format = "hexview-legacy".toList then parseToHexview cfg env.dataText aes data key
  else serializeStructured cfg env older aes data format key

end MBus
