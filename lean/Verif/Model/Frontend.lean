import Verif.Model.JsonText
import Verif.Model.CsvText
import Verif.Model.AnnotatedJson
import Verif.Model.AnnotateText
import Verif.Model.Display
import Verif.Model.Xml
/-!
# Model of `render_bytes` and of the front ends

`render_bytes`, `render_hex` and `decode_data_records_hex` of `src/output.rs`, the command line program
(`cli/src/main.rs`), the Python package (`python/src/lib.rs`) and the JavaScript package
(`wasm/src/lib.rs`).  Reading files, writing to the terminal and converting to Python and JavaScript
objects are left out.
-/
namespace MBus

/-- `OutputError`, src/output.rs:115-147.  The free text messages are left out. -/
inductive Failure where
  | emptyInput
  | invalidHex (index : Nat)
  | invalidFrame (wired : FrameError) (wireless : WirelessFrameError)
  | unsupportedFormat (format : List Char)
  | invalidOption (option : String)
  | decryption (code : List Char)
  | rendering (code : List Char)
  | serialization (format : String)
  deriving DecidableEq, Repr, Inhabited

/-- `OutputError::code`, src/output.rs:150-161. -/
def Failure.code : Failure → List Char
  | .emptyInput => "input.empty".toList
  | .invalidHex _ => "input.invalid_hex".toList
  | .invalidFrame _ _ => "frame.invalid".toList
  | .unsupportedFormat _ => "format.unsupported".toList
  | .invalidOption _ => "option.invalid".toList
  | .decryption code => code
  | .rendering code => code
  | .serialization _ => "render.serialization".toList

/-- `OutputError::layer`, src/output.rs:163-174. -/
def Failure.layer : Failure → List Char
  | .emptyInput => "input".toList
  | .invalidHex _ => "input".toList
  | .invalidFrame _ _ => "link".toList
  | .unsupportedFormat _ => "render".toList
  | .invalidOption _ => "render".toList
  | .serialization _ => "render".toList
  | .decryption _ => "security".toList
  | .rendering _ => "application".toList

/-- `OutputError::byte_offset`, src/output.rs:176-182. -/
def Failure.byteOffset : Failure → Option Nat
  | .invalidHex index => some index
  | _ => none

/-- The `OutputError` of an error of `decode_hex_bytes`. -/
def HexError.failure : HexError → Failure
  | .emptyInput => .emptyInput
  | .invalidHex index => .invalidHex index

/-- The `OutputError` of an error of `decode_bytes`; the codes are those of src/output.rs:659-690. -/
def OutputError.failure : OutputError → Failure
  | .emptyInput => .emptyInput
  | .invalidFrame wired wireless => .invalidFrame wired wireless
  | .security .unsupportedEll => .decryption "security.unsupported_mode".toList
  | .security (.decryption code _) => .decryption code

/-- `RenderOptions`, src/output.rs:99-103. -/
structure RenderOptions where
  decode : DecodeOptions
  tableWidth : Option Nat

/-- What is taken from libraries: the texts of numbers and the widths of characters, the texts the XML
needs, and the text `serde_yaml` gives a decoded telegram, `none` for an error. -/
structure FrontEnv where
  text : TextEnv
  xml : Xml.XmlEnv
  yaml : DecodedOutput → Option (List Char)

/-- The text of a value in the annotated outputs, src/annotate.rs:961: `Data`'s `Display`. -/
def FrontEnv.dataText (env : FrontEnv) (d : Data) : List Char := d.display env.text.realDisplay

/-- The formats made of a decoded telegram, src/output.rs:525-544.  Serialising to JSON cannot fail. -/
def renderDecoded (env : FrontEnv) (format : OutputFormat) (width : Option Nat) (o : DecodedOutput) :
    Res Failure (List Char) :=
  match format with
  | .json => .ok (renderJson env.text o)
  | .yaml =>
    match env.yaml o with
    | some text => .ok text
    | none => .err (.serialization "yaml")
  | .csv =>
    match renderCsv env.text o with
    | some text => .ok text
    | none => .err (.serialization "csv")
  | .table =>
    match renderTable env.text o (width.getD 100) with
    | some text => .ok text
    | none => .err (.invalidOption "table_width")
  | .mermaid => .ok (renderMermaid env.text o)
  | _ => .panic

/-- `render_bytes`, src/output.rs:499-547. -/
def renderBytes (cfg : Cfg) (env : FrontEnv) (aes : AesBlock) (data : List UInt8) (format : OutputFormat)
    (options : RenderOptions) : Res Failure (List Char) :=
  match format with
  | .xml =>
    (Xml.renderFromBytes cfg env.xml aes data options.decode.key).mapErr
      (fun _ => .rendering "xml.unsupported".toList)
  | .annotated => do
    let view ← (annotatedView cfg env.dataText aes data options.decode.key).mapErr
      (fun _ => .rendering "annotation.failed".toList)
    .ok view.text
  | .annotatedText =>
    (annotateAndRender cfg env.dataText data).mapErr (fun _ => .rendering "annotation.failed".toList)
  | format => do
    let decoded ← (decodeBytes cfg aes data options.decode).mapErr OutputError.failure
    renderDecoded env format options.tableWidth decoded

/-- `render_hex`, src/output.rs:489-497. -/
def renderHex (cfg : Cfg) (env : FrontEnv) (aes : AesBlock) (input : List Char) (format : OutputFormat)
    (options : RenderOptions) : Res Failure (List Char) := do
  let bytes ← (decodeHexBytes input).mapErr HexError.failure
  renderBytes cfg env aes bytes format options

/-- `decode_data_records_hex`, src/output.rs:483-487, with the errors of `decode_data_records`. -/
def decodeDataRecordsHex (cfg : Cfg) (input : List Char) : Res Failure (List RecordOutput) := do
  let bytes ← (decodeHexBytes input).mapErr HexError.failure
  (decodeDataRecords cfg bytes).mapErr (fun e => match e with
    | .emptyInput => .emptyInput
    | .invalid _ _ => .rendering "application.records_invalid".toList)

/-- `OutputFormat::from_str` with its error, src/output.rs:63-80. -/
def formatNamed (name : List Char) : Res Failure OutputFormat :=
  match OutputFormat.fromStr name with
  | some format => .ok format
  | none => .err (.unsupportedFormat name)

/-! ## The command line program -/

/-- `hex::decode` of the hex crate for a text of hexadecimal digits of even length. -/
def hexCrateDecode : List Char → List UInt8
  | a :: b :: rest =>
    UInt8.ofNat (16 * (toDigit16 a).getD 0 + (toDigit16 b).getD 0) :: hexCrateDecode rest
  | _ => []

/-- `parse_key`, cli/src/main.rs:113-121; the length is that of the UTF-8 encoding.  Decoding cannot fail
after the check. -/
def cliKey (value : List Char) : Res Failure (List UInt8) :=
  if (value.map Char.utf8Size).sum ≠ 32 || !value.all isAsciiHexdigit then .err (.invalidOption "key")
  else .ok (hexCrateDecode value)

/-- The options of the command `parse`, cli/src/main.rs:21-45, after the input has been read; `detected` is
the width taken if none is given, cli/src/main.rs:88-94: that of the terminal if it is known, 100 if there
is no terminal. -/
structure CliOptions where
  format : List Char
  key : Option (List Char)
  width : Option Nat
  noEnrichment : Bool
  detected : Option Nat

/-- `run`, cli/src/main.rs:81-108: what is printed, or the error whose code is printed. -/
def cliRun (cfg : Cfg) (env : FrontEnv) (aes : AesBlock) (input : List Char) (options : CliOptions) :
    Res Failure (List Char) := do
  let format ← formatNamed options.format
  match options.key with
  | none =>
    renderHex cfg env aes input format
      ⟨⟨none, !options.noEnrichment⟩, options.width.or options.detected⟩
  | some text => do
    let key ← cliKey text
    renderHex cfg env aes input format
      ⟨⟨some key, !options.noEnrichment⟩, options.width.or options.detected⟩

/-! ## The JavaScript package -/

/-- `parse_key`, wasm/src/lib.rs:48-61. -/
def jsKey : Option (List Char) → Res Failure (Option (List UInt8))
  | none => .ok none
  | some text =>
    if (trim text).isEmpty then .ok none
    else do
      let bytes ← (decodeHexBytes text).mapErr HexError.failure
      if bytes.length = 16 then .ok (some bytes) else .err (.invalidOption "key")

/-- `m_bus_render`, wasm/src/lib.rs:93-107, with `decode_options`, wasm/src/lib.rs:63-71. -/
def jsRender (cfg : Cfg) (env : FrontEnv) (aes : AesBlock) (data format : List Char)
    (key : Option (List Char)) (width : Option Nat) (includeEnrichment : Option Bool) :
    Res Failure (List Char) := do
  let format ← formatNamed format
  let key ← jsKey key
  renderHex cfg env aes data format ⟨⟨key, includeEnrichment.getD true⟩, width⟩

/-- `m_bus_decode`, wasm/src/lib.rs:74-90, before the conversion to a JavaScript object. -/
def jsDecode (cfg : Cfg) (aes : AesBlock) (data : List Char) (key : Option (List Char))
    (includeEnrichment : Option Bool) : Res Failure DecodedOutput := do
  let key ← jsKey key
  (decodeHex cfg aes data ⟨key, includeEnrichment.getD true⟩).mapErr (fun e => match e with
    | .inl e => e.failure
    | .inr e => e.failure)

/-! ## The Python package -/

/-- A Python argument: a text, something that is a sequence of bytes, or something else. -/
inductive PyValue where
  | text (t : List Char)
  | bytes (b : List UInt8)
  | other

/-- An exception of the Python package: `MbusParserError` or `TypeError`. -/
inductive PyError where
  | parser (e : Failure)
  | type
  deriving DecidableEq, Repr, Inhabited

/-- `extract_bytes`, python/src/lib.rs:25-40. -/
def pyBytes : PyValue → Res PyError (List UInt8)
  | .text t => (decodeHexBytes t).mapErr (fun e => .parser e.failure)
  | .bytes b => if b.isEmpty then .err (.parser .emptyInput) else .ok b
  | .other => .err .type

/-- `extract_key`, python/src/lib.rs:42-55. -/
def pyKey : Option PyValue → Res PyError (Option (List UInt8))
  | none => .ok none
  | some value => do
    let bytes ← pyBytes value
    if bytes.length = 16 then .ok (some bytes) else .err (.parser (.invalidOption "key"))

/-- `render`, python/src/lib.rs:109-132. -/
def pyRender (cfg : Cfg) (env : FrontEnv) (aes : AesBlock) (data : PyValue) (format : List Char)
    (key : Option PyValue) (width : Option Nat) (includeEnrichment : Bool) : Res PyError (List Char) := do
  let data ← pyBytes data
  let format ← (formatNamed format).mapErr .parser
  let key ← pyKey key
  (renderBytes cfg env aes data format ⟨⟨key, includeEnrichment⟩, width⟩).mapErr .parser

/-- `parse`, python/src/lib.rs:80-98, before `json.loads`. -/
def pyParse (cfg : Cfg) (env : FrontEnv) (aes : AesBlock) (data : PyValue) (key : Option PyValue)
    (includeEnrichment : Bool) : Res PyError (List Char) := do
  let data ← pyBytes data
  let key ← pyKey key
  let decoded ← (decodeBytes cfg aes data ⟨key, includeEnrichment⟩).mapErr (fun e => .parser e.failure)
  .ok (compactJson (decoded.doc env.text))

/-- `m_bus_parse`, python/src/lib.rs:142-173. -/
def pyMbusParse (cfg : Cfg) (env : FrontEnv) (aes : AesBlock) (data format : List Char)
    (key : Option (List Char)) : Res PyError (List Char) := do
  let key ← pyKey (key.map .text)
  let format ← (formatNamed format).mapErr .parser
  (renderHex cfg env aes data format ⟨⟨key, true⟩, some 100⟩).mapErr .parser

end MBus
