import Verif.Model.Frontend
/-!
# Model of what surrounds the renderings

The process of the command line program (`cli/src/main.rs`), the wrappers of the JavaScript package that
return errors as text (`wasm/src/lib.rs`), the iterator over DIF extensions and the comparison of texts
(`crates/m-bus-application-layer/src/data_information.rs`).
-/
namespace MBus

/-! ## The command line program -/

/-- What a process leaves behind. -/
structure Finished where
  status : Nat
  stdout : List Char
  stderr : List Char
  deriving DecidableEq, Repr

/-- What the command line program takes from outside: the libraries, the files, by their path, with the
message if they cannot be read, the texts of errors and of panics. -/
structure CliEnv where
  front : FrontEnv
  readFile : List Char → Except (List Char) (List Char)
  message : Failure → List Char
  panicText : List Char

/-- `main` for an error, cli/src/main.rs:51-54. -/
def cliFailed (text : List Char) : Finished := ⟨1, [], "error: ".toList ++ text ++ ['\n']⟩

/-- `main` and the end of `run`, cli/src/main.rs:48-56, 81-108; a panic ends the process with status 101. -/
def cliRendered (cfg : Cfg) (env : CliEnv) (aes : AesBlock) (input : List Char) (options : CliOptions) :
    Finished :=
  match cliRun cfg env.front aes input options with
  | .ok text => ⟨0, text, []⟩
  | .err e => cliFailed ("[".toList ++ e.code ++ "] ".toList ++ env.message e)
  | .panic => ⟨101, [], env.panicText⟩

/-- `main` and `run`, cli/src/main.rs:48-110.  The argument parser refuses a file together with data. -/
def cliMain (cfg : Cfg) (env : CliEnv) (aes : AesBlock) (file data : Option (List Char))
    (options : CliOptions) : Finished :=
  match file, data with
  | some path, none =>
    match env.readFile path with
    | .ok input => cliRendered cfg env aes input options
    | .error message =>
      cliFailed ("[input.file] failed to read ".toList ++ path ++ ": ".toList ++ message)
  | none, some input => cliRendered cfg env aes input options
  | none, none => cliFailed "[option.invalid] either --file or --data must be provided".toList
  | some _, some _ => ⟨101, [], env.panicText⟩

/-! ## The JavaScript package -/

/-- `JSON.stringify` of the error object of `error_to_js`, wasm/src/lib.rs:24-45: the members set on the
object in their order.  The message of an `Error` object is not enumerable and so is not among them. -/
def jsErrorText (e : Failure) : List Char :=
  compactJson (.obj (field "name" (.str "MbusParserError".toList) ++ field "code" (.str e.code)
    ++ field "layer" (.str e.layer) ++ fieldOpt "byteOffset" (fun n : Nat => .nat n) e.byteOffset))

/-- `m_bus_parse` and `m_bus_parse_with_key`, wasm/src/lib.rs:111-131. -/
def jsParse (cfg : Cfg) (env : FrontEnv) (aes : AesBlock) (data format : List Char)
    (key : Option (List Char)) : Res Failure (List Char) :=
  match jsRender cfg env aes data format key none none with
  | .ok text => .ok text
  | .err e => .ok (jsErrorText e)
  | .panic => .panic

/-! ## Records in the Python package -/

/-- `records_json`, python/src/lib.rs:63-72. -/
def pyRecordsJson (cfg : Cfg) (env : FrontEnv) (data : List UInt8) : Res PyError (List Char) := do
  let records ← (decodeDataRecords cfg data).mapErr (fun e => PyError.parser (match e with
    | .emptyInput => .emptyInput
    | .invalid _ _ => .rendering "application.records_invalid".toList))
  .ok (compactJson (.arr (records.map (RecordOutput.doc env.text))))

/-- `parse_records`, python/src/lib.rs:101-105, before `json.loads`. -/
def pyParseRecords (cfg : Cfg) (env : FrontEnv) (data : PyValue) : Res PyError (List Char) := do
  let data ← pyBytes data
  pyRecordsJson cfg env data

/-- `parse_application_layer`, python/src/lib.rs:134-138. -/
def pyParseApplicationLayer (cfg : Cfg) (env : FrontEnv) (data : List Char) : Res PyError (List Char) := do
  let bytes ← (decodeHexBytes data).mapErr (fun e => PyError.parser e.failure)
  pyRecordsJson cfg env bytes

/-! ## The iterator over DIF extensions -/

/-- `Iterator::next` of `DataInformationFieldExtensions`, data_information.rs:67-71. -/
def difeNext : List UInt8 → Option UInt8 × List UInt8
  | head :: tail => (some head, tail)
  | [] => (none, [])

/-- `DoubleEndedIterator::next_back`, data_information.rs:78-82. -/
def difeNextBack (s : List UInt8) : Option UInt8 × List UInt8 :=
  match s.getLast? with
  | some last => (some last, s.dropLast)
  | none => (none, s)

/-- `Iterator::size_hint`, data_information.rs:72-74. -/
def difeSizeHint (s : List UInt8) : Nat × Option Nat := (s.length, some s.length)

/-- A sequence of calls, `true` for `next` and `false` for `next_back`: the answers and the iterator
afterwards. -/
def difeCalls : List Bool → List UInt8 → List (Option UInt8) × List UInt8
  | [], s => ([], s)
  | front :: calls, s =>
    let (answer, s) := if front then difeNext s else difeNextBack s
    let (answers, s) := difeCalls calls s
    (answer :: answers, s)

/-! ## Texts -/

/-- `PartialEq<str>` of `TextUnit`, data_information.rs:286-290; the text as its UTF-8 bytes. -/
def textUnitEq (unit : List UInt8) (other : List UInt8) : Bool := unit == other.reverse

end MBus
