import Verif.Spec.Frontend
import Verif.Spec.Render
import Verif.Model.Api
/-! What is expected of the process of the command line program, of the texts of errors in the JavaScript
package, and of an iterator with two ends. -/
namespace MBus.Spec

/-- The input of the command line program is this text: from the command line, or from a readable file. -/
def InputGiven (env : CliEnv) (file data : Option (List Char)) (input : List Char) : Prop :=
  (file = none ∧ data = some input) ∨ ∃ path, file = some path ∧ data = none ∧ env.readFile path = .ok input

/-- The key of the command line: none, or one of 32 hexadecimal digits. -/
inductive KeyGiven : Option (List Char) → Option (List UInt8) → Prop
  | none : KeyGiven .none .none
  | key (text : List Char) (k : List UInt8) : KeyText text k → KeyGiven (some text) (some k)

/-- The options handed to the rendering: enrichment unless it is switched off, and the width asked for, or
else the width detected. -/
def cliRenderOptions (o : CliOptions) (key : Option (List UInt8)) : RenderOptions :=
  ⟨⟨key, !o.noEnrichment⟩, match o.width with | some w => some w | none => o.detected⟩

/-- What goes wrong, with its code: the file cannot be read, there is no input, the format is unknown, the
key is no key, or the rendering fails. -/
inductive CliCause (cfg : Cfg) (env : CliEnv) (aes : AesBlock) (file data : Option (List Char))
    (o : CliOptions) : List Char → Prop
  | file (path message : List Char) : file = some path → data = none → env.readFile path = .error message →
      CliCause cfg env aes file data o "input.file".toList
  | nothing : file = none → data = none → CliCause cfg env aes file data o "option.invalid".toList
  | format (input : List Char) : InputGiven env file data input → OutputFormat.fromStr o.format = none →
      CliCause cfg env aes file data o "format.unsupported".toList
  | key (input : List Char) (format : OutputFormat) : InputGiven env file data input →
      OutputFormat.fromStr o.format = some format → (∀ key, ¬ KeyGiven o.key key) →
      CliCause cfg env aes file data o "option.invalid".toList
  | rendering (input : List Char) (format : OutputFormat) (key : Option (List UInt8)) (e : Failure) :
      InputGiven env file data input → OutputFormat.fromStr o.format = some format → KeyGiven o.key key →
      renderHex cfg env.front aes input format (cliRenderOptions o key) = .err e →
      CliCause cfg env aes file data o e.code

/-- The codes of refusals of renderings. -/
def renderCodes : List String :=
  ["input.empty", "input.invalid_hex", "frame.invalid", "option.invalid", "security.unsupported_mode",
    "security.decryption_failed", "xml.unsupported", "annotation.failed", "render.serialization"]

/-- The layers a refusal is ascribed to. -/
def renderLayers : List String := ["input", "link", "render", "security", "application"]

/-- The text of an error in the JavaScript package. -/
def errorObject (code layer : List Char) (offset : Option Nat) : List Char :=
  "{\"name\":\"MbusParserError\",\"code\":\"".toList ++ code ++ "\",\"layer\":\"".toList ++ layer ++ ['"']
    ++ (match offset with | some n => ",\"byteOffset\":".toList ++ natText n | none => []) ++ ['}']

/-- The text begins as that of an error object does. -/
def LooksLikeError (text : List Char) : Prop := ∃ rest, text = "{\"name\":".toList ++ rest

/-- The answers to the calls of one kind. -/
def answersTo (front : Bool) (calls : List Bool) (answers : List (Option UInt8)) : List (Option UInt8) :=
  ((calls.zip answers).filter (fun p => p.1 == front)).map (·.2)

end MBus.Spec
