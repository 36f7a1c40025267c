import Verif.Model.Render
import Verif.Model.Hexview
/-!
# Model of the JSON rendering: the serialised structs of `src/output.rs` and the writer of `serde_json`

`serde_json` is a library; its writer is modelled from its documentation because it is what a user reads.
-/
namespace MBus

/-- A value handed to `serde_json`.  A number is the text of its literal. -/
inductive Doc where
  | null
  | bool (b : Bool)
  | num (literal : List Char)
  | str (text : List Char)
  | arr (items : List Doc)
  | obj (members : List (List Char × Doc))
  deriving Repr, Inhabited

/-- The escape of one character in `serde_json::ser::format_escaped_str`: quotes, backslashes and control
characters are escaped, everything else is written as it is. -/
def jsonEscape (c : Char) : List Char :=
  if c = '"' then ['\\', '"']
  else if c = '\\' then ['\\', '\\']
  else if c = '\x08' then ['\\', 'b']
  else if c = '\x0C' then ['\\', 'f']
  else if c = '\n' then ['\\', 'n']
  else if c = '\r' then ['\\', 'r']
  else if c = '\t' then ['\\', 't']
  else if c.toNat < 0x20 then
    ['\\', 'u', '0', '0', if c.toNat < 16 then '0' else '1', (upperHexDigit (c.toNat % 16)).toLower]
  else [c]

/-- `serde_json::ser::format_escaped_str`. -/
def jsonString (text : List Char) : List Char := '"' :: text.flatMap jsonEscape ++ ['"']

/-- The line break and indentation of `PrettyFormatter`; nothing for `CompactFormatter`. -/
def jsonBreak (pretty : Bool) (level : Nat) : List Char :=
  if pretty then '\n' :: List.replicate (2 * level) ' ' else []

/-- `begin_array_value` and `begin_object_key`: the separator of the previous element. -/
def jsonNext (first : Bool) : List Char := if first then [] else [',']

/-- `begin_object_value`. -/
def jsonColon (pretty : Bool) : List Char := if pretty then [':', ' '] else [':']

mutual
/-- `serde_json::to_string_pretty` and `serde_json::to_string`. -/
def Doc.text (pretty : Bool) (level : Nat) : Doc → List Char
  | .null => ['n', 'u', 'l', 'l']
  | .bool true => ['t', 'r', 'u', 'e']
  | .bool false => ['f', 'a', 'l', 's', 'e']
  | .num literal => literal
  | .str text => jsonString text
  | .arr [] => ['[', ']']
  | .arr (x :: xs) => '[' :: itemsText pretty (level + 1) true (x :: xs) ++ jsonBreak pretty level ++ [']']
  | .obj [] => ['{', '}']
  | .obj (m :: ms) =>
    '{' :: membersText pretty (level + 1) true (m :: ms) ++ jsonBreak pretty level ++ ['}']

/-- The elements of an array. -/
def itemsText (pretty : Bool) (level : Nat) (first : Bool) : List Doc → List Char
  | [] => []
  | x :: xs => jsonNext first ++ jsonBreak pretty level ++ x.text pretty level ++ itemsText pretty level false xs

/-- The members of an object. -/
def membersText (pretty : Bool) (level : Nat) (first : Bool) : List (List Char × Doc) → List Char
  | [] => []
  | (key, x) :: ms => jsonNext first ++ jsonBreak pretty level ++ jsonString key ++ jsonColon pretty
      ++ x.text pretty level ++ membersText pretty level false ms
end

/-! ## The serialised structs -/

/-- A number without sign. -/
def Doc.nat (n : Nat) : Doc := .num (natText n)

/-- A member that is always written. -/
def field (name : String) (d : Doc) : List (List Char × Doc) := [(name.toList, d)]

/-- A member with `skip_serializing_if = "Option::is_none"`. -/
def fieldOpt {α : Type} (name : String) (f : α → Doc) : Option α → List (List Char × Doc)
  | some a => [(name.toList, f a)]
  | none => []

/-- A member with `skip_serializing_if = "Vec::is_empty"`. -/
def fieldVec {α : Type} (name : String) (f : α → Doc) (l : List α) : List (List Char × Doc) :=
  if l.isEmpty then [] else [(name.toList, .arr (l.map f))]

/-- A part of a temporal value; nested objects do not occur. -/
def partDoc (env : TextEnv) : Json → Doc
  | .str text => .str text
  | .nat n => .nat n
  | .real bits => .num (env.realText bits)
  | .obj _ => .null

/-- The `serde_json::Value` of a record; objects are written in the order of their keys. -/
def Json.doc (env : TextEnv) : Json → Doc
  | .obj members => .obj ((sortedMembers members).map (fun m => (m.1, partDoc env m.2)))
  | j => partDoc env j

/-- `FrameOutput`, src/output.rs:227-236. -/
def FrameOutput.doc (f : FrameOutput) : Doc :=
  .obj (field "kind" (.str f.kind) ++ fieldOpt "function" .str f.function
    ++ fieldOpt "address" .str f.address ++ fieldOpt "control_field" .str f.controlField)

/-- `MeterIdentity`, src/output.rs:238-252. -/
def MeterIdentity.doc (i : MeterIdentity) : Doc :=
  .obj (field "source" (.str i.source) ++ fieldOpt "id" .str i.id
    ++ fieldOpt "manufacturer_code" .str i.manufacturerCode
    ++ fieldOpt "version" (fun v : UInt8 => .nat v.toNat) i.version
    ++ fieldOpt "device_type" .str i.deviceType
    ++ fieldOpt "device_type_code" (fun v : UInt8 => .nat v.toNat) i.deviceTypeCode)

/-- `MeterOutput`, src/output.rs:254-260. -/
def MeterOutput.doc (m : MeterOutput) : Doc :=
  .obj (fieldOpt "identity" MeterIdentity.doc m.identity
    ++ fieldVec "alternate_identities" MeterIdentity.doc m.alternateIdentities)

/-- `SourcedU8`, src/output.rs:262-266. -/
def sourcedDoc (p : List Char × UInt8) : Doc :=
  .obj (field "source" (.str p.1) ++ field "value" (.nat p.2.toNat))

/-- `SourcedStatus`, src/output.rs:268-273. -/
def SourcedStatus.doc (s : SourcedStatus) : Doc :=
  .obj (field "source" (.str s.source) ++ field "raw" (.str s.raw) ++ field "display" (.str s.display))

/-- `ConfigurationOutput`, src/output.rs:275-279. -/
def configurationDoc (p : List Char × List Char) : Doc :=
  .obj (field "source" (.str p.1) ++ field "raw" (.str p.2))

/-- `EllOutput`, src/output.rs:281-293. -/
def EllOutput.doc (e : EllOutput) : Doc :=
  .obj (field "communication_control" (.str e.communicationControl)
    ++ field "access_number" (.nat e.accessNumber.toNat)
    ++ fieldOpt "receiver_manufacturer" .str e.receiverManufacturer
    ++ fieldOpt "receiver_address" .str e.receiverAddress
    ++ fieldOpt "session_number" .str e.sessionNumber
    ++ fieldOpt "payload_crc" .str e.payloadCrc)

/-- `TransportOutput`, src/output.rs:295-307. -/
def TransportOutput.doc (t : TransportOutput) : Doc :=
  .obj (fieldOpt "header_kind" .str t.headerKind
    ++ fieldVec "access_numbers" sourcedDoc t.accessNumbers
    ++ fieldVec "statuses" SourcedStatus.doc t.statuses
    ++ fieldOpt "configuration" configurationDoc t.configuration
    ++ fieldOpt "ell" EllOutput.doc t.ell)

/-- `SecurityOutput`, src/output.rs:309-322. -/
def SecurityOutput.doc (s : SecurityOutput) : Doc :=
  .obj (field "payload_protection" (.str s.payloadProtection) ++ fieldOpt "mode" .str s.mode
    ++ fieldOpt "mode_code" (fun v : UInt8 => .nat v.toNat) s.modeCode
    ++ field "decryption_state" (.str s.decryptionState) ++ field "key_supplied" (.bool s.keySupplied)
    ++ fieldOpt "encrypted_payload_hex" .str s.encryptedPayloadHex
    ++ fieldOpt "decrypted_payload_hex" .str s.decryptedPayloadHex)

/-- `ValueOutput`, src/output.rs:342-351. -/
def ValueOutput.doc (env : TextEnv) (v : ValueOutput) : Doc :=
  .obj (field "kind" (.str v.kind) ++ fieldOpt "value" (Json.doc env) v.value)

/-- `RecordOutput`, src/output.rs:324-340. -/
def RecordOutput.doc (env : TextEnv) (r : RecordOutput) : Doc :=
  .obj (field "index" (.nat r.index) ++ field "function" (.str r.function)
    ++ field "storage_number" (.nat r.storageNumber) ++ field "tariff" (.nat r.tariff)
    ++ field "subunit" (.nat r.subunit) ++ field "quantities" (.arr (r.quantities.map .str))
    ++ field "value" (r.value.doc env) ++ fieldOpt "unit" .str r.unit
    ++ field "data_coding" (.str r.dataCoding) ++ field "header_hex" (.str r.headerHex)
    ++ field "data_hex" (.str r.dataHex))

/-- `RawOutput`, src/output.rs:353-363. -/
def RawOutput.doc (r : RawOutput) : Doc :=
  .obj (fieldOpt "input" .str r.input ++ field "original_frame_hex" (.str r.originalFrameHex)
    ++ field "normalized_frame_hex" (.str r.normalizedFrameHex) ++ field "byte_length" (.nat r.byteLength)
    ++ field "format_a_crc_stripped" (.bool r.formatACrcStripped)
    ++ fieldOpt "payload_hex" .str r.payloadHex)

/-- `Diagnostic`, src/output.rs:365-375; `offset_end` is never set. -/
def Diagnostic.doc (d : Diagnostic) : Doc :=
  .obj (field "severity" (.str d.severity) ++ field "code" (.str d.code) ++ field "layer" (.str d.layer)
    ++ field "message" (.str d.message) ++ fieldOpt "offset_start" .nat d.offsetStart)

/-- `EnrichmentOutput`, src/output.rs:377-384. -/
def EnrichmentOutput.doc (e : EnrichmentOutput) : Doc :=
  .obj (field "source" (.str e.source) ++ field "manufacturer_code" (.str e.manufacturerCode)
    ++ field "manufacturer_name" (.str e.info.name.toList)
    ++ field "manufacturer_website" (.str e.info.website.toList)
    ++ field "manufacturer_description" (.str e.info.description.toList))

/-- `DecodedOutput`, src/output.rs:211-225. -/
def DecodedOutput.doc (env : TextEnv) (o : DecodedOutput) : Doc :=
  .obj (field "schema_version" (.nat 3) ++ field "decode_state" (.str o.decodeState)
    ++ field "protocol" (.str o.protocol) ++ field "frame" o.frame.doc ++ field "meter" o.meter.doc
    ++ field "transport" o.transport.doc ++ field "security" o.security.doc
    ++ field "records" (.arr (o.records.map (RecordOutput.doc env))) ++ field "raw" o.raw.doc
    ++ field "diagnostics" (.arr (o.diagnostics.map Diagnostic.doc))
    ++ fieldOpt "enrichment" EnrichmentOutput.doc o.enrichment)

/-- The JSON arm of `render_bytes`, src/output.rs:520-525. -/
def renderJson (env : TextEnv) (o : DecodedOutput) : List Char := (o.doc env).text true 0

/-- The JSON of `parse` and of `parse_records` in python/src/lib.rs:62-71 and 80-105. -/
def compactJson (d : Doc) : List Char := d.text false 0

end MBus
