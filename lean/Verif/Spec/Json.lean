import Verif.Spec.Hex
import Verif.Spec.Decimal
import Verif.Model.JsonText
/-!
# Specification of JSON texts (RFC 8259) and of the fields of the structured output

Nothing here refers to the writer.  `Doc` is the abstract value, `JsonText text d` says that the text is a
JSON text for the value `d`.
-/
namespace MBus.Spec

/-- Insignificant white space, RFC 8259 section 2. -/
def JsonBlank (text : List Char) : Prop := ∀ c ∈ text, c ∈ [' ', '\t', '\n', '\r']

/-- Decimal digits. -/
def JsonDigits (text : List Char) : Prop := ∀ c ∈ text, '0' ≤ c ∧ c ≤ '9'

/-- Number literals, RFC 8259 section 6. -/
def NumberText (text : List Char) : Prop :=
  ∃ sign int frac exp, text = sign ++ int ++ frac ++ exp ∧
    (sign = [] ∨ sign = ['-']) ∧
    (int = ['0'] ∨ ∃ d ds, int = d :: ds ∧ '1' ≤ d ∧ d ≤ '9' ∧ JsonDigits ds) ∧
    (frac = [] ∨ ∃ ds, frac = '.' :: ds ∧ ds ≠ [] ∧ JsonDigits ds) ∧
    (exp = [] ∨ ∃ e s ds, exp = e :: s ++ ds ∧ (e = 'e' ∨ e = 'E') ∧
      (s = [] ∨ s = ['+'] ∨ s = ['-']) ∧ ds ≠ [] ∧ JsonDigits ds)

/-- The two-character escapes, RFC 8259 section 7. -/
def shortEscapes : List (Char × Char) :=
  [('"', '"'), ('\\', '\\'), ('/', '/'), ('b', '\x08'), ('f', '\x0C'), ('n', '\n'), ('r', '\r'), ('t', '\t')]

/-- Four hexadecimal digits and their value. -/
def Hex4 (text : List Char) (n : Nat) : Prop :=
  ∃ a b c d i j k l, text = [a, b, c, d] ∧ hexDigit a = some i ∧ hexDigit b = some j ∧
    hexDigit c = some k ∧ hexDigit d = some l ∧ n = i * 4096 + j * 256 + k * 16 + l

/-- What stands between the quotes of a string and the characters it means, RFC 8259 section 7. -/
inductive StringText : List Char → List Char → Prop
  | nil : StringText [] []
  | plain {t s : List Char} (c : Char) : 0x20 ≤ c.toNat → c ≠ '"' → c ≠ '\\' → StringText t s →
      StringText (c :: t) (c :: s)
  | short {t s : List Char} (e c : Char) : (e, c) ∈ shortEscapes → StringText t s →
      StringText ('\\' :: e :: t) (c :: s)
  | unicode {t s h : List Char} (c : Char) : Hex4 h c.toNat → StringText t s →
      StringText ('\\' :: 'u' :: h ++ t) (c :: s)
  | surrogates {t s h l : List Char} (c : Char) (i j : Nat) : Hex4 h (0xD800 + i) → i < 0x400 →
      Hex4 l (0xDC00 + j) → j < 0x400 → c.toNat = 0x10000 + i * 0x400 + j → StringText t s →
      StringText ('\\' :: 'u' :: h ++ '\\' :: 'u' :: l ++ t) (c :: s)

mutual
/-- Values, RFC 8259 sections 3 to 7. -/
inductive ValueText : List Char → Doc → Prop
  | null : ValueText ['n', 'u', 'l', 'l'] .null
  | true : ValueText ['t', 'r', 'u', 'e'] (.bool true)
  | false : ValueText ['f', 'a', 'l', 's', 'e'] (.bool false)
  | num {t : List Char} : NumberText t → ValueText t (.num t)
  | str {t s : List Char} : StringText t s → ValueText ('"' :: t ++ ['"']) (.str s)
  | noItems {w : List Char} : JsonBlank w → ValueText ('[' :: w ++ [']']) (.arr [])
  | items {t : List Char} {xs : List Doc} : ItemsText t xs → ValueText ('[' :: t ++ [']']) (.arr xs)
  | noMembers {w : List Char} : JsonBlank w → ValueText ('{' :: w ++ ['}']) (.obj [])
  | members {t : List Char} {ms : List (List Char × Doc)} : MembersText t ms →
      ValueText ('{' :: t ++ ['}']) (.obj ms)

/-- The elements of an array, separated by commas. -/
inductive ItemsText : List Char → List Doc → Prop
  | last {a t b : List Char} {x : Doc} : JsonBlank a → ValueText t x → JsonBlank b →
      ItemsText (a ++ t ++ b) [x]
  | more {a t b r : List Char} {x : Doc} {xs : List Doc} : JsonBlank a → ValueText t x → JsonBlank b →
      ItemsText r xs → ItemsText (a ++ t ++ b ++ ',' :: r) (x :: xs)

/-- The members of an object, separated by commas. -/
inductive MembersText : List Char → List (List Char × Doc) → Prop
  | last {a k b c t d key : List Char} {x : Doc} : JsonBlank a → StringText k key → JsonBlank b →
      JsonBlank c → ValueText t x → JsonBlank d →
      MembersText (a ++ ('"' :: k ++ ['"']) ++ b ++ ':' :: c ++ t ++ d) [(key, x)]
  | more {a k b c t d r key : List Char} {x : Doc} {ms : List (List Char × Doc)} : JsonBlank a →
      StringText k key → JsonBlank b → JsonBlank c → ValueText t x → JsonBlank d → MembersText r ms →
      MembersText (a ++ ('"' :: k ++ ['"']) ++ b ++ ':' :: c ++ t ++ d ++ ',' :: r) ((key, x) :: ms)
end

/-- A JSON text is a value between white space. -/
def JsonText (text : List Char) (d : Doc) : Prop :=
  ∃ a t b, text = a ++ t ++ b ∧ JsonBlank a ∧ ValueText t d ∧ JsonBlank b

/-- One step into a value: a member by name or an element by position. -/
inductive Step where
  | key (name : String)
  | at (i : Nat)

/-- The value at a path; `none` if there is nothing. -/
def follow : List Step → Doc → Option Doc
  | [], d => some d
  | .key name :: rest, .obj ms => ((ms.find? (fun m => m.1 = name.toList)).map (·.2)).bind (follow rest)
  | .at i :: rest, .arr xs => xs[i]?.bind (follow rest)
  | _, _ => none

/-- No object names a member twice. -/
inductive UniqueNames : Doc → Prop
  | null : UniqueNames .null
  | bool (b : Bool) : UniqueNames (.bool b)
  | num (literal : List Char) : UniqueNames (.num literal)
  | str (text : List Char) : UniqueNames (.str text)
  | arr (xs : List Doc) : (∀ x ∈ xs, UniqueNames x) → UniqueNames (.arr xs)
  | obj (ms : List (List Char × Doc)) : (ms.map (·.1)).Nodup → (∀ m ∈ ms, UniqueNames m.2) →
      UniqueNames (.obj ms)

/-- A number without sign. -/
def number (n : Nat) : Doc := .num (decimal n)

/-- The bits of a 32-bit real that is neither infinite nor NaN: the exponent is not all ones. -/
def FiniteReal (bits : UInt32) : Prop := bits.toNat / 2 ^ 23 % 256 ≠ 255

/-- Fields of a meter identity. -/
def identityFields (i : Option MeterIdentity) : List (List Step × Option Doc) :=
  [([.key "source"], i.map (Doc.str ·.source)),
   ([.key "id"], (i.bind (·.id)).map Doc.str),
   ([.key "manufacturer_code"], (i.bind (·.manufacturerCode)).map Doc.str),
   ([.key "version"], (i.bind (·.version)).map (number ·.toNat)),
   ([.key "device_type"], (i.bind (·.deviceType)).map Doc.str),
   ([.key "device_type_code"], (i.bind (·.deviceTypeCode)).map (number ·.toNat))]

/-- Put a step in front of the paths. -/
def below (steps : List Step) (fields : List (List Step × Option Doc)) : List (List Step × Option Doc) :=
  fields.map (fun f => (steps ++ f.1, f.2))

/-- Fields outside of lists: where the JSON shows which field of the decoded telegram. -/
def telegramFields (o : DecodedOutput) : List (List Step × Option Doc) :=
  [([.key "schema_version"], some (number 3)),
   ([.key "decode_state"], some (.str o.decodeState)),
   ([.key "protocol"], some (.str o.protocol)),
   ([.key "frame", .key "kind"], some (.str o.frame.kind)),
   ([.key "frame", .key "function"], o.frame.function.map Doc.str),
   ([.key "frame", .key "address"], o.frame.address.map Doc.str),
   ([.key "frame", .key "control_field"], o.frame.controlField.map Doc.str),
   ([.key "transport", .key "header_kind"], o.transport.headerKind.map Doc.str),
   ([.key "transport", .key "configuration", .key "source"], o.transport.configuration.map (Doc.str ·.1)),
   ([.key "transport", .key "configuration", .key "raw"], o.transport.configuration.map (Doc.str ·.2)),
   ([.key "transport", .key "ell", .key "communication_control"],
     o.transport.ell.map (Doc.str ·.communicationControl)),
   ([.key "transport", .key "ell", .key "access_number"],
     o.transport.ell.map (number ·.accessNumber.toNat)),
   ([.key "transport", .key "ell", .key "receiver_manufacturer"],
     (o.transport.ell.bind (·.receiverManufacturer)).map Doc.str),
   ([.key "transport", .key "ell", .key "receiver_address"],
     (o.transport.ell.bind (·.receiverAddress)).map Doc.str),
   ([.key "transport", .key "ell", .key "session_number"],
     (o.transport.ell.bind (·.sessionNumber)).map Doc.str),
   ([.key "transport", .key "ell", .key "payload_crc"],
     (o.transport.ell.bind (·.payloadCrc)).map Doc.str),
   ([.key "security", .key "payload_protection"], some (.str o.security.payloadProtection)),
   ([.key "security", .key "mode"], o.security.mode.map Doc.str),
   ([.key "security", .key "mode_code"], o.security.modeCode.map (number ·.toNat)),
   ([.key "security", .key "decryption_state"], some (.str o.security.decryptionState)),
   ([.key "security", .key "key_supplied"], some (.bool o.security.keySupplied)),
   ([.key "security", .key "encrypted_payload_hex"], o.security.encryptedPayloadHex.map Doc.str),
   ([.key "security", .key "decrypted_payload_hex"], o.security.decryptedPayloadHex.map Doc.str),
   ([.key "raw", .key "input"], o.raw.input.map Doc.str),
   ([.key "raw", .key "original_frame_hex"], some (.str o.raw.originalFrameHex)),
   ([.key "raw", .key "normalized_frame_hex"], some (.str o.raw.normalizedFrameHex)),
   ([.key "raw", .key "byte_length"], some (number o.raw.byteLength)),
   ([.key "raw", .key "format_a_crc_stripped"], some (.bool o.raw.formatACrcStripped)),
   ([.key "raw", .key "payload_hex"], o.raw.payloadHex.map Doc.str),
   ([.key "enrichment", .key "source"], o.enrichment.map (Doc.str ·.source)),
   ([.key "enrichment", .key "manufacturer_code"], o.enrichment.map (Doc.str ·.manufacturerCode)),
   ([.key "enrichment", .key "manufacturer_name"], o.enrichment.map (Doc.str ·.info.name.toList)),
   ([.key "enrichment", .key "manufacturer_website"], o.enrichment.map (Doc.str ·.info.website.toList)),
   ([.key "enrichment", .key "manufacturer_description"],
     o.enrichment.map (Doc.str ·.info.description.toList))]
  ++ below [.key "meter", .key "identity"] (identityFields o.meter.identity)

/-- The value of a record: a text, a number, or an object with one member for each part of an incomplete
date or time. -/
def valueFields (env : TextEnv) : Option Json → List (List Step × Option Doc)
  | none => [([], none)]
  | some (.str text) => [([], some (.str text))]
  | some (.nat n) => [([], some (number n))]
  | some (.real bits) => [([], some (.num (env.realText bits)))]
  | some (.obj members) => members.map (fun m => ([.key (String.ofList m.1)], match m.2 with
      | .str text => some (.str text)
      | .nat n => some (number n)
      | .real bits => some (.num (env.realText bits))
      | .obj _ => some .null))

/-- Fields of the record at position `i`; they are absent if there is no such record. -/
def recordFields (env : TextEnv) (r : RecordOutput) : List (List Step × Option Doc) :=
  [([.key "index"], some (number r.index)),
   ([.key "function"], some (.str r.function)),
   ([.key "storage_number"], some (number r.storageNumber)),
   ([.key "tariff"], some (number r.tariff)),
   ([.key "subunit"], some (number r.subunit)),
   ([.key "quantities"], some (.arr (r.quantities.map Doc.str))),
   ([.key "value", .key "kind"], some (.str r.value.kind)),
   ([.key "unit"], r.unit.map Doc.str),
   ([.key "data_coding"], some (.str r.dataCoding)),
   ([.key "header_hex"], some (.str r.headerHex)),
   ([.key "data_hex"], some (.str r.dataHex))]
  ++ below [.key "value", .key "value"] (valueFields env r.value.value)

/-- Fields of a diagnostic. -/
def diagnosticFields (d : Diagnostic) : List (List Step × Option Doc) :=
  [([.key "severity"], some (.str d.severity)),
   ([.key "code"], some (.str d.code)),
   ([.key "layer"], some (.str d.layer)),
   ([.key "message"], some (.str d.message)),
   ([.key "offset_start"], d.offsetStart.map number)]

/-- The lists of the structured output: the path of a list and the fields of each of its elements. -/
def telegramLists (env : TextEnv) (o : DecodedOutput) : List (List Step × List (List (List Step × Option Doc))) :=
  [([.key "records"], o.records.map (recordFields env)),
   ([.key "diagnostics"], o.diagnostics.map diagnosticFields),
   ([.key "meter", .key "alternate_identities"],
     o.meter.alternateIdentities.map (fun i => identityFields (some i))),
   ([.key "transport", .key "access_numbers"], o.transport.accessNumbers.map (fun p =>
     [([.key "source"], some (.str p.1)), ([.key "value"], some (number p.2.toNat))])),
   ([.key "transport", .key "statuses"], o.transport.statuses.map (fun s =>
     [([.key "source"], some (.str s.source)), ([.key "raw"], some (.str s.raw)),
      ([.key "display"], some (.str s.display))]))]

/-- A value shows the decoded telegram: every field is at its path, absent if the telegram has none, and
every list has exactly its elements. -/
structure ShowsTelegram (env : TextEnv) (o : DecodedOutput) (d : Doc) : Prop where
  fields : ∀ f ∈ telegramFields o, follow f.1 d = f.2
  elements : ∀ l ∈ telegramLists env o, ∀ i (h : i < l.2.length), ∀ f ∈ l.2[i],
    follow (l.1 ++ [.at i] ++ f.1) d = f.2
  ends : ∀ l ∈ telegramLists env o, ∀ i, l.2.length ≤ i → follow (l.1 ++ [.at i]) d = none

end MBus.Spec
