import Verif.Spec.SentStatus
import Verif.Spec.Hex
/-!
# What the reader is told about the protection of a telegram

The security mode of EN 13757-7 is in bits 8 to 12 of the configuration field.
-/
namespace MBus.Spec

/-- The security mode of a header. -/
def SentHeader.mode (h : SentHeader) : Nat := h.configuration.val / 256 % 32

/-- Names of the security modes, by code. -/
def protectionNames : List String :=
  ["No encryption used", "Manufacturer specific usage", "DES; IV = 0 (deprecated)", "DES; IV ≠ 0 (deprecated)",
   "Specific usage (Bibliographical Entry [6])", "AES-CBC-128; IV ≠ 0", "Reserved for future use", "AES-CBC-128; IV = 0",
   "AES-CTR-128; CMAC", "AES-GCM-128", "AES-CCM-128", "Reserved for future use", "Reserved for future use",
   "Specific usage (Bibliographical Entry [8])", "Reserved for future use", "Specific usage (Bibliographical Entry [7])"]

/-- The name of a security mode; those from 16 on are reserved. -/
def protectionName (mode : Nat) : List Char :=
  match protectionNames[mode]? with
  | some name => name.toList
  | none => "Reserved for future use (mode ".toList ++ (toString mode).toList ++ [')']

/-- The initialisation vector for the data a meter encrypts: zeros in mode 7, the address and the access number in
mode 5. -/
def sealVector (h : SentHeader) (m : SentMeter) : List UInt8 :=
  if h.mode = 7 then List.replicate 16 0 else linkAddress m ++ List.replicate 8 h.access

/-- The link layer of a wireless frame names the meter. -/
structure LinkOf (m : SentMeter) (link : ManufacturerId) : Prop where
  maker : link.manufacturerCode = letters m.letter1 m.letter2 m.letter3
  number : link.identificationNumber = m.number
  version : link.version = m.version
  device : link.deviceType = DeviceType.fromByte m.device

/-- What became of the encrypted data. -/
inductive Opening where
  | clear
  | locked
  | opened (plain : List UInt8)

/-- Data nobody decrypts: they are not encrypted, or there is no key. -/
def notOpened (h : SentHeader) : Opening := if h.mode = 0 then .clear else .locked

/-- The words for it. -/
def Opening.word : Opening → String
  | .clear => "not_applicable"
  | .locked => "key_missing"
  | .opened _ => "decrypted_unverified"

/-- The remark expected about it: severity and code. -/
def Opening.remark : Opening → Bool → Option (String × String)
  | .clear, false => none
  | .clear, true => some ("info", "security.key_unused")
  | .locked, _ => some ("warning", "security.key_missing")
  | .opened _, _ => some ("info", "security.decrypted_unverified")

/-- A text of two hexadecimal digits for each byte, or no text. -/
def HexOf : Option (List UInt8) → Option Doc → Prop
  | none, found => found = none
  | some bytes, found => ∃ text, found = some (.str text) ∧ Pairs text bytes

/-- The text is JSON, and its one reading reports on the protection of a payload of the given security mode: whether it is
encrypted, the code and the name of the mode, whether a key was given, what became of the data, the encrypted payload if it
is encrypted, the plain data if they were decrypted; and it has the remark expected and no other about security. -/
def JsonSecurity (mode : Nat) (payload : List UInt8) (opening : Opening) (key : Bool) (text : List Char) : Prop :=
  ∃ d, (∀ d', JsonText text d' ↔ d' = d) ∧
    let found := fun name => follow [.key "security", .key name] d
    let remark := fun i name => follow [.key "diagnostics", .at i, .key name] d
    found "payload_protection" = some (.str (if mode = 0 then "cleartext" else "encrypted").toList) ∧
    found "mode" = some (.str (protectionName mode)) ∧ found "mode_code" = some (number mode) ∧
    found "decryption_state" = some (.str opening.word.toList) ∧ found "key_supplied" = some (.bool key) ∧
    HexOf (if mode = 0 then none else some payload) (found "encrypted_payload_hex") ∧
    HexOf (match opening with | .opened plain => some plain | _ => none) (found "decrypted_payload_hex") ∧
    match opening.remark key with
    | none => ∀ i, remark i "layer" ≠ some (.str "security".toList)
    | some (severity, code) => ∃ i, remark i "layer" = some (.str "security".toList) ∧
        remark i "severity" = some (.str severity.toList) ∧ remark i "code" = some (.str code.toList) ∧
        ∀ j, remark j "layer" = some (.str "security".toList) → j = i

/-- The text is a CSV file of names and values which report the name of the security mode and what became of the data. -/
def CsvSecurity (mode : Nat) (opening : Opening) (text : List Char) : Prop :=
  ∃ names values, (∀ rows, CsvFile text rows ↔ rows = [names, values]) ∧ names.Nodup ∧ values.length = names.length ∧
    column (names, values) "security_mode".toList = some (protectionName mode) ∧
    column (names, values) "decryption_state".toList = some opening.word.toList

end MBus.Spec
