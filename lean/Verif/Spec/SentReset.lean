import Verif.Spec.SentJson
import Verif.Spec.Render
import Verif.Spec.CsvText
import Verif.Spec.LegacyJson
/-!
# Application resets

The telegram by which a reader resets the application of a meter (CI field 50 of EN 13757-3): one byte says which data the
meter shall send from now on.
-/
namespace MBus.Spec

/-- What the meter shall send, by the low four bits of the byte. -/
def resetNames : List String :=
  ["All", "UserData", "SimpleBilling", "EnhancedBilling", "MultiTariffBilling", "InstantaneousValues",
    "LoadManagementValues", "Reserved1", "InstallationStartup", "Testing", "Calibration", "ConfigurationUpdates",
    "Manufacturing", "Development", "Selftest", "Reserved2"]

/-- The telegram is an application reset; `wired` says over which line. -/
def ResetSent (wired : Bool) (data : List UInt8) : Prop :=
  ∃ link b rest, Telegram data link (0x50 :: b :: rest) ∧ (wired = true ↔ link = none)

/-- The telegram is a wired one without application data for the decoder: the single character, a short frame, or a frame
with the control field 53. -/
inductive BareSent (data : List UInt8) : Prop
  | single (c : UInt8) : WiredTelegram data (.singleCharacter c) → BareSent data
  | short (fn : Function) (a : Address) : WiredTelegram data (.shortFrame fn a) → BareSent data
  | control (fn : Function) (a : Address) (payload : List UInt8) : WiredTelegram data (.controlFrame fn a payload) →
      BareSent data

/-- The text is JSON, and its one reading says of which kind the telegram is and that it was understood completely, and has
no record, no access number and no status; over a wired line it has no meter either.  The only diagnostic says that a key
was given and not used. -/
def JsonBare (kind : Option String) (wired keyGiven : Bool) (text : List Char) : Prop :=
  ∃ d, (∀ d', JsonText text d' ↔ d' = d) ∧
    follow [.key "decode_state"] d = some (.str "complete".toList) ∧
    follow [.key "transport", .key "header_kind"] d = kind.map (fun k => .str k.toList) ∧
    (∀ path ∈ [[Step.key "records"], [.key "transport", .key "access_numbers"], [.key "transport", .key "statuses"],
      [.key "meter", .key "alternate_identities"]], follow (path ++ [.at 0]) d = none) ∧
    follow [.key "diagnostics", .at 0, .key "code"] d =
      (if keyGiven then some (.str "security.key_unused".toList) else none) ∧
    follow [.key "diagnostics", .at (if keyGiven then 1 else 0)] d = none ∧
    (wired = true → ∀ name ∈ ["source", "id", "manufacturer_code", "version", "device_type"],
      follow [.key "meter", .key "identity", .key name] d = none)

/-- An application reset, see `JsonBare`. -/
def JsonReset : Bool → Bool → List Char → Prop := JsonBare (some "application_reset")

/-- The text is a CSV file of names and values which say the same. -/
def CsvBare (wired keyGiven : Bool) (text : List Char) : Prop :=
  ∃ names values, (∀ rows, CsvFile text rows ↔ rows = [names, values]) ∧ names.Nodup ∧ values.length = names.length ∧
    column (names, values) "record_count".toList = some ['0'] ∧
    column (names, values) "decode_state".toList = some "complete".toList ∧
    (∀ name ∈ ["access_numbers", "status_codes"], column (names, values) name.toList = some []) ∧
    column (names, values) "diagnostic_codes".toList = some (if keyGiven then "security.key_unused".toList else []) ∧
    (wired = true → ∀ name ∈ ["meter_id", "manufacturer_code", "identity_source"],
      column (names, values) name.toList = some [])

end MBus.Spec
