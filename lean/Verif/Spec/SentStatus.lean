import Verif.Spec.SentIdentity
/-!
# What a meter says about itself

The transport header of EN 13757-7, 7.5 (access number, status byte, configuration field), written from the side of the
meter, and what a reader expects to see of it.
-/
namespace MBus.Spec

/-- What a meter reports in the status byte: the state of its application (0 no error, 1 busy, 2 error, 3 alarm), three
alarms, and three flags of its manufacturer. -/
structure SentStatus where
  application : Fin 4
  powerLow : Bool
  permanentError : Bool
  temporaryError : Bool
  own1 : Bool
  own2 : Bool
  own3 : Bool
  deriving DecidableEq

/-- The status byte. -/
def SentStatus.byte (s : SentStatus) : UInt8 :=
  UInt8.ofNat (s.application.val + 4 * s.powerLow.toNat + 8 * s.permanentError.toNat + 16 * s.temporaryError.toNat +
    32 * s.own1.toNat + 64 * s.own2.toNat + 128 * s.own3.toNat)

/-- The alarms and flags raised, in words. -/
def SentStatus.raised (s : SentStatus) : List String :=
  [(s.powerLow, "Power low"), (s.permanentError, "Permanent error"), (s.temporaryError, "Temporary error"),
   (s.own1, "Manufacturer specific 1"), (s.own2, "Manufacturer specific 2"), (s.own3, "Manufacturer specific 3")].filterMap
    (fun p => if p.1 then some p.2 else none)

/-- The text lists exactly the alarms and flags raised; without any it says so. -/
def SaysAlarms (s : SentStatus) (text : List Char) : Prop :=
  text = if s.raised = [] then "No Error(s)".toList else commaSeparated s.raised

/-- What a meter sends in the header. -/
structure SentHeader where
  access : UInt8
  status : SentStatus
  configuration : Fin 65536

/-- The four bytes of the header, the configuration low byte first. -/
def SentHeader.bytes (h : SentHeader) : List UInt8 :=
  [h.access, h.status.byte, UInt8.ofNat (h.configuration.val % 256), UInt8.ofNat (h.configuration.val / 256)]

/-- `HeaderAt h source payload`: the payload starts with the header, after the address of the meter or without one,
possibly after an extended link layer of type I. -/
inductive HeaderAt (h : SentHeader) : String → List UInt8 → Prop
  | long (m : SentMeter) (block : List UInt8) : HeaderAt h "tpl.long" (0x72 :: headerAddress m ++ h.bytes ++ block)
  | short (ci : UInt8) (block : List UInt8) : isShortCi ci → HeaderAt h "tpl.short" (ci :: h.bytes ++ block)
  | shortEll (cc acc ci : UInt8) (block : List UInt8) : isShortCi ci →
      HeaderAt h "tpl.short" ([0x8C, cc, acc] ++ (ci :: h.bytes ++ block))

/-- The telegram has the header. -/
def HasHeader (h : SentHeader) (source : String) (data : List UInt8) : Prop :=
  ∃ link payload, Telegram data link payload ∧ HeaderAt h source payload

/-- A number with `k` hexadecimal digits. -/
def hexDigits (k n : Nat) : List Char :=
  (List.range k).map (fun i => "0123456789ABCDEF".toList[n / 16 ^ (k - 1 - i) % 16]?.getD ' ')

/-- The text is JSON, and its one reading shows the header: one access number, one status with its code and `Says` of its
words, and the configuration. -/
def JsonHeader (Says : List Char → Prop) (h : SentHeader) (source : String) (text : List Char) : Prop :=
  ∃ d, (∀ d', JsonText text d' ↔ d' = d) ∧
    let found := fun steps => follow (.key "transport" :: steps) d
    (found [.key "access_numbers", .at 0, .key "source"] = some (.str source.toList) ∧
      found [.key "access_numbers", .at 0, .key "value"] = some (number h.access.toNat) ∧
      found [.key "access_numbers", .at 1] = none) ∧
    (found [.key "statuses", .at 0, .key "source"] = some (.str source.toList) ∧
      found [.key "statuses", .at 0, .key "raw"] = some (.str (hexDigits 2 h.status.byte.toNat)) ∧
      (∃ words, found [.key "statuses", .at 0, .key "display"] = some (.str words) ∧ Says words) ∧
      found [.key "statuses", .at 1] = none) ∧
    found [.key "configuration", .key "source"] = some (.str source.toList) ∧
    found [.key "configuration", .key "raw"] = some (.str (hexDigits 4 h.configuration.val))

/-- The text is a CSV file of names and values which show the access number and the status byte. -/
def CsvHeader (h : SentHeader) (source : String) (text : List Char) : Prop :=
  ∃ names values, (∀ rows, CsvFile text rows ↔ rows = [names, values]) ∧ names.Nodup ∧ values.length = names.length ∧
    column (names, values) "access_numbers".toList = some (source.toList ++ [':'] ++ (toString h.access.toNat).toList) ∧
    column (names, values) "status_codes".toList = some (hexDigits 2 h.status.byte.toNat)

end MBus.Spec
