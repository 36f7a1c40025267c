import Verif.Spec.SentCsv
import Verif.Spec.SentJson
/-!
# Who sends

The address of a meter (EN 13757-3 and -7: identification number, manufacturer, version and device type), written from
the side of the meter, and what a reader expects to see of it.
-/
namespace MBus.Spec

/-- A meter: the identification number, the three letters of the manufacturer by their positions in the alphabet, the
version and the code of the device type. -/
structure SentMeter where
  number : Nat
  letter1 : Nat
  letter2 : Nat
  letter3 : Nat
  version : UInt8
  device : UInt8
  deriving DecidableEq

/-- Eight digits and three letters. -/
abbrev SentMeter.Valid (m : SentMeter) : Prop :=
  m.number < 10 ^ 8 ∧ IsLetter m.letter1 ∧ IsLetter m.letter2 ∧ IsLetter m.letter3

/-- The manufacturer in two bytes, low byte first. -/
def makerBytes (m : SentMeter) : List UInt8 :=
  [UInt8.ofNat (flagId m.letter1 m.letter2 m.letter3 % 256), UInt8.ofNat (flagId m.letter1 m.letter2 m.letter3 / 256)]

/-- The address in a long transport header. -/
def headerAddress (m : SentMeter) : List UInt8 := encodeBcd 4 m.number ++ makerBytes m ++ [m.version, m.device]

/-- The address in the link layer of a wireless frame. -/
def linkAddress (m : SentMeter) : List UInt8 := makerBytes m ++ encodeBcd 4 m.number ++ [m.version, m.device]

/-- The payload has no address of its own. -/
def NoAddress (payload : List UInt8) : Prop :=
  (∀ e h b, ¬ Block payload (.long e h b)) ∧ ∀ i a s d x y, ¬ Block payload (.fixed i a s d x y)

/-- `SentBy m source data`: the telegram is from the meter; its address is in a long transport header or, without one, in
the link layer of a wireless frame.  With CI fields A0 to AF the device type is coded in another way (C13). -/
inductive SentBy (m : SentMeter) : String → List UInt8 → Prop
  | long (data : List UInt8) (link : Option ManufacturerId) (acc st c0 c1 : UInt8) (block : List UInt8) :
      Telegram data link (0x72 :: headerAddress m ++ [acc, st, c0, c1] ++ block) → SentBy m "tpl.long" data
  | link (data : List UInt8) (l c ci : UInt8) (rest : List UInt8) (f : WirelessFrame) : (∀ g, ¬ WiredTelegram data g) →
      Normalized data (l :: c :: linkAddress m ++ ci :: rest) →
      WirelessTelegram (l :: c :: linkAddress m ++ ci :: rest) f → NoAddress f.data → ci.toNat / 16 ≠ 10 →
      SentBy m "link.wireless" data

/-- A number with eight digits. -/
def eightDigits (n : Nat) : List Char := (List.range 8).map (fun k => Char.ofNat (48 + n / 10 ^ (7 - k) % 10))

/-- Three letters. -/
def threeLetters (m : SentMeter) : List Char :=
  [m.letter1, m.letter2, m.letter3].map (fun i => "ABCDEFGHIJKLMNOPQRSTUVWXYZ".toList[i - 1]?.getD ' ')

/-- Names of device types, by code. -/
def deviceNames : List (Nat × String) :=
  [(0x00, "Other"), (0x01, "Oil Meter"), (0x02, "Electricity Meter"), (0x03, "Gas Meter"), (0x04, "Heat Meter (Return)"),
   (0x05, "Steam Meter"), (0x06, "Warm Water Meter (30-90°C)"), (0x07, "Water Meter"), (0x08, "Heat Cost Allocator"),
   (0x09, "Compressed Air"), (0x0A, "Cooling Meter (Return)"), (0x0B, "Cooling Meter (Flow)"), (0x0C, "Heat Meter (Flow)"),
   (0x0D, "Combined Heat/Cooling Meter"), (0x0E, "Bus/System Component"), (0x0F, "Unknown Device"),
   (0x10, "Irrigation Water Meter"), (0x11, "Water Data Logger"), (0x12, "Gas Data Logger"), (0x13, "Gas Converter"),
   (0x14, "Calorific Value"), (0x15, "Hot Water Meter (≥90°C)"), (0x16, "Cold Water Meter"),
   (0x17, "Dual Register Water Meter"), (0x18, "Pressure Meter"), (0x19, "A/D Converter"), (0x1A, "Smoke Detector"),
   (0x1B, "Room Sensor"), (0x1C, "Gas Detector"), (0x20, "Breaker (Electricity)"), (0x21, "Valve (Gas/Water)"),
   (0x25, "Customer Unit (Display)"), (0x28, "Waste Water Meter"), (0x29, "Garbage"), (0x2A, "Reserved (CO₂)"),
   (0x30, "Service Tool"), (0x31, "Communication Controller (Gateway)"), (0x32, "Unidirectional Repeater"),
   (0x33, "Bidirectional Repeater"), (0x36, "Radio Converter (System Side)"), (0x37, "Radio Converter (Meter Side)"),
   (0x38, "Bus Converter (Meter Side)"), (0xFF, "Wildcard")]

/-- The name of a device type; the codes without a name are reserved. -/
def deviceName (code : UInt8) : List Char :=
  match deviceNames.lookup code.toNat with
  | some name => name.toList
  | none =>
    let kind :=
      if code.toNat < 0x20 then "Reserved Sensor"
      else if code.toNat < 0x25 then "Reserved Switch"
      else if code.toNat < 0x28 then "Reserved Customer Unit"
      else if code.toNat < 0x30 then "Reserved Environmental"
      else if code.toNat < 0x40 then "Reserved System"
      else "Reserved"
    kind.toList ++ " (0x".toList ++ hexString [code] ++ [')']

/-- The identity in the structured output is the one of the meter. -/
structure NamesMeter (m : SentMeter) (source : String) (i : MeterIdentity) : Prop where
  source : i.source = source.toList
  id : i.id = some (eightDigits m.number)
  maker : i.manufacturerCode = some (threeLetters m)
  version : i.version = some m.version
  name : i.deviceType = some (deviceName m.device)
  code : i.deviceTypeCode = some m.device

/-- The text is JSON, and its one reading names the meter. -/
def JsonMeter (m : SentMeter) (source : String) (text : List Char) : Prop :=
  ∃ d, (∀ d', JsonText text d' ↔ d' = d) ∧
    let found := fun name => follow [.key "meter", .key "identity", .key name] d
    found "source" = some (.str source.toList) ∧ found "id" = some (.str (eightDigits m.number)) ∧
    found "manufacturer_code" = some (.str (threeLetters m)) ∧ found "version" = some (number m.version.toNat) ∧
    found "device_type" = some (.str (deviceName m.device)) ∧
    found "device_type_code" = some (number m.device.toNat)

/-- The text is a CSV file of names and values which name the meter. -/
def CsvMeter (m : SentMeter) (source : String) (text : List Char) : Prop :=
  ∃ names values, (∀ rows, CsvFile text rows ↔ rows = [names, values]) ∧ names.Nodup ∧ values.length = names.length ∧
    column (names, values) "meter_id".toList = some (eightDigits m.number) ∧
    column (names, values) "manufacturer_code".toList = some (threeLetters m) ∧
    column (names, values) "identity_source".toList = some source.toList

end MBus.Spec
