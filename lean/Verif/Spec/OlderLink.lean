import Verif.Spec.SentLink
import Verif.Spec.SentIdentity
/-!
# How the older outputs word the link layer

The words of `json-legacy`, `csv-wide` and the diagrams for the kind of frame, the service, the address and the device
type, by the bytes sent.
-/
namespace MBus.Spec

/-- The kinds of frame: the word of the summary, and the title in the diagram. -/
def olderKinds : List (String × String × String) :=
  [("single_character", "SingleCharacter", "Single Character: 0xE5"), ("short", "ShortFrame", "Short Frame"),
   ("long", "LongFrame", "Long Frame"), ("control", "ControlFrame", "Control Frame"),
   ("wireless", "Wireless", "Wireless Frame")]

def olderKind (kind : String) : List Char := (((olderKinds.lookup kind).map (·.1)).getD "").toList

def olderTitle (kind : String) : List Char := (((olderKinds.lookup kind).map (·.2)).getD "").toList

/-- The services of the link layer, by control field: as the summary words them, and as the diagrams of wireless telegrams
do. -/
def olderServices : List (Nat × String × String) :=
  [(0x40, "SndNk", "SndNk { prm: true }"), (0x44, "SndNr", "SndNr"), (0x46, "SendIr", "SendIr"),
   (0x47, "AccNr", "AccNr"), (0x48, "AccDmd", "AccDmd"), (0x06, "CnfIr", "CnfIr"),
   (0x53, "SndUd (FCB: false)", "SndUd { fcb: false }"), (0x73, "SndUd (FCB: true)", "SndUd { fcb: true }"),
   (0x5A, "ReqUd1 (FCB: false)", "ReqUd1 { fcb: false }"), (0x7A, "ReqUd1 (FCB: true)", "ReqUd1 { fcb: true }"),
   (0x5B, "ReqUd2 (FCB: false)", "ReqUd2 { fcb: false }"), (0x7B, "ReqUd2 (FCB: true)", "ReqUd2 { fcb: true }"),
   (0x08, "RspUd (ACD: false, DFC: false)", "RspUd { acd: false, dfc: false }"),
   (0x18, "RspUd (ACD: false, DFC: true)", "RspUd { acd: false, dfc: true }"),
   (0x28, "RspUd (ACD: true, DFC: false)", "RspUd { acd: true, dfc: false }"),
   (0x38, "RspUd (ACD: true, DFC: true)", "RspUd { acd: true, dfc: true }")]

def olderService (c : UInt8) : Option (List Char) := (olderServices.lookup c.toNat).map (·.1.toList)

/-- The service in the diagram of a wireless telegram. -/
def wirelessService (c : UInt8) : List Char :=
  match olderServices.lookup c.toNat with
  | some (_, words) => "Some(".toList ++ words.toList ++ [')']
  | none => "None".toList

/-- What the diagram says of the link layer. -/
def olderLabels (link : SentLink) : List (List Char) :=
  olderTitle link.kind ::
    if link.protocol = "wireless" then
      link.control.toList.map (fun c => "Function: ".toList ++ wirelessService c)
    else (link.control.bind olderService).toList.map ("Function: ".toList ++ ·) ++
      link.address.toList.map (fun a => "Address: ".toList ++ addressText a)

/-- The text is JSON, and the summary in its one reading shows the link layer. -/
def OlderJsonLink (link : SentLink) (text : List Char) : Prop :=
  ∃ d, (∀ d', JsonText text d' ↔ d' = d) ∧
    let found := fun name => follow [.key "summary", .key name] d
    found "frame_type" = some (.str (olderKind link.kind)) ∧
    found "function" = (link.control.bind olderService).map .str ∧
    found "address" = link.address.map (fun a => .str (addressText a))

/-- The text is a CSV file of names and values which show the link layer. -/
def OlderCsvLink (link : SentLink) (text : List Char) : Prop :=
  ∃ names values, (∀ rows, CsvFile text rows ↔ rows = [names, values]) ∧ names.Nodup ∧ values.length = names.length ∧
    column (names, values) "FrameType".toList = some (olderKind link.kind) ∧
    column (names, values) "Function".toList = some ((link.control.bind olderService).getD []) ∧
    column (names, values) "Address".toList = some ((link.address.map addressText).getD [])

/-- Device types in the diagrams, by code. -/
def olderDevices : List (Nat × String) :=
  [(0x00, "Other"), (0x01, "OilMeter"), (0x02, "ElectricityMeter"), (0x03, "GasMeter"), (0x04, "HeatMeterReturn"),
   (0x05, "SteamMeter"), (0x06, "WarmWaterMeter"), (0x07, "WaterMeter"), (0x08, "HeatCostAllocator"),
   (0x09, "CompressedAir"), (0x0A, "CoolingMeterReturn"), (0x0B, "CoolingMeterFlow"), (0x0C, "HeatMeterFlow"),
   (0x0D, "CombinedHeatCoolingMeter"), (0x0E, "BusSystemComponent"), (0x0F, "UnknownDevice"),
   (0x10, "IrrigationWaterMeter"), (0x11, "WaterDataLogger"), (0x12, "GasDataLogger"), (0x13, "GasConverter"),
   (0x14, "CalorificValue"), (0x15, "HotWaterMeter"), (0x16, "ColdWaterMeter"), (0x17, "DualRegisterWaterMeter"),
   (0x18, "PressureMeter"), (0x19, "AdConverter"), (0x1A, "SmokeDetector"), (0x1B, "RoomSensor"), (0x1C, "GasDetector"),
   (0x20, "ElectricityBreaker"), (0x21, "Valve"), (0x25, "CustomerUnit"), (0x28, "WasteWaterMeter"), (0x29, "Garbage"),
   (0x2A, "ReservedCO2"), (0x30, "ServiceTool"), (0x31, "CommunicationController"), (0x32, "UnidirectionalRepeater"),
   (0x33, "BidirectionalRepeater"), (0x36, "RadioConverterSystemSide"), (0x37, "RadioConverterMeterSide"),
   (0x38, "BusConverterMeterSide"), (0xFF, "Wildcard")]

/-- The device type in the diagrams; the codes without a name are reserved. -/
def olderDevice (code : UInt8) : List Char :=
  match olderDevices.lookup code.toNat with
  | some name => name.toList
  | none =>
    let kind :=
      if code.toNat < 0x20 then "ReservedSensor"
      else if code.toNat < 0x25 then "ReservedSwitch"
      else if code.toNat < 0x28 then "ReservedCustomer"
      else if code.toNat < 0x30 then "ReservedEnvironmental"
      else if code.toNat < 0x40 then "ReservedSystem"
      else "Reserved"
    kind.toList ++ '(' :: decimalDigits code.toNat ++ [')']

end MBus.Spec
