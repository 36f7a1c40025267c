import Verif.Model.Legacy
/-!
# Model of `parse_to_mermaid`, `src/mbus_data.rs:826-1165`

The function pushes whole lines; the model lists them, `DiagramLine.text` gives their text.
-/
namespace MBus

/-- `{:?}` of `Function`, crates/m-bus-core/src/lib.rs:447-465: the derived `Debug`. -/
def Function.debug : Function → List Char
  | .sndNk prm => "SndNk { prm: ".toList ++ boolDisplay prm ++ " }".toList
  | .sndUd fcb => "SndUd { fcb: ".toList ++ boolDisplay fcb ++ " }".toList
  | .reqUd1 fcb => "ReqUd1 { fcb: ".toList ++ boolDisplay fcb ++ " }".toList
  | .reqUd2 fcb => "ReqUd2 { fcb: ".toList ++ boolDisplay fcb ++ " }".toList
  | .rspUd acd dfc =>
    "RspUd { acd: ".toList ++ boolDisplay acd ++ ", dfc: ".toList ++ boolDisplay dfc ++ " }".toList
  | .sndUd2 => "SndUd2".toList
  | .sndUd3 => "SndUd3".toList
  | .sndNr => "SndNr".toList
  | .sendIr => "SendIr".toList
  | .accNr => "AccNr".toList
  | .accDmd => "AccDmd".toList
  | .ack => "Ack".toList
  | .nack => "Nack".toList
  | .cnfIr => "CnfIr".toList

/-- `{:?}` of `Option<Function>`. -/
def functionDebug : Option Function → List Char
  | some f => "Some(".toList ++ f.debug ++ [')']
  | none => "None".toList

/-- `{:?}` of `DeviceType`, crates/m-bus-core/src/lib.rs:150-201: the derived `Debug`. -/
def DeviceType.debug : DeviceType → List Char
  | .other => "Other".toList
  | .oilMeter => "OilMeter".toList
  | .electricityMeter => "ElectricityMeter".toList
  | .gasMeter => "GasMeter".toList
  | .heatMeterReturn => "HeatMeterReturn".toList
  | .steamMeter => "SteamMeter".toList
  | .warmWaterMeter => "WarmWaterMeter".toList
  | .waterMeter => "WaterMeter".toList
  | .heatCostAllocator => "HeatCostAllocator".toList
  | .compressedAir => "CompressedAir".toList
  | .coolingMeterReturn => "CoolingMeterReturn".toList
  | .coolingMeterFlow => "CoolingMeterFlow".toList
  | .heatMeterFlow => "HeatMeterFlow".toList
  | .combinedHeatCoolingMeter => "CombinedHeatCoolingMeter".toList
  | .busSystemComponent => "BusSystemComponent".toList
  | .unknownDevice => "UnknownDevice".toList
  | .irrigationWaterMeter => "IrrigationWaterMeter".toList
  | .waterDataLogger => "WaterDataLogger".toList
  | .gasDataLogger => "GasDataLogger".toList
  | .gasConverter => "GasConverter".toList
  | .calorificValue => "CalorificValue".toList
  | .hotWaterMeter => "HotWaterMeter".toList
  | .coldWaterMeter => "ColdWaterMeter".toList
  | .dualRegisterWaterMeter => "DualRegisterWaterMeter".toList
  | .pressureMeter => "PressureMeter".toList
  | .adConverter => "AdConverter".toList
  | .smokeDetector => "SmokeDetector".toList
  | .roomSensor => "RoomSensor".toList
  | .gasDetector => "GasDetector".toList
  | .reservedSensor code => "ReservedSensor(".toList ++ natText code.toNat ++ [')']
  | .electricityBreaker => "ElectricityBreaker".toList
  | .valve => "Valve".toList
  | .reservedSwitch code => "ReservedSwitch(".toList ++ natText code.toNat ++ [')']
  | .customerUnit => "CustomerUnit".toList
  | .reservedCustomer code => "ReservedCustomer(".toList ++ natText code.toNat ++ [')']
  | .wasteWaterMeter => "WasteWaterMeter".toList
  | .garbage => "Garbage".toList
  | .reservedCO2 => "ReservedCO2".toList
  | .reservedEnvironmental code => "ReservedEnvironmental(".toList ++ natText code.toNat ++ [')']
  | .serviceTool => "ServiceTool".toList
  | .communicationController => "CommunicationController".toList
  | .unidirectionalRepeater => "UnidirectionalRepeater".toList
  | .bidirectionalRepeater => "BidirectionalRepeater".toList
  | .reservedSystem code => "ReservedSystem(".toList ++ natText code.toNat ++ [')']
  | .radioConverterSystemSide => "RadioConverterSystemSide".toList
  | .radioConverterMeterSide => "RadioConverterMeterSide".toList
  | .busConverterMeterSide => "BusConverterMeterSide".toList
  | .reserved code => "Reserved(".toList ++ natText code.toNat ++ [')']
  | .wildcard => "Wildcard".toList

/-- The lines `parse_to_mermaid` pushes after the first. -/
inductive DiagramLine where
  | subgraph (id label : List Char)
  | close
  | node (indent : Nat) (id label : List Char)
  | chain (a b : List Char)
  | arrow (a b : List Char)
  | style (id attributes : List Char)
  deriving DecidableEq, Repr

/-- The format strings: `    subgraph {}["{}"]`, `    end`, `{}["{}"]`, `        {}~~~{}`, `    {} --> {}`
and `    style {} {}`, src/mbus_data.rs:858-1115 and 1136-1160. -/
def DiagramLine.text : DiagramLine → List Char
  | .subgraph id label => "    subgraph ".toList ++ id ++ "[\"".toList ++ label ++ "\"]".toList
  | .close => "    end".toList
  | .node indent id label => List.replicate indent ' ' ++ id ++ "[\"".toList ++ label ++ "\"]".toList
  | .chain a b => "        ".toList ++ a ++ "~~~".toList ++ b
  | .arrow a b => "    ".toList ++ a ++ " --> ".toList ++ b
  | .style id attributes => "    style ".toList ++ id ++ [' '] ++ attributes

/-- `slice::chunks(4)`: `MAX_PER_ROW` is 4, src/mbus_data.rs:831. -/
def chunks4 : List (List Char) → List (List (List Char))
  | a :: b :: c :: d :: rest => [a, b, c, d] :: chunks4 rest
  | [] => []
  | rest => [rest]

/-- The identifiers `{prefix}P{index}` of padding nodes, src/mbus_data.rs:1135 and 1146. -/
def padIds (pad : List Char) (start count : Nat) : List (List Char) :=
  (List.range' start count).map (fun i => pad ++ 'P' :: natText i)

/-- The pairs of `row.windows(2)`, src/mbus_data.rs:1158-1162. -/
def rowChain : List (List Char) → List DiagramLine
  | a :: b :: rest => .chain a b :: rowChain (b :: rest)
  | _ => []

/-- The loop of `mermaid_centered_chains`, src/mbus_data.rs:1126-1163, with `pad_idx`; the two texts it
returns. -/
def centeredLoop (pad : List Char) : List (List (List Char)) → (padIdx : Nat) →
    List DiagramLine × List DiagramLine
  | [], _ => ([], [])
  | chunk :: rest, padIdx =>
    if chunk.length = 4 then
      let (body, styles) := centeredLoop pad rest padIdx
      (rowChain chunk ++ body, styles)
    else
      let padding := 4 - chunk.length
      let left := padIds pad padIdx (padding / 2)
      let right := padIds pad (padIdx + padding / 2) (padding - padding / 2)
      let (body, styles) := centeredLoop pad rest (padIdx + padding)
      ((left ++ right).map (fun id => .node 8 id [' ']) ++ rowChain (left ++ chunk ++ right) ++ body,
        (left ++ right).map (fun id => .style id "fill:none,stroke:none,color:none".toList) ++ styles)

/-- `mermaid_centered_chains`, src/mbus_data.rs:1118-1165. -/
def centeredChains (ids : List (List Char)) (pad : List Char) : List DiagramLine × List DiagramLine :=
  centeredLoop pad (chunks4 ids) 0

/-- `RECORD_COLORS`, src/mbus_data.rs:833-842. -/
def recordColors : List (String × String) :=
  [("#1565c0", "#fff"), ("#2e7d32", "#fff"), ("#e65100", "#fff"), ("#6a1b9a", "#fff"), ("#c62828", "#fff"),
    ("#00695c", "#fff"), ("#f9a825", "#000"), ("#4527a0", "#fff")]

/-- `R{i}`. -/
def oldRecordId (i : Nat) : List Char := 'R' :: natText i

/-- The `style` of a record, src/mbus_data.rs:966-973 and 1097-1104. -/
def oldRecordStyle (i : Nat) : DiagramLine :=
  let (fill, text) := (recordColors[i % recordColors.length]?).getD ("#888", "#fff")
  .style (oldRecordId i) ("fill:".toList ++ fill.toList ++ ",color:".toList ++ text.toList
    ++ ",stroke:#333".toList)

/-- The label of a record, src/mbus_data.rs:956-965 and 1087-1096. -/
def oldRecordLabel (realText : UInt32 → List Char) (r : DataRecord) : List Char :=
  mermaidEscapeOld ('(' :: r.data.display realText ++ (match r.header.processed.valueInfo with
    | some x => x.display
    | none => []))

/-- The node of a record, src/mbus_data.rs:965 and 1096. -/
def oldRecordNode (realText : UInt32 → List Char) (r : DataRecord) (i : Nat) : DiagramLine :=
  .node 8 (oldRecordId i) (oldRecordLabel realText r)

/-- The identifiers `DEV1`, `DEV2`, …, src/mbus_data.rs:888-935. -/
def devId (i : Nat) : List Char := "DEV".toList ++ natText i

/-- The labels of `DEV1` to `DEV6`, and of `DEV7` to `DEV9` if the manufacturer is known,
src/mbus_data.rs:880-932. -/
def deviceLabels (header : LongTplHeader) : List (List Char) :=
  let mfr := manufacturerText header.manufacturer
  [ "ID: ".toList ++ mermaidEscapeOld (idDisplay header.identificationNumber),
    "Manufacturer: ".toList ++ mermaidEscapeOld mfr,
    "Version: ".toList ++ natText header.version.toNat,
    "Device Type: ".toList ++ mermaidEscapeOld header.deviceType.debug,
    "Access Number: ".toList ++ natText header.short.accessNumber.toNat,
    "Status: ".toList ++ mermaidEscapeOld (statusDisplay header.short.status) ]
  ++ (match lookupManufacturer mfr with
    | some info => [ "Name: ".toList ++ mermaidEscapeOld info.name.toList,
        "Website: ".toList ++ mermaidEscapeOld info.website.toList,
        mermaidEscapeOld info.description.toList ]
    | none => [])

/-- The subgraph of the device and its styles, src/mbus_data.rs:875-949. -/
def deviceLines (header : LongTplHeader) : List DiagramLine × List DiagramLine :=
  let labels := deviceLabels header
  let ids := (List.range' 1 labels.length).map devId
  let (chains, pads) := centeredChains ids "DP".toList
  ( [.subgraph "DEV_SG".toList "Device Info".toList]
    ++ (ids.zip labels).map (fun (id, label) => .node 8 id label) ++ chains
    ++ [.close, .arrow "FRAME_SG".toList "DEV_SG".toList],
    pads ++ [.style "DEV_SG".toList "fill:#1e8449,color:#fff,stroke:#145a32".toList]
    ++ ids.map (fun id => .style id "fill:#27ae60,color:#fff,stroke:#145a32".toList) )

/-- The subgraph of the records of a wired frame and its styles, src/mbus_data.rs:951-983. -/
def wiredRecordLines (realText : UInt32 → List Char) (records : List DataRecord) :
    List DiagramLine × List DiagramLine :=
  let (chains, pads) := centeredChains ((List.range records.length).map oldRecordId) "RP".toList
  ( [.subgraph "REC_SG".toList "Data Records".toList]
    ++ records.zipIdx.map (fun (r, i) => oldRecordNode realText r i) ++ chains
    ++ [.close, .arrow "DEV_SG".toList "REC_SG".toList],
    (List.range records.length).map oldRecordStyle
    ++ [.style "REC_SG".toList "fill:#6c3483,color:#fff,stroke:#4a235a".toList] ++ pads )

/-- The subgraph of the records of a wireless frame and its styles, src/mbus_data.rs:1083-1109. -/
def wirelessRecordLines (realText : UInt32 → List Char) (records : List DataRecord) :
    List DiagramLine × List DiagramLine :=
  ( [.subgraph "REC_SG".toList "Data Records".toList]
    ++ records.zipIdx.map (fun (r, i) => oldRecordNode realText r i)
    ++ [.close, .arrow "FRAME_SG".toList "REC_SG".toList],
    (List.range records.length).map oldRecordStyle
    ++ [.style "REC_SG".toList "fill:#6c3483,color:#fff,stroke:#4a235a".toList] )

/-- The subgraph of a long frame and its styles, src/mbus_data.rs:858-873. -/
def longFrameLines (function : Function) (address : Address) : List DiagramLine × List DiagramLine :=
  let ids := ["FTYPE".toList, "FUNC".toList, "ADDR".toList]
  let (chains, pads) := centeredChains ids "FP".toList
  ( [.subgraph "FRAME_SG".toList "Frame Header".toList, .node 8 "FTYPE".toList "Long Frame".toList,
      .node 8 "FUNC".toList ("Function: ".toList ++ mermaidEscapeOld function.display),
      .node 8 "ADDR".toList ("Address: ".toList ++ mermaidEscapeOld address.display)]
    ++ chains ++ [.close],
    pads ++ [.style "FRAME_SG".toList "fill:#2e86c1,color:#fff,stroke:#1a5276".toList]
    ++ ids.map (fun id => .style id "fill:#2980b9,color:#fff,stroke:#1a5276".toList) )

/-- The lines of a short or control frame, src/mbus_data.rs:985-994 and 1002-1013. -/
def shortFrameLines (title : List Char) (function : Function) (address : Address) : List DiagramLine :=
  [ .subgraph "FRAME_SG".toList title,
    .node 8 "FUNC".toList ("Function: ".toList ++ mermaidEscapeOld function.display),
    .node 8 "ADDR".toList ("Address: ".toList ++ mermaidEscapeOld address.display),
    .close,
    .style "FRAME_SG".toList "fill:#2e86c1,color:#fff,stroke:#1a5276".toList ]

/-- `data_records.flatten().collect()`, if there are records. -/
def flattenRecords (cfg : Cfg) : Option DataRecords → Res Unit (Option (List DataRecord))
  | some s => do
    let records ← flattenItems (s.collect cfg)
    .ok (some records)
  | none => .ok none

/-- The wired half of `parse_to_mermaid`, src/mbus_data.rs:847-1020. -/
def mermaidWired (cfg : Cfg) (realText : UInt32 → List Char) (parsed : MbusData WiredFrame) :
    Res Unit (List DiagramLine) :=
  match parsed.frame with
  | .longFrame function address _ => do
    let records ← flattenRecords cfg parsed.dataRecords
    let frame := longFrameLines function address
    let device := match parsed.userData with
      | some (.long _ header _) => deviceLines header
      | _ => ([], [])
    let records := match records with
      | some rs => wiredRecordLines realText rs
      | none => ([], [])
    .ok (frame.1 ++ device.1 ++ records.1 ++ frame.2 ++ device.2 ++ records.2)
  | .shortFrame function address => .ok (shortFrameLines "Short Frame".toList function address)
  | .controlFrame function address _ => .ok (shortFrameLines "Control Frame".toList function address)
  | .singleCharacter character =>
    .ok [ .node 4 "FRAME".toList ("Single Character: 0x".toList ++ hexString [character]),
      .style "FRAME".toList "fill:#2e86c1,color:#fff,stroke:#1a5276".toList ]

/-- The nodes of a wireless frame, src/mbus_data.rs:1038-1073. -/
def wirelessNodes (f : WirelessFrame) : List (List Char × List Char) :=
  let id := f.manufacturerId
  let mfr := id.manufacturerCode.display
  [ ("FUNC".toList, "Function: ".toList ++ functionDebug f.function),
    ("MFR".toList, "Manufacturer: ".toList ++ mermaidEscapeOld mfr),
    ("ID".toList, "ID: IdentificationNumber { number: ".toList ++ natText id.identificationNumber
      ++ " }".toList),
    ("DEVT".toList, "Device Type: ".toList ++ id.deviceType.debug),
    ("VER".toList, "Version: ".toList ++ natText id.version.toNat) ]
  ++ (match lookupManufacturer mfr with
    | some info => [ ("MFRNAME".toList, "Name: ".toList ++ mermaidEscapeOld info.name.toList),
        ("MFRWEB".toList, "Website: ".toList ++ mermaidEscapeOld info.website.toList),
        ("MFRDESC".toList, mermaidEscapeOld info.description.toList) ]
    | none => [])

/-- The wireless half of `parse_to_mermaid`, src/mbus_data.rs:1029-1112. -/
def mermaidWireless (cfg : Cfg) (realText : UInt32 → List Char) (parsed : MbusData WirelessFrame) :
    Res Unit (List DiagramLine) := do
  let records ← flattenRecords cfg parsed.dataRecords
  let nodes := wirelessNodes parsed.frame
  let records := match records with
    | some rs => wirelessRecordLines realText rs
    | none => ([], [])
  .ok ([.subgraph "FRAME_SG".toList "Wireless Frame".toList]
    ++ nodes.map (fun (id, label) => .node 8 id label) ++ [.close] ++ records.1
    ++ [.style "FRAME_SG".toList "fill:#2e86c1,color:#fff,stroke:#1a5276".toList]
    ++ nodes.map (fun (id, _) => .style id "fill:#2980b9,color:#fff,stroke:#1a5276".toList)
    ++ records.2)

/-- `parse_to_mermaid`, src/mbus_data.rs:826-1116, on the bytes of the input: the lines after
`flowchart TD`.  The key is not used. -/
def mermaidOld (cfg : Cfg) (realText : UInt32 → List Char) (data : List UInt8) :
    Res Unit (List DiagramLine) :=
  match MbusData.tryFromWired cfg data with
  | .panic => .panic
  | .ok parsed => mermaidWired cfg realText parsed
  | .err _ => do
    let normalized ← withoutFormatA data
    match MbusData.tryFromWireless normalized with
    | .panic => .panic
    | .err _ => .ok [.node 4 "ERR".toList "Error: Could not parse data".toList]
    | .ok parsed => mermaidWireless cfg realText parsed

/-- The text `parse_to_mermaid` returns, src/mbus_data.rs:828. -/
def parseToMermaid (cfg : Cfg) (realText : UInt32 → List Char) (input : List Char)
    (_key : Option (List UInt8)) : Res Unit (List Char) := do
  let lines ← mermaidOld cfg realText (cleanAndConvert input)
  .ok (unlines ("flowchart TD".toList :: lines.map DiagramLine.text))

end MBus
