import Verif.Model.Display
import Verif.Model.Hexview
import Verif.Model.Manufacturers
import Verif.Model.Output
import Verif.Model.Render
/-!
# Model of the older outputs of `src/mbus_data.rs:141-1200`

`json-legacy`, `yaml-legacy`, `csv-wide` and `parse_to_mermaid`.  Of the JSON and YAML text the two parts
are modelled that `serde` writes: the records of the parsed frame and the summary.  The features `std` and
`decryption` are on.
-/
namespace MBus

/-- `Display` of `Function`, crates/m-bus-core/src/lib.rs:467-479. -/
def Function.display : Function → List Char
  | .sndNk _ => "SndNk".toList
  | .sndUd fcb => "SndUd (FCB: ".toList ++ boolDisplay fcb ++ [')']
  | .reqUd2 fcb => "ReqUd2 (FCB: ".toList ++ boolDisplay fcb ++ [')']
  | .reqUd1 fcb => "ReqUd1 (FCB: ".toList ++ boolDisplay fcb ++ [')']
  | .rspUd acd dfc =>
    "RspUd (ACD: ".toList ++ boolDisplay acd ++ ", DFC: ".toList ++ boolDisplay dfc ++ [')']
  | .sndUd2 => "SndUd2".toList
  | .sndUd3 => "SndUd3".toList
  | .sndNr => "SndNr".toList
  | .sendIr => "SendIr".toList
  | .accNr => "AccNr".toList
  | .accDmd => "AccDmd".toList
  | .ack => "Ack".toList
  | .nack => "Nack".toList
  | .cnfIr => "CnfIr".toList

/-- `ManufacturerSummary`, src/mbus_data.rs:203-211: the code and the details, if the code is known. -/
structure ManufacturerSummary where
  code : List Char
  info : Option ManufacturerInfo
  deriving DecidableEq, Repr

/-- `RecordSummary`, src/mbus_data.rs:215-229. -/
structure RecordSummary where
  display : List Char
  value : Option F64
  exponent : Option Int
  unit : Option (List Char)
  quantity : Option (List Char)
  dataInformation : List Char
  headerHex : List Char
  dataHex : List Char
  deriving DecidableEq, Repr

/-- `FrameSummary`, src/mbus_data.rs:174-199. -/
structure FrameSummary where
  frameType : List Char
  function : Option (List Char)
  address : Option (List Char)
  identificationNumber : Option (List Char)
  manufacturer : Option ManufacturerSummary
  accessNumber : Option UInt8
  status : Option (List Char)
  securityMode : Option (List Char)
  version : Option UInt8
  deviceType : Option (List Char)
  encrypted : Bool
  decrypted : Bool
  encryptedPayloadHex : Option (List Char)
  records : List RecordSummary
  deriving DecidableEq, Repr

/-- `FrameSummary::new`, src/mbus_data.rs:246-263. -/
def FrameSummary.new (frameType : List Char) : FrameSummary :=
  ⟨frameType, none, none, none, none, none, none, none, none, none, false, false, none, []⟩

/-- `manufacturer_summary`, src/mbus_data.rs:267-275. -/
def manufacturerSummary (code : List Char) : ManufacturerSummary := ⟨code, lookupManufacturer code⟩

/-- `user_data_is_encrypted`, src/mbus_data.rs:283-294. -/
def userDataIsEncrypted : Option UserDataBlock → Bool
  | some (.long _ header _) => header.isEncrypted
  | some (.short _ header _) => header.isEncrypted
  | _ => false

/-- `variable_data_block`, src/mbus_data.rs:297-314. -/
def variableDataBlock : Option UserDataBlock → Option (List UInt8)
  | some (.long _ _ block) => some block
  | some (.short _ _ block) => some block
  | some (.noTpl _ block) => some block
  | _ => none

/-- The `display` of a record, src/mbus_data.rs:329-332 and 358. -/
def recordDisplay (realText : UInt32 → List Char) (r : DataRecord) : List Char :=
  '(' :: r.data.display realText ++ (match r.header.processed.valueInfo with
    | some x => x.display
    | none => [')'])

/-- `Some(text)` unless it is empty. -/
def nonEmpty (text : List Char) : Option (List Char) := if text = [] then none else some text

/-- The closure of `record_summaries`, src/mbus_data.rs:323-367. -/
def recordSummary (realText : UInt32 → List Char) (r : DataRecord) : RecordSummary :=
  { display := recordDisplay realText r
    value := match r.data.value with
      | some (.number n) => some n
      | some (.lossyNumber n) => some n
      | _ => none
    exponent := r.header.processed.valueInfo.map (·.scale)
    unit := r.header.processed.valueInfo.bind (fun vi => nonEmpty (vi.units.flatMap MUnit.display))
    quantity := r.header.processed.valueInfo.bind (fun vi =>
      nonEmpty (", ".toList.intercalate (vi.labels.map (fun l => l.debug.toList))))
    dataInformation := match r.header.processed.dataInfo with
      | some x => x.display
      | none => "None".toList
    headerHex := hexSpaced r.headerBytes
    dataHex := hexSpaced r.dataBytes }

/-- `iter.flatten()` over the items of the record iterator: the records, errors are skipped. -/
def flattenItems : List (Res RecordError DataRecord) → Res Unit (List DataRecord)
  | [] => .ok []
  | .ok r :: rest => do
    let more ← flattenItems rest
    .ok (r :: more)
  | .err _ :: rest => flattenItems rest
  | .panic :: _ => .panic

/-- `record_summaries`, src/mbus_data.rs:317-369. -/
def recordSummaries (cfg : Cfg) (realText : UInt32 → List Char) (records : DataRecords) :
    Res Unit (List RecordSummary) := do
  let records ← flattenItems (records.collect cfg)
  .ok (records.map (recordSummary realText))

/-- `Display` of the result for the manufacturer, src/mbus_data.rs:383-386. -/
def manufacturerText : Res AppError ManufacturerCode → List Char
  | .ok m => m.display
  | .err e => "Error: ".toList ++ e.display
  | .panic => []

/-- `apply_user_data_summary`, src/mbus_data.rs:372-424. -/
def applyUserDataSummary (s : FrameSummary) : Option UserDataBlock → FrameSummary
  | some (.long _ header _) =>
    { s with
      identificationNumber := some (idDisplay header.identificationNumber)
      manufacturer := some (manufacturerSummary (manufacturerText header.manufacturer))
      accessNumber := some header.short.accessNumber
      status := some (statusDisplay header.short.status)
      securityMode := some header.short.configurationField.securityMode.display
      version := some header.version
      deviceType := some header.deviceType.display }
  | some (.short _ header _) =>
    { s with
      accessNumber := some header.accessNumber
      status := some (statusDisplay header.status)
      securityMode := some header.configurationField.securityMode.display }
  | some (.fixed identificationNumber accessNumber status _ _ _) =>
    { s with
      identificationNumber := some (idDisplay identificationNumber)
      accessNumber := some accessNumber
      status := some (statusDisplay status) }
  | _ => s

/-- `finalize_summary`, src/mbus_data.rs:427-441. -/
def finalizeSummary (cfg : Cfg) (realText : UInt32 → List Char) (s : FrameSummary)
    (dataRecords : Option DataRecords) (userData : Option UserDataBlock) (encrypted decrypted : Bool) :
    Res Unit FrameSummary :=
  let s := { s with encrypted := encrypted, decrypted := decrypted }
  if encrypted && !decrypted then
    .ok { s with encryptedPayloadHex := (variableDataBlock userData).map hexString }
  else match dataRecords with
    | some records => do
      let summaries ← recordSummaries cfg realText records
      .ok { s with records := summaries }
    | none => .ok s

/-- The start of `summarize_wired`, src/mbus_data.rs:449-468. -/
def wiredSummaryHead : WiredFrame → FrameSummary
  | .longFrame function address _ =>
    { FrameSummary.new "LongFrame".toList with
      function := some function.display, address := some address.display }
  | .shortFrame function address =>
    { FrameSummary.new "ShortFrame".toList with
      function := some function.display, address := some address.display }
  | .controlFrame function address _ =>
    { FrameSummary.new "ControlFrame".toList with
      function := some function.display, address := some address.display }
  | .singleCharacter _ => FrameSummary.new "SingleCharacter".toList

/-- `summarize_wired`, src/mbus_data.rs:444-478. -/
def summarizeWired (cfg : Cfg) (realText : UInt32 → List Char) (parsed : MbusData WiredFrame)
    (encrypted decrypted : Bool) : Res Unit FrameSummary :=
  finalizeSummary cfg realText (applyUserDataSummary (wiredSummaryHead parsed.frame) parsed.userData)
    parsed.dataRecords parsed.userData encrypted decrypted

/-- The start of `summarize_wireless`, src/mbus_data.rs:486-494. -/
def wirelessSummaryHead (f : WirelessFrame) : FrameSummary :=
  { FrameSummary.new "Wireless".toList with
    function := f.function.map Function.display
    identificationNumber := some (idDisplay f.manufacturerId.identificationNumber)
    manufacturer := some (manufacturerSummary f.manufacturerId.manufacturerCode.display)
    version := some f.manufacturerId.version
    deviceType := some f.manufacturerId.deviceType.display }

/-- `summarize_wireless`, src/mbus_data.rs:481-505. -/
def summarizeWireless (cfg : Cfg) (realText : UInt32 → List Char) (parsed : MbusData WirelessFrame)
    (encrypted decrypted : Bool) : Res Unit FrameSummary :=
  finalizeSummary cfg realText (applyUserDataSummary (wirelessSummaryHead parsed.frame) parsed.userData)
    parsed.dataRecords parsed.userData encrypted decrypted

/-- `ParsedOutput`, src/mbus_data.rs:238-242: the summary, and the `data_records` that `serde` writes from
the parsed frame (`#[serde(into = "Vec<DataRecord>")]`, application-layer lib.rs:76-92). -/
structure ParsedOutput where
  summary : FrameSummary
  jsonRecords : Option (List DataRecord)
  deriving DecidableEq, Repr

/-- `build_output`, src/mbus_data.rs:508-527. -/
def buildParsed {F : Type} (cfg : Cfg) (parsed : MbusData F) (summary : FrameSummary) :
    Res Unit ParsedOutput :=
  match parsed.dataRecords with
  | none => .ok ⟨summary, none⟩
  | some s => match s.toVec cfg with
    | some records => .ok ⟨summary, some records⟩
    | none => .panic

/-- The decryption of a wired frame in `parse_frame_output`, src/mbus_data.rs:543-570: the frame with its
records, and whether it was decrypted. -/
def legacyDecryptWired (aes : AesBlock) (key : Option (List UInt8)) (parsed : MbusData WiredFrame) :
    Res Unit (MbusData WiredFrame × Bool) :=
  match userDataIsEncrypted parsed.userData, key, parsed.userData with
  | true, some key, some block =>
    match decryptWithKey aes block none key (List.replicate 256 0) with
    | (.ok len, buffer) =>
      match sliceTo? buffer len, block with
      | some decrypted, .long _ header _ =>
        .ok ({ parsed with dataRecords := some (DataRecords.new decrypted header.lsbOrder) }, true)
      | _, _ => .ok (parsed, false)
    | (.err _, _) => .ok (parsed, false)
    | (.panic, _) => .panic
  | _, _, _ => .ok (parsed, false)

/-- The decryption of a wireless frame in `parse_frame_output`, src/mbus_data.rs:582-609. -/
def legacyDecryptWireless (aes : AesBlock) (key : Option (List UInt8)) (parsed : MbusData WirelessFrame) :
    Res Unit (MbusData WirelessFrame × Bool) :=
  match userDataIsEncrypted parsed.userData, key, parsed.userData with
  | true, some key, some block =>
    match decryptWithKey aes block (some parsed.frame.manufacturerId) key (List.replicate 256 0) with
    | (.ok len, buffer) =>
      match sliceTo? buffer len with
      | some decrypted =>
        let lsb := match block with
          | .long _ header _ => header.lsbOrder
          | _ => false
        .ok ({ parsed with dataRecords := some (DataRecords.new decrypted lsb) }, true)
      | none => .ok (parsed, false)
    | (.err _, _) => .ok (parsed, false)
    | (.panic, _) => .panic
  | _, _, _ => .ok (parsed, false)

/-- The wired half of `parse_frame_output`, src/mbus_data.rs:543-572. -/
def legacyWired (cfg : Cfg) (realText : UInt32 → List Char) (aes : AesBlock) (key : Option (List UInt8))
    (parsed : MbusData WiredFrame) : Res Unit ParsedOutput := do
  let (p, decrypted) ← legacyDecryptWired aes key parsed
  let summary ← summarizeWired cfg realText p (userDataIsEncrypted parsed.userData) decrypted
  buildParsed cfg p summary

/-- The wireless half of `parse_frame_output`, src/mbus_data.rs:582-611. -/
def legacyWireless (cfg : Cfg) (realText : UInt32 → List Char) (aes : AesBlock) (key : Option (List UInt8))
    (parsed : MbusData WirelessFrame) : Res Unit ParsedOutput := do
  let (p, decrypted) ← legacyDecryptWireless aes key parsed
  let summary ← summarizeWireless cfg realText p (userDataIsEncrypted parsed.userData) decrypted
  buildParsed cfg p summary

/-- `parse_frame_output`, src/mbus_data.rs:534-615, on the bytes of the input.  `.err ()` is `None`. -/
def parseFrameOutput (cfg : Cfg) (realText : UInt32 → List Char) (aes : AesBlock) (data : List UInt8)
    (key : Option (List UInt8)) : Res Unit ParsedOutput :=
  match MbusData.tryFromWired cfg data with
  | .panic => .panic
  | .ok parsed => legacyWired cfg realText aes key parsed
  | .err _ => do
    let normalized ← withoutFormatA data
    match MbusData.tryFromWireless normalized with
    | .panic => .panic
    | .err _ => .err ()
    | .ok parsed => legacyWireless cfg realText aes key parsed

/-! ## csv-wide -/

/-- The headers of `parse_to_csv`, src/mbus_data.rs:766-782. -/
def wideHeaders (s : FrameSummary) : List (List Char) :=
  ["FrameType".toList, "Function".toList, "Address".toList, "Identification Number".toList,
    "Manufacturer".toList, "Manufacturer Name".toList, "Access Number".toList, "Status".toList,
    "Security Mode".toList, "Version".toList, "Device Type".toList]
  ++ (List.range s.records.length).flatMap (fun i =>
    ["DataPoint".toList ++ natText (i + 1) ++ "_Value".toList,
      "DataPoint".toList ++ natText (i + 1) ++ "_Info".toList])

/-- The row of `parse_to_csv`, src/mbus_data.rs:788-815. -/
def wideRow (s : FrameSummary) : List (List Char) :=
  [s.frameType, s.function.getD [], s.address.getD [], s.identificationNumber.getD [],
    (s.manufacturer.map (·.code)).getD [], ((s.manufacturer.bind (·.info)).map (·.name.toList)).getD [],
    (s.accessNumber.map (fun n => natText n.toNat)).getD [], s.status.getD [], s.securityMode.getD [],
    (s.version.map (fun v => natText v.toNat)).getD [], s.deviceType.getD []]
  ++ s.records.flatMap (fun r => [r.display, r.dataInformation])

/-- `parse_to_csv`, src/mbus_data.rs:745-824, up to the writing of the rows by the `csv` crate. -/
def parseToCsv (cfg : Cfg) (realText : UInt32 → List Char) (aes : AesBlock) (input : List Char)
    (key : Option (List UInt8)) : Res Unit (List (List (List Char))) :=
  match parseFrameOutput cfg realText aes (cleanAndConvert input) key with
  | .ok o => .ok [wideHeaders o.summary, wideRow o.summary]
  | .err _ => .ok [["Error".toList], ["Error parsing data as wired or wireless M-Bus".toList]]
  | .panic => .panic

end MBus
