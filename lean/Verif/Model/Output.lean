import Verif.Model.Security
import Verif.Model.Names
import Verif.Model.Manufacturers
/-!
# Model of `decode_bytes` and the structured output, `src/output.rs`

Strings are `List Char`.
-/
namespace MBus

/-- `FrameOutput`, src/output.rs:227-236. -/
structure FrameOutput where
  kind : List Char
  function : Option (List Char)
  address : Option (List Char)
  controlField : Option (List Char)
  deriving DecidableEq, Repr

/-- `MeterIdentity`, src/output.rs:238-252. -/
structure MeterIdentity where
  source : List Char
  id : Option (List Char)
  manufacturerCode : Option (List Char)
  version : Option UInt8
  deviceType : Option (List Char)
  deviceTypeCode : Option UInt8
  deriving DecidableEq, Repr

/-- `MeterOutput`, src/output.rs:254-260. -/
structure MeterOutput where
  identity : Option MeterIdentity
  alternateIdentities : List MeterIdentity
  deriving DecidableEq, Repr

/-- `SourcedStatus`, src/output.rs:268-273. -/
structure SourcedStatus where
  source : List Char
  raw : List Char
  display : List Char
  deriving DecidableEq, Repr

/-- `EllOutput`, src/output.rs:281-293. -/
structure EllOutput where
  communicationControl : List Char
  accessNumber : UInt8
  receiverManufacturer : Option (List Char)
  receiverAddress : Option (List Char)
  sessionNumber : Option (List Char)
  payloadCrc : Option (List Char)
  deriving DecidableEq, Repr

/-- `TransportOutput`, src/output.rs:295-307.  `SourcedU8` and `ConfigurationOutput` are pairs of source
and value. -/
structure TransportOutput where
  headerKind : Option (List Char)
  accessNumbers : List (List Char × UInt8)
  statuses : List SourcedStatus
  configuration : Option (List Char × List Char)
  ell : Option EllOutput
  deriving DecidableEq, Repr

/-- `SecurityOutput`, src/output.rs:309-322. -/
structure SecurityOutput where
  payloadProtection : List Char
  mode : Option (List Char)
  modeCode : Option UInt8
  decryptionState : List Char
  keySupplied : Bool
  encryptedPayloadHex : Option (List Char)
  decryptedPayloadHex : Option (List Char)
  deriving DecidableEq, Repr

/-- `RecordOutput`, src/output.rs:324-340. -/
structure RecordOutput where
  index : Nat
  function : List Char
  storageNumber : Nat
  tariff : Nat
  subunit : Nat
  quantities : List (List Char)
  value : ValueOutput
  unit : Option (List Char)
  dataCoding : List Char
  headerHex : List Char
  dataHex : List Char
  deriving Repr

/-- `RawOutput`, src/output.rs:353-363. -/
structure RawOutput where
  input : Option (List Char)
  originalFrameHex : List Char
  normalizedFrameHex : List Char
  byteLength : Nat
  formatACrcStripped : Bool
  payloadHex : Option (List Char)
  deriving DecidableEq, Repr

/-- `Diagnostic`, src/output.rs:365-375; `offset_end` is always `None`. -/
structure Diagnostic where
  severity : List Char
  code : List Char
  layer : List Char
  message : List Char
  offsetStart : Option Nat
  deriving DecidableEq, Repr

/-- `EnrichmentOutput`, src/output.rs:377-384. -/
structure EnrichmentOutput where
  source : List Char
  manufacturerCode : List Char
  info : ManufacturerInfo
  deriving DecidableEq, Repr

/-- `DecodedOutput`, src/output.rs:211-225; `schema_version` is the constant 3. -/
structure DecodedOutput where
  decodeState : List Char
  protocol : List Char
  frame : FrameOutput
  meter : MeterOutput
  transport : TransportOutput
  security : SecurityOutput
  records : List RecordOutput
  raw : RawOutput
  diagnostics : List Diagnostic
  enrichment : Option EnrichmentOutput
  deriving Repr

/-- `data_record_header_hex` and `data_hex`, data_record.rs:73-97: the bytes as `{:02X}`, joined with
blanks. -/
def hexSpaced (bytes : List UInt8) : List Char := [' '].intercalate (bytes.map (fun b => hexString [b]))

/-- `record_output`, src/output.rs:1273-1307. -/
def recordOutput (index : Nat) (r : DataRecord) : RecordOutput :=
  let information := r.header.processed.dataInfo
  let valueInformation := r.header.processed.valueInfo
  { index := index
    function := match information with
      | some i => match i.coding with
        | .specialFunctions f => specialFunctionName f
        | _ => recordFunctionName i.functionField
      | none => specialRecordName r
    storageNumber := (information.map (·.storageNumber)).getD 0
    tariff := (information.map (·.tariff)).getD 0
    subunit := (information.map (·.device)).getD 0
    quantities := (valueInformation.map (fun v => v.labels.map quantityName)).getD []
    value := valueOutput r
    unit := valueInformation.bind (fun v => if v.units = [] then none else some (unitOutput v.units))
    dataCoding := match information with
      | some i => dataCodingName i.coding
      | none => specialRecordName r
    headerHex := hexSpaced r.headerBytes
    dataHex := hexSpaced r.dataBytes }

/-- The records of the output, with their index: `output.len()` before each `push`,
src/output.rs:1263. -/
def recordOutputs (records : List DataRecord) : List RecordOutput :=
  records.zipIdx.map (fun (r, i) => recordOutput i r)

/-- `identity_from_wireless`, src/output.rs:1220-1229. -/
def identityFromWireless (id : ManufacturerId) : MeterIdentity :=
  { source := "link.wireless".toList
    id := some (idDisplay id.identificationNumber)
    manufacturerCode := some id.manufacturerCode.display
    version := some id.version
    deviceType := some id.deviceType.display
    deviceTypeCode := some id.deviceType.toByte }

/-- `identity_from_long`, src/output.rs:1231-1240. -/
def identityFromLong (header : LongTplHeader) : MeterIdentity :=
  { source := "tpl.long".toList
    id := some (idDisplay header.identificationNumber)
    manufacturerCode := header.manufacturer.toOption.map ManufacturerCode.display
    version := some header.version
    deviceType := some header.deviceType.display
    deviceTypeCode := some header.deviceType.toByte }

/-- `ell_output`, src/output.rs:1197-1218. -/
def ellOutput (ell : ExtendedLinkLayer) : EllOutput :=
  { communicationControl := hexString [ell.communicationControl]
    accessNumber := ell.accessNumber
    receiverManufacturer := ell.receiverAddress.map (fun a => hex4 a.manufacturer)
    receiverAddress := ell.receiverAddress.map (fun a => hexString a.address)
    sessionNumber := ell.encryption.map (fun e => hexString e.sessionNumber)
    payloadCrc := ell.encryption.map (fun e => hex4 e.payloadCrc) }

/-- The empty `TransportOutput`, src/output.rs:1061-1067. -/
def TransportOutput.empty : TransportOutput := ⟨none, [], [], none, none⟩

/-- `add_short_transport`, src/output.rs:1177-1195. -/
def addShortTransport (transport : TransportOutput) (source : List Char) (header : ShortTplHeader) :
    TransportOutput :=
  { transport with
    accessNumbers := transport.accessNumbers ++ [(source, header.accessNumber)]
    statuses := transport.statuses ++ [⟨source, hexString [header.status], statusDisplay header.status⟩]
    configuration := some (source, hex4 header.configurationField.raw) }

/-- `meter_and_transport`, src/output.rs:1053-1175. -/
def meterAndTransport (userData : Option UserDataBlock) (wirelessId : Option ManufacturerId) :
    MeterOutput × TransportOutput :=
  let link := wirelessId.map identityFromWireless
  let t := TransportOutput.empty
  match userData with
  | some (.long ell header _) =>
    let application := identityFromLong header
    let alternates := match link with
      | some l => if l ≠ application then [l] else []
      | none => []
    (⟨some application, alternates⟩,
      { addShortTransport { t with headerKind := some "long_tpl".toList } "tpl.long".toList header.short with
        ell := ell.map ellOutput })
  | some (.short ell header _) =>
    let synthetic := ell.any (fun e => e.encryption.isSome) &&
      header.configurationField.securityMode == .noEncryption
    let t := { t with headerKind := some (if synthetic then "ell" else "short_tpl").toList }
    let t := if synthetic then
        match ell with
        | some e => { t with accessNumbers := t.accessNumbers ++ [("ell".toList, e.accessNumber)] }
        | none => t
      else addShortTransport t "tpl.short".toList header
    (⟨link, []⟩, { t with ell := ell.map ellOutput })
  | some (.noTpl ell _) =>
    let t := { t with headerKind := some (if ell.isSome then "ell" else "none").toList }
    let t := match ell with
      | some e =>
        { t with accessNumbers := t.accessNumbers ++ [("ell".toList, e.accessNumber)], ell := some (ellOutput e) }
      | none => t
    (⟨link, []⟩, t)
  | some (.fixed identificationNumber accessNumber status deviceTypeAndUnit _ _) =>
    (⟨some ⟨"application.fixed".toList, some (idDisplay identificationNumber), none, none,
        some ("fixed type/unit 0x".toList ++ hex4 deviceTypeAndUnit), none⟩, []⟩,
      { t with
        headerKind := some "fixed".toList
        accessNumbers := [("application.fixed".toList, accessNumber)]
        statuses := [⟨"application.fixed".toList, hexString [status], statusDisplay status⟩] })
  | some (.reset _) => (⟨link, []⟩, { t with headerKind := some "application_reset".toList })
  | none => (⟨link, []⟩, t)

/-- `enrichment_for`, src/output.rs:1242-1250. -/
def enrichmentFor (code : List Char) : Option EnrichmentOutput :=
  (lookupManufacturer code).map (fun info => ⟨"bundled_manufacturer_registry".toList, code, info⟩)

/-- The `Diagnostic` for an application layer error, src/output.rs:933-942. -/
def applicationDiagnostic (e : AppError) : Diagnostic :=
  ⟨"warning".toList, "application.partial".toList, "application".toList, e.display, none⟩

/-- The `Diagnostic` for a record error, src/output.rs:974-983. -/
def recordDiagnostic (e : Nat × RecordError) : Diagnostic :=
  ⟨"warning".toList, "application.record_partial".toList, "application".toList, e.2.display, some e.1⟩

/-- The three `Diagnostic`s about security, src/output.rs:943-971. -/
def securityDiagnostics (c : SecurityContext) : List Diagnostic :=
  if c.encrypted && !c.decrypted then
    [⟨"warning".toList, "security.key_missing".toList, "security".toList,
      "payload is encrypted; header metadata is available but records require a key".toList, none⟩]
  else if c.decrypted then
    [⟨"info".toList, "security.decrypted_unverified".toList, "security".toList,
      "AES-CBC payload was transformed but cannot be authenticated".toList, none⟩]
  else if c.keySupplied then
    [⟨"info".toList, "security.key_unused".toList, "security".toList,
      "a key was supplied for a cleartext frame and was not used".toList, none⟩]
  else []

/-- `build_output`, src/output.rs:917-1051; `none` if collecting the records panics. -/
def buildOutput (cfg : Cfg) (protocol : List Char) (frame : FrameOutput)
    (original normalized : List UInt8) (formatACrcStripped : Bool) (payload : Option (List UInt8))
    (userData : Option UserDataBlock) (records : Option DataRecords) (applicationError : Option AppError)
    (wirelessId : Option ManufacturerId) (c : SecurityContext) (includeEnrichment : Bool) :
    Option DecodedOutput :=
  match collectRecords cfg records with
  | none => none
  | some (outputs, recordError) =>
    let (meter, transport) := meterAndTransport userData wirelessId
    let diagnostics :=
      (applicationError.map applicationDiagnostic).toList
      ++ securityDiagnostics c
      ++ (recordError.map recordDiagnostic).toList
    let partial_ := applicationError.isSome || recordError.isSome || (c.encrypted && !c.decrypted)
    some
      { decodeState := (if partial_ then "partial" else "complete").toList
        protocol := protocol
        frame := frame
        meter := meter
        transport := transport
        security :=
          { payloadProtection := (if c.encrypted then "encrypted" else if c.ellEncrypted then "unknown"
              else "cleartext").toList
            mode := c.mode.map SecurityMode.display
            modeCode := c.mode.map SecurityMode.toBits
            decryptionState := (if !c.encrypted then "not_applicable"
              else if c.decrypted then "decrypted_unverified" else "key_missing").toList
            keySupplied := c.keySupplied
            encryptedPayloadHex := if c.encrypted then payload.map hexString else none
            decryptedPayloadHex := c.decryptedPayload.map hexString }
        records := recordOutputs outputs
        raw :=
          { input := none
            originalFrameHex := hexString original
            normalizedFrameHex := hexString normalized
            byteLength := original.length
            formatACrcStripped := formatACrcStripped
            payloadHex := payload.map hexString }
        diagnostics := diagnostics
        enrichment := if includeEnrichment then
            (meter.identity.bind (·.manufacturerCode)).bind enrichmentFor
          else none }

/-- The `match &parsed.frame` of `build_wired_output`, src/output.rs:833-862. -/
def wiredFrameOutput : WiredFrame → FrameOutput × Option (List UInt8)
  | .longFrame function address data =>
    (⟨"long".toList, some (frameFunctionName function), some address.display, none⟩, some data)
  | .controlFrame function address data =>
    (⟨"control".toList, some (frameFunctionName function), some address.display, none⟩, some data)
  | .shortFrame function address =>
    (⟨"short".toList, some (frameFunctionName function), some address.display, none⟩, none)
  | .singleCharacter _ => (⟨"single_character".toList, none, none, none⟩, none)

/-- The `FrameOutput` of `build_wireless_output`, src/output.rs:895-903. -/
def wirelessFrameOutput (f : WirelessFrame) : FrameOutput :=
  ⟨"wireless".toList, f.function.map frameFunctionName, none, some (hexString [f.controlField])⟩

/-- The records to show: those of the decrypted payload, none if the payload stays encrypted, otherwise
those attached by the parser.  src/output.rs:420-424 and 446-450. -/
def recordsToShow {F : Type} (parsed : MbusData F) (c : SecurityContext) : Option DataRecords :=
  match c.decryptedPayload with
  | some decrypted => decryptedRecords parsed.userData decrypted
  | none => if c.encrypted then none else parsed.dataRecords

/-- `OutputError`, src/output.rs:115-147, as far as `decode_bytes` returns it; texts are replaced by
the errors they are made of. -/
inductive OutputError where
  | emptyInput
  | invalidFrame (wired : FrameError) (wireless : WirelessFrameError)
  | security (e : SecurityError)
  deriving DecidableEq, Repr, Inhabited

/-- `DecodeOptions`, src/output.rs:82-85. -/
structure DecodeOptions where
  key : Option (List UInt8)
  includeEnrichment : Bool

/-- `decode_bytes`, src/output.rs:404-465. -/
def decodeBytes (cfg : Cfg) (aes : AesBlock) (data : List UInt8) (options : DecodeOptions) :
    Res OutputError DecodedOutput :=
  if data = [] then .err .emptyInput
  else match MbusData.tryFromWired cfg data with
  | .panic => .panic
  | .ok parsed =>
    match prepareSecurity aes parsed.userData none options.key (List.replicate 512 0) with
    | .panic => .panic
    | .err e => .err (.security e)
    | .ok c =>
      let (frame, payload) := wiredFrameOutput parsed.frame
      match buildOutput cfg "wired".toList frame data data false payload parsed.userData
        (recordsToShow parsed c) parsed.applicationError none c options.includeEnrichment with
      | some output => .ok output
      | none => .panic
  | .err wiredError =>
    match stripFormatACrcs data (List.replicate 512 0) with
    | .panic => .panic
    | .err _ => .panic
    | .ok (result, _) =>
      let normalized := result.getD data
      match MbusData.tryFromWireless normalized with
      | .panic => .panic
      | .err wirelessError => .err (.invalidFrame wiredError wirelessError)
      | .ok parsed =>
        let id := parsed.frame.manufacturerId
        match prepareSecurity aes parsed.userData (some id) options.key (List.replicate 512 0) with
        | .panic => .panic
        | .err e => .err (.security e)
        | .ok c =>
          match buildOutput cfg "wireless".toList (wirelessFrameOutput parsed.frame) data normalized
            (normalized.length != data.length) (some parsed.frame.data) parsed.userData
            (recordsToShow parsed c) parsed.applicationError (some id) c options.includeEnrichment with
          | some output => .ok output
          | none => .panic

/-- `decode_hex`, src/output.rs:396-402. -/
def decodeHex (cfg : Cfg) (aes : AesBlock) (input : List Char) (options : DecodeOptions) :
    Res (HexError ⊕ OutputError) DecodedOutput :=
  match decodeHexBytes input with
  | .panic => .panic
  | .err e => .err (.inl e)
  | .ok bytes =>
    match decodeBytes cfg aes bytes options with
    | .panic => .panic
    | .err e => .err (.inr e)
    | .ok o => .ok { o with raw := { o.raw with input := some input } }

/-- `OutputError::Rendering` of `decode_data_records`, src/output.rs:473-479; only its parts are kept. -/
inductive RecordsError where
  | emptyInput
  | invalid (offset : Nat) (e : RecordError)
  deriving DecidableEq, Repr, Inhabited

/-- `decode_data_records`, src/output.rs:467-481. -/
def decodeDataRecords (cfg : Cfg) (data : List UInt8) : Res RecordsError (List RecordOutput) :=
  if data = [] then .err .emptyInput
  else match collectRecords cfg (some (DataRecords.new data false)) with
  | none => .panic
  | some (_, some (offset, e)) => .err (.invalid offset e)
  | some (outputs, none) => .ok (recordOutputs outputs)

end MBus
