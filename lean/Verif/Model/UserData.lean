import Verif.Model.Record
import Verif.Model.Decryption
/-!
# Model of the user data block: `crates/m-bus-application-layer/src/lib.rs` from line 163 on and
`crates/m-bus-application-layer/src/extended_link_layer.rs`
-/
namespace MBus

/-- `Direction`, application-layer lib.rs:225-228. -/
inductive Direction where
  | slaveToMaster | masterToSlave
  deriving DecidableEq, Repr, Inhabited

/-- `ControlInformation`, application-layer lib.rs:300-358. -/
inductive ControlInformation where
  | sendData
  | selectSlave
  | resetAtApplicationLevel
  | synchronizeSlave
  | setBaudRate300
  | setBaudRate600
  | setBaudRate1200
  | setBaudRate2400
  | setBaudRate4800
  | setBaudRate9600
  | setBaudRate19200
  | setBaudRate38400
  | outputRamContent
  | writeRamContent
  | startCalibrationTestMode
  | readEeprom
  | startSoftwareTest
  | hashProcedure (n : UInt8)
  | sendErrorStatus
  | sendAlarmStatus
  | responseWithVariableDataStructure (lsbOrder : Bool)
  | responseWithFixedDataStructure
  | dataSentWithShortTransportLayer
  | dataSentWithLongTransportLayer
  | cosemDataWithLongTransportLayer
  | cosemDataWithShortTransportLayer
  | obisDataReservedLongTransportLayer
  | obisDataReservedShortTransportLayer
  | applicationLayerFormatFrameNoTransport
  | applicationLayerFormatFrameShortTransport
  | applicationLayerFormatFrameLongTransport
  | clockSyncAbsolute
  | clockSyncRelative
  | applicationErrorShortTransport
  | applicationErrorLongTransport
  | alarmShortTransport
  | alarmLongTransport
  | applicationLayerNoTransport
  | applicationLayerCompactFrameNoTransport
  | applicationLayerShortTransport
  | applicationLayerCompactFrameShortTransport
  | cosemApplicationLayerLongTransport
  | cosemApplicationLayerShortTransport
  | obisApplicationLayerReservedLongTransport
  | obisApplicationLayerReservedShortTransport
  | transportLayerLongReadoutToMeter
  | networkLayerData
  | futureUse
  | networkManagementApplication
  | transportLayerCompactFrame
  | transportLayerFormatFrame
  | networkManagementDataReserved
  | transportLayerShortMeterToReadout
  | transportLayerLongMeterToReadout
  | extendedLinkLayerI
  | extendedLinkLayerII
  | extendedLinkLayerIII
  deriving DecidableEq, Repr, Inhabited

/-- `impl From<ControlInformation> for Direction`, application-layer lib.rs:231-293. -/
def Direction.ofControl : ControlInformation → Direction
  | .resetAtApplicationLevel => .masterToSlave
  | .sendData => .masterToSlave
  | .selectSlave => .masterToSlave
  | .synchronizeSlave => .masterToSlave
  | .setBaudRate300 => .masterToSlave
  | .setBaudRate600 => .masterToSlave
  | .setBaudRate1200 => .masterToSlave
  | .setBaudRate2400 => .masterToSlave
  | .setBaudRate4800 => .masterToSlave
  | .setBaudRate9600 => .masterToSlave
  | .setBaudRate19200 => .masterToSlave
  | .setBaudRate38400 => .masterToSlave
  | .outputRamContent => .masterToSlave
  | .writeRamContent => .masterToSlave
  | .startCalibrationTestMode => .masterToSlave
  | .readEeprom => .masterToSlave
  | .startSoftwareTest => .masterToSlave
  | .hashProcedure _ => .masterToSlave
  | .sendErrorStatus => .slaveToMaster
  | .sendAlarmStatus => .slaveToMaster
  | .responseWithVariableDataStructure _ => .slaveToMaster
  | .responseWithFixedDataStructure => .slaveToMaster
  | .dataSentWithShortTransportLayer => .masterToSlave
  | .dataSentWithLongTransportLayer => .masterToSlave
  | .cosemDataWithLongTransportLayer => .masterToSlave
  | .cosemDataWithShortTransportLayer => .masterToSlave
  | .obisDataReservedLongTransportLayer => .masterToSlave
  | .obisDataReservedShortTransportLayer => .masterToSlave
  | .applicationLayerFormatFrameNoTransport => .masterToSlave
  | .applicationLayerFormatFrameShortTransport => .masterToSlave
  | .applicationLayerFormatFrameLongTransport => .masterToSlave
  | .clockSyncAbsolute => .masterToSlave
  | .clockSyncRelative => .masterToSlave
  | .applicationErrorShortTransport => .slaveToMaster
  | .applicationErrorLongTransport => .slaveToMaster
  | .alarmShortTransport => .slaveToMaster
  | .alarmLongTransport => .slaveToMaster
  | .applicationLayerNoTransport => .slaveToMaster
  | .applicationLayerCompactFrameNoTransport => .slaveToMaster
  | .applicationLayerShortTransport => .slaveToMaster
  | .applicationLayerCompactFrameShortTransport => .slaveToMaster
  | .cosemApplicationLayerLongTransport => .slaveToMaster
  | .cosemApplicationLayerShortTransport => .slaveToMaster
  | .obisApplicationLayerReservedLongTransport => .slaveToMaster
  | .obisApplicationLayerReservedShortTransport => .slaveToMaster
  | .transportLayerLongReadoutToMeter => .masterToSlave
  | .networkLayerData => .masterToSlave
  | .futureUse => .masterToSlave
  | .networkManagementApplication => .masterToSlave
  | .transportLayerCompactFrame => .masterToSlave
  | .transportLayerFormatFrame => .masterToSlave
  | .networkManagementDataReserved => .masterToSlave
  | .transportLayerShortMeterToReadout => .slaveToMaster
  | .transportLayerLongMeterToReadout => .slaveToMaster
  | .extendedLinkLayerI => .slaveToMaster
  | .extendedLinkLayerII => .slaveToMaster
  | .extendedLinkLayerIII => .slaveToMaster

/-- `ControlInformation::from`, application-layer lib.rs:362-432; the two ranges of the Rust match
come last, they overlap no other arm. -/
def ControlInformation.ofByte (byte : UInt8) : Res AppError ControlInformation :=
  match byte with
  | 0x50 => .ok .resetAtApplicationLevel
  | 0x51 => .ok .sendData
  | 0x52 => .ok .selectSlave
  | 0x54 => .ok .synchronizeSlave
  | 0x5A => .ok .dataSentWithShortTransportLayer
  | 0x5B => .ok .dataSentWithLongTransportLayer
  | 0x60 => .ok .cosemDataWithLongTransportLayer
  | 0x61 => .ok .cosemDataWithShortTransportLayer
  | 0x64 => .ok .obisDataReservedLongTransportLayer
  | 0x65 => .ok .obisDataReservedShortTransportLayer
  | 0x69 => .ok .applicationLayerFormatFrameNoTransport
  | 0x6A => .ok .applicationLayerFormatFrameShortTransport
  | 0x6B => .ok .applicationLayerFormatFrameLongTransport
  | 0x6C => .ok .clockSyncAbsolute
  | 0x6D => .ok .clockSyncRelative
  | 0x6E => .ok .applicationErrorShortTransport
  | 0x6F => .ok .applicationErrorLongTransport
  | 0x70 => .ok .sendErrorStatus
  | 0x71 => .ok .sendAlarmStatus
  | 0x72 | 0x76 => .ok (.responseWithVariableDataStructure (byte &&& 0x04 != 0))
  | 0x73 | 0x77 => .ok .responseWithFixedDataStructure
  | 0x74 => .ok .alarmShortTransport
  | 0x75 => .ok .alarmLongTransport
  | 0x78 => .ok .applicationLayerNoTransport
  | 0x79 => .ok .applicationLayerCompactFrameNoTransport
  | 0x7A => .ok .applicationLayerShortTransport
  | 0x7B => .ok .applicationLayerCompactFrameShortTransport
  | 0x7C => .ok .cosemApplicationLayerLongTransport
  | 0x7D => .ok .cosemApplicationLayerShortTransport
  | 0x7E => .ok .obisApplicationLayerReservedLongTransport
  | 0x7F => .ok .obisApplicationLayerReservedShortTransport
  | 0x80 => .ok .transportLayerLongReadoutToMeter
  | 0x81 => .ok .networkLayerData
  | 0x82 => .ok .futureUse
  | 0x83 => .ok .networkManagementApplication
  | 0x84 => .ok .transportLayerCompactFrame
  | 0x85 => .ok .transportLayerFormatFrame
  | 0x89 => .ok .networkManagementDataReserved
  | 0x8A => .ok .transportLayerShortMeterToReadout
  | 0x8B => .ok .transportLayerLongMeterToReadout
  | 0x8C => .ok .extendedLinkLayerI
  | 0x8D => .ok .extendedLinkLayerII
  | 0x8E => .ok .extendedLinkLayerIII
  | 0xB1 => .ok .outputRamContent
  | 0xB2 => .ok .writeRamContent
  | 0xB3 => .ok .startCalibrationTestMode
  | 0xB4 => .ok .readEeprom
  | 0xB6 => .ok .startSoftwareTest
  | 0xB8 => .ok .setBaudRate300
  | 0xB9 => .ok .setBaudRate600
  | 0xBA => .ok .setBaudRate1200
  | 0xBB => .ok .setBaudRate2400
  | 0xBC => .ok .setBaudRate4800
  | 0xBD => .ok .setBaudRate9600
  | 0xBE => .ok .setBaudRate19200
  | 0xBF => .ok .setBaudRate38400
  | b =>
    if 0x90 ≤ b && b ≤ 0x97 then .ok (.hashProcedure (b - 0x90))
    else if 0xA0 ≤ b && b ≤ 0xAF then .ok .applicationLayerShortTransport
    else .err (.invalidControlInformation b)

/-- The `feature` of the arms of `UserDataBlock::try_from` that return `Unimplemented`,
application-layer lib.rs:799-1123; the Rust strings carry the further suffix
" control information". `none` for the arms that parse something. -/
def ControlInformation.unimplementedName : ControlInformation → Option String
  | .sendData => some "SendData"
  | .selectSlave => some "SelectSlave"
  | .synchronizeSlave => some "SynchronizeSlave"
  | .setBaudRate300 => some "SetBaudRate300"
  | .setBaudRate600 => some "SetBaudRate600"
  | .setBaudRate1200 => some "SetBaudRate1200"
  | .setBaudRate2400 => some "SetBaudRate2400"
  | .setBaudRate4800 => some "SetBaudRate4800"
  | .setBaudRate9600 => some "SetBaudRate9600"
  | .setBaudRate19200 => some "SetBaudRate19200"
  | .setBaudRate38400 => some "SetBaudRate38400"
  | .outputRamContent => some "OutputRAMContent"
  | .writeRamContent => some "WriteRAMContent"
  | .startCalibrationTestMode => some "StartCalibrationTestMode"
  | .readEeprom => some "ReadEEPROM"
  | .startSoftwareTest => some "StartSoftwareTest"
  | .hashProcedure _ => some "HashProcedure"
  | .sendErrorStatus => some "SendErrorStatus"
  | .sendAlarmStatus => some "SendAlarmStatus"
  | .dataSentWithShortTransportLayer => some "DataSentWithShortTransportLayer"
  | .dataSentWithLongTransportLayer => some "DataSentWithLongTransportLayer"
  | .cosemDataWithLongTransportLayer => some "CosemDataWithLongTransportLayer"
  | .cosemDataWithShortTransportLayer => some "CosemDataWithShortTransportLayer"
  | .obisDataReservedLongTransportLayer => some "ObisDataReservedLongTransportLayer"
  | .obisDataReservedShortTransportLayer => some "ObisDataReservedShortTransportLayer"
  | .applicationLayerFormatFrameNoTransport => some "ApplicationLayerFormatFrameNoTransport"
  | .applicationLayerFormatFrameShortTransport => some "ApplicationLayerFormatFrameShortTransport"
  | .applicationLayerFormatFrameLongTransport => some "ApplicationLayerFormatFrameLongTransport"
  | .clockSyncAbsolute => some "ClockSyncAbsolute"
  | .clockSyncRelative => some "ClockSyncRelative"
  | .applicationErrorShortTransport => some "ApplicationErrorShortTransport"
  | .applicationErrorLongTransport => some "ApplicationErrorLongTransport"
  | .alarmShortTransport => some "AlarmShortTransport"
  | .alarmLongTransport => some "AlarmLongTransport"
  | .applicationLayerCompactFrameNoTransport => some "ApplicationLayerCompactFrameNoTransport"
  | .applicationLayerCompactFrameShortTransport => some "ApplicationLayerCompactFrameShortTransport"
  | .cosemApplicationLayerLongTransport => some "CosemApplicationLayerLongTransport"
  | .cosemApplicationLayerShortTransport => some "CosemApplicationLayerShortTransport"
  | .obisApplicationLayerReservedLongTransport => some "ObisApplicationLayerReservedLongTransport"
  | .obisApplicationLayerReservedShortTransport => some "ObisApplicationLayerReservedShortTransport"
  | .transportLayerLongReadoutToMeter => some "TransportLayerLongReadoutToMeter"
  | .networkLayerData => some "NetworkLayerData"
  | .futureUse => some "FutureUse"
  | .networkManagementApplication => some "NetworkManagementApplication"
  | .transportLayerCompactFrame => some "TransportLayerCompactFrame"
  | .transportLayerFormatFrame => some "TransportLayerFormatFrame"
  | .networkManagementDataReserved => some "NetworkManagementDataReserved"
  | .transportLayerShortMeterToReadout => some "TransportLayerShortMeterToReadout"
  | .transportLayerLongMeterToReadout => some "TransportLayerLongMeterToReadout"
  | _ => none

/-- `ApplicationResetSubcode`, application-layer lib.rs:439-456. -/
inductive ApplicationResetSubcode where
  | all (v : UInt8) | userData (v : UInt8) | simpleBilling (v : UInt8) | enhancedBilling (v : UInt8)
  | multiTariffBilling (v : UInt8) | instantaneousValues (v : UInt8)
  | loadManagementValues (v : UInt8) | reserved1 (v : UInt8) | installationStartup (v : UInt8)
  | testing (v : UInt8) | calibration (v : UInt8) | configurationUpdates (v : UInt8)
  | manufacturing (v : UInt8) | development (v : UInt8) | selftest (v : UInt8)
  | reserved2 (v : UInt8)
  deriving DecidableEq, Repr, Inhabited

/-- `ApplicationResetSubcode::from`, application-layer lib.rs:485-506. -/
def ApplicationResetSubcode.ofByte (value : UInt8) : ApplicationResetSubcode :=
  match value &&& 0b1111 with
  | 0 => .all value | 1 => .userData value | 2 => .simpleBilling value | 3 => .enhancedBilling value
  | 4 => .multiTariffBilling value | 5 => .instantaneousValues value
  | 6 => .loadManagementValues value | 7 => .reserved1 value | 8 => .installationStartup value
  | 9 => .testing value | 10 => .calibration value | 11 => .configurationUpdates value
  | 12 => .manufacturing value | 13 => .development value | 14 => .selftest value
  | _ => .reserved2 value

/-- `ReceiverAddress`, extended_link_layer.rs:16-19. -/
structure ReceiverAddress where
  manufacturer : UInt16
  address : List UInt8
  deriving DecidableEq, Repr, Inhabited

/-- `EncryptionFields`, extended_link_layer.rs:24-27. -/
structure EncryptionFields where
  sessionNumber : List UInt8
  payloadCrc : UInt16
  deriving DecidableEq, Repr, Inhabited

/-- `ExtendedLinkLayer`, extended_link_layer.rs:6-11. -/
structure ExtendedLinkLayer where
  communicationControl : UInt8
  accessNumber : UInt8
  receiverAddress : Option ReceiverAddress
  encryption : Option EncryptionFields
  deriving DecidableEq, Repr, Inhabited

/-- `EllFormat`, extended_link_layer.rs:30-37. -/
inductive EllFormat where
  | formatI | formatII | formatIII
  deriving DecidableEq, Repr, Inhabited

/-- `ExtendedLinkLayer::parse`, extended_link_layer.rs:41-104.  After the length check the direct
indexings are in range; the last arm of each match is the error of that check. -/
def ExtendedLinkLayer.parse (data : List UInt8) :
    EllFormat → Res AppError (ExtendedLinkLayer × Nat)
  | .formatI =>
    match data with
    | cc :: acc :: _ => .ok (⟨cc, acc, none, none⟩, 2)
    | _ => .err .insufficientData
  | .formatII =>
    match data with
    | cc :: acc :: s0 :: s1 :: s2 :: s3 :: c0 :: c1 :: _ =>
      .ok (⟨cc, acc, none, some ⟨[s0, s1, s2, s3], u16le c0 c1⟩⟩, 8)
    | _ => .err .insufficientData
  | .formatIII =>
    match data with
    | cc :: acc :: m0 :: m1 :: a0 :: a1 :: a2 :: a3 :: a4 :: a5 :: s0 :: s1 :: s2 :: s3 ::
        c0 :: c1 :: _ =>
      .ok (⟨cc, acc, some ⟨u16le m0 m1, [a0, a1, a2, a3, a4, a5]⟩,
        some ⟨[s0, s1, s2, s3], u16le c0 c1⟩⟩, 16)
    | _ => .err .insufficientData

/-- `str::trim_end_matches` with a string pattern: the pattern is removed from the end as often as it
occurs there.  Text is a list of characters. -/
def trimEndMatches (pat s : List Char) : List Char :=
  if h : pat ≠ [] ∧ pat.isSuffixOf s then trimEndMatches pat (s.take (s.length - pat.length)) else s
termination_by s.length
decreasing_by
  obtain ⟨h1, h2⟩ := h
  have h3 := (List.isSuffixOf_iff_suffix.1 h2).length_le
  have h4 : 0 < pat.length := List.length_pos_iff.2 h1
  simp; omega

/-- `Display` of `StatusField`, application-layer lib.rs:188-220; `self.contains(FLAG)` is
`bits & FLAG == FLAG`. -/
def statusDisplay (bits : UInt8) : List Char :=
  let flag (mask : UInt8) (text : String) : List Char :=
    if bits &&& mask = mask then text.toList else []
  let status := flag 0b0000_0001 "Counter binary signed, " ++ flag 0b0000_0010 "Counter fixed date, "
    ++ flag 0b0000_0100 "Power low, " ++ flag 0b0000_1000 "Permanent error, "
    ++ flag 0b0001_0000 "Temporary error, " ++ flag 0b0010_0000 "Manufacturer specific 1, "
    ++ flag 0b0100_0000 "Manufacturer specific 2, " ++ flag 0b1000_0000 "Manufacturer specific 3, "
  let status := if status.isEmpty then status ++ "No Error(s)".toList else status
  trimEndMatches ", ".toList status

/-- `ShortTplHeader`, application-layer lib.rs:751-755.  `StatusField` is its bits: all eight flags
are defined, so `from_bits_truncate` keeps every bit (lib.rs:164-178). -/
structure ShortTplHeader where
  accessNumber : UInt8
  status : UInt8
  configurationField : ConfigurationField
  deriving DecidableEq, Repr, Inhabited

/-- `LongTplHeader`, application-layer lib.rs:730-741. -/
structure LongTplHeader where
  identificationNumber : Nat
  manufacturer : Res AppError ManufacturerCode
  version : UInt8
  deviceType : DeviceType
  short : ShortTplHeader
  lsbOrder : Bool
  deriving DecidableEq, Repr, Inhabited

/-- `ShortTplHeader::is_encrypted`, application-layer lib.rs:768-776. -/
def ShortTplHeader.isEncrypted (h : ShortTplHeader) : Bool :=
  h.configurationField.securityMode != .noEncryption

/-- `LongTplHeader::is_encrypted`, application-layer lib.rs:757-765. -/
def LongTplHeader.isEncrypted (h : LongTplHeader) : Bool :=
  h.short.configurationField.securityMode != .noEncryption

/-- `UserDataBlock`, application-layer lib.rs:534-566.  A `Counter` is its number. -/
inductive UserDataBlock where
  | reset (subcode : ApplicationResetSubcode)
  | fixed (identificationNumber : Nat) (accessNumber status : UInt8) (deviceTypeAndUnit : UInt16)
      (counter1 counter2 : Nat)
  | long (ell : Option ExtendedLinkLayer) (header : LongTplHeader) (block : List UInt8)
  | short (ell : Option ExtendedLinkLayer) (header : ShortTplHeader) (block : List UInt8)
  | noTpl (ell : Option ExtendedLinkLayer) (block : List UInt8)
  deriving DecidableEq, Repr, Inhabited

/-- The arm `ResponseWithVariableDataStructure`, application-layer lib.rs:858-906.  The successive
`iter.next()` read the bytes at successive positions. -/
def UserDataBlock.parseLong (lsbOrder : Bool) (data : List UInt8) : Res AppError UserDataBlock := do
  let i0 ← Res.ofOption .insufficientData data[1]?
  let i1 ← Res.ofOption .insufficientData data[2]?
  let i2 ← Res.ofOption .insufficientData data[3]?
  let i3 ← Res.ofOption .insufficientData data[4]?
  let identificationNumber ←
    if lsbOrder then bcdHexDigitsToU32 i3 i2 i1 i0 else bcdHexDigitsToU32 i0 i1 i2 i3
  let m0 ← Res.ofOption .insufficientData data[5]?
  let m1 ← Res.ofOption .insufficientData data[6]?
  let version ← Res.ofOption .insufficientData data[7]?
  let device ← Res.ofOption .insufficientData data[8]?
  let accessNumber ← Res.ofOption .insufficientData data[9]?
  let status ← Res.ofOption .insufficientData data[10]?
  let c0 ← Res.ofOption .insufficientData data[11]?
  let c1 ← Res.ofOption .insufficientData data[12]?
  let block ← Res.ofOption .insufficientData (slice? data 13 data.length)
  .ok (.long none
    ⟨identificationNumber, ManufacturerCode.fromId (u16le m0 m1), version,
      DeviceType.fromByte device, ⟨accessNumber, status, ConfigurationField.fromBytes c0 c1⟩,
      lsbOrder⟩ block)

/-- The arm `ResponseWithFixedDataStructure`, application-layer lib.rs:907-945. -/
def UserDataBlock.parseFixed (data : List UInt8) : Res AppError UserDataBlock := do
  let i0 ← Res.ofOption .insufficientData data[1]?
  let i1 ← Res.ofOption .insufficientData data[2]?
  let i2 ← Res.ofOption .insufficientData data[3]?
  let i3 ← Res.ofOption .insufficientData data[4]?
  let identificationNumber ← bcdHexDigitsToU32 i0 i1 i2 i3
  let accessNumber ← Res.ofOption .insufficientData data[5]?
  let status ← Res.ofOption .insufficientData data[6]?
  let u0 ← Res.ofOption .insufficientData data[7]?
  let u1 ← Res.ofOption .insufficientData data[8]?
  let a0 ← Res.ofOption .insufficientData data[9]?
  let a1 ← Res.ofOption .insufficientData data[10]?
  let a2 ← Res.ofOption .insufficientData data[11]?
  let a3 ← Res.ofOption .insufficientData data[12]?
  let counter1 ← bcdHexDigitsToU32 a0 a1 a2 a3
  let b0 ← Res.ofOption .insufficientData data[13]?
  let b1 ← Res.ofOption .insufficientData data[14]?
  let b2 ← Res.ofOption .insufficientData data[15]?
  let b3 ← Res.ofOption .insufficientData data[16]?
  let counter2 ← bcdHexDigitsToU32 b0 b1 b2 b3
  .ok (.fixed identificationNumber accessNumber status (u16be u0 u1) counter1 counter2)

/-- The arm `ApplicationLayerShortTransport`, application-layer lib.rs:1026-1057. -/
def UserDataBlock.parseShort (ci : UInt8) (data : List UInt8) : Res AppError UserDataBlock := do
  let hasEncryptionConfigByte := ci == 0xA0
  let skipCount := if hasEncryptionConfigByte then 2 else 1
  let dataBlockOffset := if hasEncryptionConfigByte then 6 else 5
  let accessNumber ← Res.ofOption .insufficientData data[skipCount]?
  let status ← Res.ofOption .insufficientData data[skipCount + 1]?
  let c0 ← Res.ofOption .insufficientData data[skipCount + 2]?
  let c1 ← Res.ofOption .insufficientData data[skipCount + 3]?
  let block ← Res.ofOption .insufficientData (slice? data dataBlockOffset data.length)
  .ok (.short none ⟨accessNumber, status, ConfigurationField.fromBytes c0 c1⟩ block)

/-- The arms `ExtendedLinkLayerII` and `ExtendedLinkLayerIII`,
application-layer lib.rs:1155-1204. -/
def UserDataBlock.parseEll (format : EllFormat) (data : List UInt8) :
    Res AppError UserDataBlock := do
  let rest ← Res.ofOption .insufficientData (sliceFrom? data 1)
  let (ell, size) ← ExtendedLinkLayer.parse rest format
  let block ← Res.ofOption .insufficientData (sliceFrom? data (1 + size))
  .ok (.short (some ell)
    ⟨ell.accessNumber, ell.communicationControl, ConfigurationField.fromBytes 0x00 0x00⟩ block)

/-- The match on the inner block in the arm `ExtendedLinkLayerI`, application-layer
lib.rs:1135-1153. -/
def UserDataBlock.underEll (ell : ExtendedLinkLayer) :
    Res AppError UserDataBlock → Res AppError UserDataBlock
  | .ok (.short _ header block) => .ok (.short (some ell) header block)
  | .ok (.noTpl _ block) => .ok (.noTpl (some ell) block)
  | .panic => .panic
  | _ => .err .missingControlInformation

/-- `UserDataBlock::try_from(&[u8])`, application-layer lib.rs:779-1207, and
`parse_application_layer`, lib.rs:52-54.  The Rust match has one arm for every control information;
the last arm here covers all that return `Unimplemented`. -/
def UserDataBlock.tryFrom (data : List UInt8) : Res AppError UserDataBlock :=
  match data with
  | [] => .err .missingControlInformation
  | ci :: rest =>
    match ControlInformation.ofByte ci with
    | .err e => .err e
    | .panic => .panic
    | .ok .resetAtApplicationLevel => do
      let b ← Res.ofOption .insufficientData (ci :: rest)[1]?
      .ok (.reset (ApplicationResetSubcode.ofByte b))
    | .ok (.responseWithVariableDataStructure lsbOrder) => parseLong lsbOrder (ci :: rest)
    | .ok .responseWithFixedDataStructure => parseFixed (ci :: rest)
    | .ok .applicationLayerNoTransport => do
      let block ← Res.ofOption .insufficientData (slice? (ci :: rest) 1 (ci :: rest).length)
      .ok (.noTpl none block)
    | .ok .applicationLayerShortTransport => parseShort ci (ci :: rest)
    | .ok .extendedLinkLayerI =>
      match rest with
      | cc :: acc :: inner =>
        UserDataBlock.underEll ⟨cc, acc, none, none⟩ (UserDataBlock.tryFrom inner)
      | _ => .err .insufficientData
    | .ok .extendedLinkLayerII => parseEll .formatII (ci :: rest)
    | .ok .extendedLinkLayerIII => parseEll .formatIII (ci :: rest)
    | .ok c =>
      match c.unimplementedName with
      | some feature => .err (.unimplemented feature)
      | none => .panic
termination_by data.length

namespace UserDataBlock

/-- `UserDataBlock::data_records`, application-layer lib.rs:573-594: the iterator over the variable
data block, if there is one. -/
def dataRecords : UserDataBlock → Option DataRecords
  | long _ header block =>
    if !header.isEncrypted then some (DataRecords.new block header.lsbOrder) else none
  | short _ header block => if !header.isEncrypted then some (DataRecords.new block false) else none
  | noTpl _ block => some (DataRecords.new block false)
  | _ => none

/-- `UserDataBlock::is_encrypted`, application-layer lib.rs:597-604. -/
def isEncrypted : UserDataBlock → Option Bool
  | long _ header _ => some header.isEncrypted
  | _ => none

/-- `UserDataBlock::variable_data_len`, application-layer lib.rs:608-624. -/
def variableDataLen : UserDataBlock → Nat
  | long _ _ block => block.length
  | short _ _ block => block.length
  | noTpl _ block => block.length
  | _ => 0

/-- `UserDataBlock::decrypt_variable_data`, application-layer lib.rs:627-676.  Returns the result
and the output buffer afterwards.  The identification number is below 10^8, so the conversion to
`UInt32` keeps it. -/
def decryptVariableData (aes : AesBlock) (getKey : KeyContext → Res DecryptionError (List UInt8))
    (blk : UserDataBlock) (output : List UInt8) : Res DecryptionError Nat × List UInt8 :=
  match blk with
  | long _ header block =>
    if !header.isEncrypted then (.err .notEncrypted, output)
    else match header.manufacturer with
      | .ok manufacturer =>
        decryptInto aes getKey
          { manufacturer := manufacturer
            identificationNumber := UInt32.ofNat header.identificationNumber
            version := header.version
            deviceType := header.deviceType
            securityMode := header.short.configurationField.securityMode
            accessNumber := header.short.accessNumber } block output
      | _ => (.err .decryptionFailed, output)
  | short _ header _ =>
    if !header.isEncrypted then (.err .notEncrypted, output)
    else (.err .unknownEncryptionState, output)
  | _ => (.err .unknownEncryptionState, output)

/-- `UserDataBlock::decrypt_variable_data_with_context`, application-layer lib.rs:683-724. -/
def decryptVariableDataWithContext (aes : AesBlock)
    (getKey : KeyContext → Res DecryptionError (List UInt8)) (blk : UserDataBlock)
    (manufacturer : ManufacturerCode) (identificationNumber : UInt32) (version : UInt8)
    (deviceType : DeviceType) (output : List UInt8) : Res DecryptionError Nat × List UInt8 :=
  match blk with
  | short _ header block =>
    if !header.isEncrypted then (.err .notEncrypted, output)
    else
      decryptInto aes getKey
        { manufacturer := manufacturer
          identificationNumber := identificationNumber
          version := version
          deviceType := deviceType
          securityMode := header.configurationField.securityMode
          accessNumber := header.accessNumber } block output
  | long .. => decryptVariableData aes getKey blk output
  | _ => (.err .unknownEncryptionState, output)

end UserDataBlock

end MBus
