import Verif.Model.Legacy
import Verif.Model.LegacyDiagram
import Verif.Model.JsonText
import Verif.Model.Messages
/-!
# Model of the JSON of `json-legacy`

`build_output`, src/mbus_data.rs:508-527, makes a `serde_json::Value` of the parsed frame with the derived
`Serialize` of its types and adds the summary.  `Value` keeps the members of an object in the order of their
names.  Enumerations are written as `serde` does by default: a variant without fields is its name, another one
an object whose only member has its name.
-/
namespace MBus

/-- Insertion of a member into a `serde_json::Map`, which is ordered by name. -/
def insertDoc (m : List Char × Doc) : List (List Char × Doc) → List (List Char × Doc)
  | [] => [m]
  | x :: rest => if m.1 < x.1 then m :: x :: rest else x :: insertDoc m rest

/-- An object of `serde_json::Value`. -/
def valueObj (ms : List (List Char × Doc)) : Doc := .obj (ms.foldr insertDoc [])

/-- A variant with fields. -/
def variantDoc (name : String) (d : Doc) : Doc := .obj (field name d)

/-- `Option`: `None` is `null`. -/
def optionDoc {α : Type} (f : α → Doc) : Option α → Doc
  | some a => f a
  | none => .null

/-- A signed integer. -/
def intDoc (v : Int) : Doc := .num (if v < 0 then '-' :: natText v.natAbs else natText v.natAbs)

/-- A byte. -/
def byteDoc (b : UInt8) : Doc := .nat b.toNat

/-- A slice or array of bytes. -/
def bytesArr (bytes : List UInt8) : Doc := .arr (bytes.map byteDoc)

/-- `serde_hex::serialize`, crates/m-bus-core/src/lib.rs:3-24. -/
def hexDoc (bytes : List UInt8) : Doc := .str (hexString bytes)

/-- An `f64`; what is infinite or no number is `null`.  `number` is the text of the others. -/
def f64Doc (number : F64 → List Char) : F64 → Doc
  | .real32 bits => if bits.toNat / 2 ^ 23 % 256 = 255 then .null else .num (number (.real32 bits))
  | v => .num (number v)

/-! ## The link layer -/

/-- `Function`, crates/m-bus-core/src/lib.rs:450-465. -/
def Function.olderDoc : Function → Doc
  | .sndNk prm => variantDoc "SndNk" (valueObj (field "prm" (.bool prm)))
  | .sndUd fcb => variantDoc "SndUd" (valueObj (field "fcb" (.bool fcb)))
  | .reqUd1 fcb => variantDoc "ReqUd1" (valueObj (field "fcb" (.bool fcb)))
  | .reqUd2 fcb => variantDoc "ReqUd2" (valueObj (field "fcb" (.bool fcb)))
  | .rspUd acd dfc => variantDoc "RspUd" (valueObj (field "acd" (.bool acd) ++ field "dfc" (.bool dfc)))
  | .sndUd2 => .str "SndUd2".toList
  | .sndUd3 => .str "SndUd3".toList
  | .sndNr => .str "SndNr".toList
  | .sendIr => .str "SendIr".toList
  | .accNr => .str "AccNr".toList
  | .accDmd => .str "AccDmd".toList
  | .ack => .str "Ack".toList
  | .nack => .str "Nack".toList
  | .cnfIr => .str "CnfIr".toList

/-- `Address`, crates/wired-mbus-link-layer/src/lib.rs:34-39. -/
def Address.olderDoc : Address → Doc
  | .uninitalized => .str "Uninitalized".toList
  | .primary n => variantDoc "Primary" (byteDoc n)
  | .secondary => .str "Secondary".toList
  | .broadcast reply => variantDoc "Broadcast" (valueObj (field "reply_required" (.bool reply)))

/-- `WiredFrame`, crates/wired-mbus-link-layer/src/lib.rs:8-28; the data are not written. -/
def WiredFrame.olderDoc : WiredFrame → Doc
  | .singleCharacter c => variantDoc "SingleCharacter" (valueObj (field "character" (byteDoc c)))
  | .shortFrame fn a =>
    variantDoc "ShortFrame" (valueObj (field "function" fn.olderDoc ++ field "address" a.olderDoc))
  | .longFrame fn a _ =>
    variantDoc "LongFrame" (valueObj (field "function" fn.olderDoc ++ field "address" a.olderDoc))
  | .controlFrame fn a _ =>
    variantDoc "ControlFrame" (valueObj (field "function" fn.olderDoc ++ field "address" a.olderDoc))

/-- `ManufacturerCode`, crates/m-bus-core/src/lib.rs:35-37: three characters. -/
def ManufacturerCode.olderDoc (m : ManufacturerCode) : Doc :=
  valueObj (field "code" (.arr (m.display.map (fun c => .str [c]))))

/-- `IdentificationNumber`, crates/m-bus-core/src/lib.rs:136-138. -/
def idDoc (number : Nat) : Doc := valueObj (field "number" (.nat number))

/-- `DeviceType`, crates/m-bus-core/src/lib.rs:148-201: the derived instance writes the name of a variant and, where it
has one, the number in it. -/
def DeviceType.olderDoc : DeviceType → Doc
  | .other => .str "Other".toList
  | .oilMeter => .str "OilMeter".toList
  | .electricityMeter => .str "ElectricityMeter".toList
  | .gasMeter => .str "GasMeter".toList
  | .heatMeterReturn => .str "HeatMeterReturn".toList
  | .steamMeter => .str "SteamMeter".toList
  | .warmWaterMeter => .str "WarmWaterMeter".toList
  | .waterMeter => .str "WaterMeter".toList
  | .heatCostAllocator => .str "HeatCostAllocator".toList
  | .compressedAir => .str "CompressedAir".toList
  | .coolingMeterReturn => .str "CoolingMeterReturn".toList
  | .coolingMeterFlow => .str "CoolingMeterFlow".toList
  | .heatMeterFlow => .str "HeatMeterFlow".toList
  | .combinedHeatCoolingMeter => .str "CombinedHeatCoolingMeter".toList
  | .busSystemComponent => .str "BusSystemComponent".toList
  | .unknownDevice => .str "UnknownDevice".toList
  | .irrigationWaterMeter => .str "IrrigationWaterMeter".toList
  | .waterDataLogger => .str "WaterDataLogger".toList
  | .gasDataLogger => .str "GasDataLogger".toList
  | .gasConverter => .str "GasConverter".toList
  | .calorificValue => .str "CalorificValue".toList
  | .hotWaterMeter => .str "HotWaterMeter".toList
  | .coldWaterMeter => .str "ColdWaterMeter".toList
  | .dualRegisterWaterMeter => .str "DualRegisterWaterMeter".toList
  | .pressureMeter => .str "PressureMeter".toList
  | .adConverter => .str "AdConverter".toList
  | .smokeDetector => .str "SmokeDetector".toList
  | .roomSensor => .str "RoomSensor".toList
  | .gasDetector => .str "GasDetector".toList
  | .reservedSensor code => variantDoc "ReservedSensor" (byteDoc code)
  | .electricityBreaker => .str "ElectricityBreaker".toList
  | .valve => .str "Valve".toList
  | .reservedSwitch code => variantDoc "ReservedSwitch" (byteDoc code)
  | .customerUnit => .str "CustomerUnit".toList
  | .reservedCustomer code => variantDoc "ReservedCustomer" (byteDoc code)
  | .wasteWaterMeter => .str "WasteWaterMeter".toList
  | .garbage => .str "Garbage".toList
  | .reservedCO2 => .str "ReservedCO2".toList
  | .reservedEnvironmental code => variantDoc "ReservedEnvironmental" (byteDoc code)
  | .serviceTool => .str "ServiceTool".toList
  | .communicationController => .str "CommunicationController".toList
  | .unidirectionalRepeater => .str "UnidirectionalRepeater".toList
  | .bidirectionalRepeater => .str "BidirectionalRepeater".toList
  | .reservedSystem code => variantDoc "ReservedSystem" (byteDoc code)
  | .radioConverterSystemSide => .str "RadioConverterSystemSide".toList
  | .radioConverterMeterSide => .str "RadioConverterMeterSide".toList
  | .busConverterMeterSide => .str "BusConverterMeterSide".toList
  | .reserved code => variantDoc "Reserved" (byteDoc code)
  | .wildcard => .str "Wildcard".toList

/-- `ManufacturerId`, crates/wireless-mbus-link-layer/src/lib.rs:113-119. -/
def ManufacturerId.olderDoc (m : ManufacturerId) : Doc :=
  valueObj (field "manufacturer_code" m.manufacturerCode.olderDoc
    ++ field "identification_number" (idDoc m.identificationNumber)
    ++ field "device_type" m.deviceType.olderDoc ++ field "version" (byteDoc m.version)
    ++ field "is_unique_globally" (.bool m.isUniqueGlobally))

/-- `WirelessFrame`, crates/wireless-mbus-link-layer/src/lib.rs:96-109. -/
def WirelessFrame.olderDoc (f : WirelessFrame) : Doc :=
  valueObj (field "control_field" (byteDoc f.controlField)
    ++ field "function" (optionDoc Function.olderDoc f.function)
    ++ field "manufacturer_id" f.manufacturerId.olderDoc ++ field "data" (hexDoc f.data))

/-! ## The application layer -/

/-- `StatusField`, application-layer lib.rs:164-178: `bitflags` writes the names of the bits that are set,
separated by bars. -/
def statusFlags (bits : UInt8) : List (List Char) :=
  ([(0x01, "COUNTER_BINARY_SIGNED".toList), (0x02, "COUNTER_FIXED_DATE".toList), (0x04, "POWER_LOW".toList),
    (0x08, "PERMANENT_ERROR".toList), (0x10, "TEMPORARY_ERROR".toList), (0x20, "MANUFACTURER_SPECIFIC_1".toList),
    (0x40, "MANUFACTURER_SPECIFIC_2".toList), (0x80, "MANUFACTURER_SPECIFIC_3".toList)] :
      List (UInt8 × List Char)).filterMap (fun (mask, name) => if bits &&& mask = mask then some name else none)

/-- The text of the flags. -/
def statusDoc (bits : UInt8) : Doc := .str (" | ".toList.intercalate (statusFlags bits))

/-- `ApplicationLayerError`, crates/m-bus-core/src/lib.rs:76-83. -/
def AppError.olderDoc : AppError → Doc
  | .missingControlInformation => .str "MissingControlInformation".toList
  | .invalidControlInformation byte => variantDoc "InvalidControlInformation" (valueObj (field "byte" (byteDoc byte)))
  | .identificationNumberError d0 d1 d2 d3 number => variantDoc "IdentificationNumberError"
      (valueObj (field "digits" (bytesArr [d0, d1, d2, d3]) ++ field "number" (.nat number)))
  | .invalidManufacturerCode code => variantDoc "InvalidManufacturerCode" (valueObj (field "code" (.nat code.toNat)))
  | .insufficientData => .str "InsufficientData".toList
  | .unimplemented feature => variantDoc "Unimplemented" (valueObj (field "feature" (.str feature.toList)))

/-- The manufacturer of a long header, a `Result`. -/
def manufacturerDoc : Res AppError ManufacturerCode → Doc
  | .ok m => variantDoc "Ok" m.olderDoc
  | .err e => variantDoc "Err" e.olderDoc
  | .panic => .null

/-- `ApplicationResetSubcode`, application-layer lib.rs:439-456. -/
def ApplicationResetSubcode.olderDoc : ApplicationResetSubcode → Doc
  | .all v => variantDoc "All" (byteDoc v)
  | .userData v => variantDoc "UserData" (byteDoc v)
  | .simpleBilling v => variantDoc "SimpleBilling" (byteDoc v)
  | .enhancedBilling v => variantDoc "EnhancedBilling" (byteDoc v)
  | .multiTariffBilling v => variantDoc "MultiTariffBilling" (byteDoc v)
  | .instantaneousValues v => variantDoc "InstantaneousValues" (byteDoc v)
  | .loadManagementValues v => variantDoc "LoadManagementValues" (byteDoc v)
  | .reserved1 v => variantDoc "Reserved1" (byteDoc v)
  | .installationStartup v => variantDoc "InstallationStartup" (byteDoc v)
  | .testing v => variantDoc "Testing" (byteDoc v)
  | .calibration v => variantDoc "Calibration" (byteDoc v)
  | .configurationUpdates v => variantDoc "ConfigurationUpdates" (byteDoc v)
  | .manufacturing v => variantDoc "Manufacturing" (byteDoc v)
  | .development v => variantDoc "Development" (byteDoc v)
  | .selftest v => variantDoc "Selftest" (byteDoc v)
  | .reserved2 v => variantDoc "Reserved2" (byteDoc v)

/-- `ReceiverAddress`, extended_link_layer.rs:16-19. -/
def ReceiverAddress.olderDoc (r : ReceiverAddress) : Doc :=
  valueObj (field "manufacturer" (.nat r.manufacturer.toNat) ++ field "address" (bytesArr r.address))

/-- `EncryptionFields`, extended_link_layer.rs:24-27. -/
def EncryptionFields.olderDoc (e : EncryptionFields) : Doc :=
  valueObj (field "session_number" (bytesArr e.sessionNumber) ++ field "payload_crc" (.nat e.payloadCrc.toNat))

/-- `ExtendedLinkLayer`, extended_link_layer.rs:6-11. -/
def ExtendedLinkLayer.olderDoc (e : ExtendedLinkLayer) : Doc :=
  valueObj (field "communication_control" (byteDoc e.communicationControl)
    ++ field "access_number" (byteDoc e.accessNumber)
    ++ field "receiver_address" (optionDoc ReceiverAddress.olderDoc e.receiverAddress)
    ++ field "encryption" (optionDoc EncryptionFields.olderDoc e.encryption))

/-- `ShortTplHeader`, application-layer lib.rs:751-755, with `ConfigurationField`,
crates/m-bus-core/src/lib.rs:686-688. -/
def ShortTplHeader.olderDoc (h : ShortTplHeader) : Doc :=
  valueObj (field "access_number" (byteDoc h.accessNumber) ++ field "status" (statusDoc h.status)
    ++ field "configuration_field" (valueObj (field "raw" (.nat h.configurationField.raw.toNat))))

/-- `LongTplHeader`, application-layer lib.rs:730-741. -/
def LongTplHeader.olderDoc (h : LongTplHeader) : Doc :=
  valueObj (field "identification_number" (idDoc h.identificationNumber)
    ++ field "manufacturer" (manufacturerDoc h.manufacturer) ++ field "version" (byteDoc h.version)
    ++ field "device_type" h.deviceType.olderDoc ++ field "short_tpl_header" h.short.olderDoc
    ++ field "lsb_order" (.bool h.lsbOrder))

/-- `Counter`, application-layer lib.rs:511-513. -/
def counterDoc (count : Nat) : Doc := valueObj (field "count" (.nat count))

/-- `UserDataBlock`, application-layer lib.rs:534-567; the data blocks are not written. -/
def UserDataBlock.olderDoc : UserDataBlock → Doc
  | .reset subcode => variantDoc "ResetAtApplicationLevel" (valueObj (field "subcode" subcode.olderDoc))
  | .fixed number access status unit c1 c2 => variantDoc "FixedDataStructure"
      (valueObj (field "identification_number" (idDoc number) ++ field "access_number" (byteDoc access)
        ++ field "status" (statusDoc status) ++ field "device_type_and_unit" (.nat unit.toNat)
        ++ field "counter1" (counterDoc c1) ++ field "counter2" (counterDoc c2)))
  | .long ell header _ => variantDoc "VariableDataStructureWithLongTplHeader"
      (valueObj (field "extended_link_layer" (optionDoc ExtendedLinkLayer.olderDoc ell)
        ++ field "long_tpl_header" header.olderDoc))
  | .short ell header _ => variantDoc "VariableDataStructureWithShortTplHeader"
      (valueObj (field "extended_link_layer" (optionDoc ExtendedLinkLayer.olderDoc ell)
        ++ field "short_tpl_header" header.olderDoc))
  | .noTpl ell _ => variantDoc "VariableDataStructureWithoutTplHeader"
      (valueObj (field "extended_link_layer" (optionDoc ExtendedLinkLayer.olderDoc ell)))

/-! ## Records -/

/-- `DataInformationBlock`, data_information.rs:8-11, 26-28 and 58. -/
def DIB.olderDoc (b : DIB) : Doc :=
  valueObj (field "data_information_field" (valueObj (field "data" (byteDoc b.dif)))
    ++ field "data_information_field_extension" (optionDoc bytesArr b.difes))

/-- `ValueInformationBlock`, value_information.rs:101-106, 138-140 and 151-153. -/
def VIB.olderDoc (b : VIB) : Doc :=
  valueObj (field "value_information" (valueObj (field "data" (byteDoc b.vif)))
    ++ field "value_information_extension" (optionDoc (fun l : List UInt8 =>
      .arr (l.map (fun v => valueObj (field "data" (byteDoc v))))) b.vifes)
    ++ field "plaintext_vife" (optionDoc (fun l : List UInt8 =>
      .arr (l.map (fun c => .str [Char.ofNat c.toNat]))) b.plaintext))

/-- The names of `DataFieldCoding` without `SpecialFunctions`, data_information.rs:929-950. -/
def Coding.variantName : Coding → List Char
  | .noData => "NoData".toList
  | .integer8 => "Integer8Bit".toList
  | .integer16 => "Integer16Bit".toList
  | .integer24 => "Integer24Bit".toList
  | .integer32 => "Integer32Bit".toList
  | .real32 => "Real32Bit".toList
  | .integer48 => "Integer48Bit".toList
  | .integer64 => "Integer64Bit".toList
  | .selectionForReadout => "SelectionForReadout".toList
  | .bcd2 => "BCD2Digit".toList
  | .bcd4 => "BCD4Digit".toList
  | .bcd6 => "BCD6Digit".toList
  | .bcd8 => "BCD8Digit".toList
  | .variableLength => "VariableLength".toList
  | .bcd12 => "BCDDigit12".toList
  | .specialFunctions _ => "SpecialFunctions".toList
  | .dateTypeG => "DateTypeG".toList
  | .dateTimeTypeF => "DateTimeTypeF".toList
  | .dateTimeTypeJ => "DateTimeTypeJ".toList
  | .dateTimeTypeI => "DateTimeTypeI".toList

/-- `DataFieldCoding` and `SpecialFunctions`, data_information.rs:911-950. -/
def Coding.olderDoc : Coding → Doc
  | .specialFunctions f => variantDoc "SpecialFunctions" (.str f.debug)
  | c => .str c.variantName

/-- `FunctionField`, data_information.rs:889-894. -/
def FunctionField.olderName : FunctionField → List Char
  | .instantaneousValue => "InstantaneousValue".toList
  | .maximumValue => "MaximumValue".toList
  | .minimumValue => "MinimumValue".toList
  | .valueDuringErrorState => "ValueDuringErrorState".toList

/-- `DataInformation`, data_information.rs:140-148 and 165. -/
def DataInfo.olderDoc (i : DataInfo) : Doc :=
  valueObj (field "storage_number" (.nat i.storageNumber) ++ field "tariff" (.nat i.tariff)
    ++ field "device" (.nat i.device) ++ field "function_field" (.str i.functionField.olderName)
    ++ field "data_field_coding" i.coding.olderDoc
    ++ field "data_information_extension" (if i.extension then .obj [] else .null)
    ++ field "size" (.nat i.size))

/-- `UnitName`, value_information.rs:1292-1334. -/
def UnitName.debug : UnitName → List Char
  | .watt => "Watt".toList
  | .reactiveWatt => "ReactiveWatt".toList
  | .apparentWatt => "ApparentWatt".toList
  | .joul => "Joul".toList
  | .kilogram => "Kilogram".toList
  | .tonne => "Tonne".toList
  | .meter => "Meter".toList
  | .feet => "Feet".toList
  | .celsius => "Celsius".toList
  | .kelvin => "Kelvin".toList
  | .bar => "Bar".toList
  | .hca => "HCA".toList
  | .reserved => "Reserved".toList
  | .withoutUnits => "WithoutUnits".toList
  | .second => "Second".toList
  | .minute => "Minute".toList
  | .hour => "Hour".toList
  | .day => "Day".toList
  | .week => "Week".toList
  | .month => "Month".toList
  | .year => "Year".toList
  | .revolution => "Revolution".toList
  | .increment => "Increment".toList
  | .inputPulseOnChannel0 => "InputPulseOnChannel0".toList
  | .outputPulseOnChannel0 => "OutputPulseOnChannel0".toList
  | .inputPulseOnChannel1 => "InputPulseOnChannel1".toList
  | .outputPulseOnChannel1 => "OutputPulseOnChannel1".toList
  | .liter => "Liter".toList
  | .volt => "Volt".toList
  | .ampere => "Ampere".toList
  | .localMoneyCurrency => "LocalMoneyCurrency".toList
  | .symbol => "Symbol".toList
  | .bitTime => "BitTime".toList
  | .decibelMilliWatt => "DecibelMilliWatt".toList
  | .percent => "Percent".toList
  | .degree => "Degree".toList
  | .hertz => "Hertz".toList
  | .hcaUnit => "HCAUnit".toList
  | .fahrenheit => "Fahrenheit".toList
  | .americanGallon => "AmericanGallon".toList
  | .calorie => "Calorie".toList

/-- `Unit`, value_information.rs:12-15. -/
def MUnit.olderDoc (u : MUnit) : Doc :=
  valueObj (field "name" (.str u.name.debug) ++ field "exponent" (intDoc u.exponent))

/-- `ValueInformation`, value_information.rs:988-993. -/
def ValueInfo.olderDoc (v : ValueInfo) : Doc :=
  valueObj (field "decimal_offset_exponent" (intDoc v.offset)
    ++ field "labels" (.arr (v.labels.map (fun l => .str l.debug.toList)))
    ++ field "decimal_scale_exponent" (intDoc v.scale) ++ field "units" (.arr (v.units.map MUnit.olderDoc)))

/-- `SingleEveryOrInvalid`, data_information.rs:364-368. -/
def SEI.olderDoc {α : Type} (f : α → Doc) : SEI α → Doc
  | .single a => variantDoc "Single" (f a)
  | .every => variantDoc "Every" (.arr [])
  | .invalid => variantDoc "Invalid" (.arr [])

/-- `DataType`, data_information.rs:374-410. -/
def DataType.olderDoc (number : F64 → List Char) : DataType → Doc
  | .text bytes => variantDoc "Text" (.str (decodeTextUnit bytes))
  | .number v => variantDoc "Number" (f64Doc number v)
  | .lossyNumber v => variantDoc "LossyNumber" (f64Doc number v)
  | .date day month year => variantDoc "Date" (.arr [day.olderDoc byteDoc,
      month.olderDoc (fun m => .str (monthName m)), year.olderDoc (fun y => .nat y.toNat)])
  | .time second minute hour => variantDoc "Time" (.arr [second.olderDoc byteDoc, minute.olderDoc byteDoc,
      hour.olderDoc byteDoc])
  | .dateTime day month year hour minute => variantDoc "DateTime" (.arr [day.olderDoc byteDoc,
      month.olderDoc (fun m => .str (monthName m)), year.olderDoc (fun y => .nat y.toNat), hour.olderDoc byteDoc,
      minute.olderDoc byteDoc])
  | .dateTimeWithSeconds day month year hour minute second => variantDoc "DateTimeWithSeconds"
      (.arr [day.olderDoc byteDoc, month.olderDoc (fun m => .str (monthName m)),
        year.olderDoc (fun y => .nat y.toNat), hour.olderDoc byteDoc, minute.olderDoc byteDoc,
        second.olderDoc byteDoc])
  | .manufacturerSpecific bytes => variantDoc "ManufacturerSpecific" (hexDoc bytes)

/-- `Data`, data_information.rs:414-417. -/
def Data.olderDoc (number : F64 → List Char) (d : Data) : Doc :=
  valueObj (field "value" (optionDoc (DataType.olderDoc number) d.value) ++ field "size" (.nat d.size))

/-- `DataRecord`, data_record.rs:7-33 and 146-152. -/
def DataRecord.olderDoc (number : F64 → List Char) (r : DataRecord) : Doc :=
  valueObj (field "data_record_header" (valueObj
      (field "raw_data_record_header" (valueObj
          (field "data_information_block" r.header.raw.dib.olderDoc
            ++ field "value_information_block" (optionDoc VIB.olderDoc r.header.raw.vib)))
        ++ field "processed_data_record_header" (valueObj
          (field "data_information" (optionDoc DataInfo.olderDoc r.header.processed.dataInfo)
            ++ field "value_information" (optionDoc ValueInfo.olderDoc r.header.processed.valueInfo)))))
    ++ field "data" (r.data.olderDoc number) ++ field "raw_bytes" (hexDoc r.rawBytes))

/-! ## The summary -/

/-- `ManufacturerSummary`, src/mbus_data.rs:203-211. -/
def ManufacturerSummary.doc (m : ManufacturerSummary) : Doc :=
  valueObj (field "code" (.str m.code)
    ++ fieldOpt "name" (fun i : ManufacturerInfo => .str i.name.toList) m.info
    ++ fieldOpt "website" (fun i : ManufacturerInfo => .str i.website.toList) m.info
    ++ fieldOpt "description" (fun i : ManufacturerInfo => .str i.description.toList) m.info)

/-- `RecordSummary`, src/mbus_data.rs:215-229. -/
def RecordSummary.doc (number : F64 → List Char) (r : RecordSummary) : Doc :=
  valueObj (field "display" (.str r.display) ++ fieldOpt "value" (f64Doc number) r.value
    ++ fieldOpt "exponent" intDoc r.exponent ++ fieldOpt "unit" .str r.unit
    ++ fieldOpt "quantity" .str r.quantity ++ field "data_information" (.str r.dataInformation)
    ++ field "header_hex" (.str r.headerHex) ++ field "data_hex" (.str r.dataHex))

/-- `FrameSummary`, src/mbus_data.rs:174-199. -/
def FrameSummary.doc (number : F64 → List Char) (s : FrameSummary) : Doc :=
  valueObj (field "frame_type" (.str s.frameType) ++ fieldOpt "function" .str s.function
    ++ fieldOpt "address" .str s.address ++ fieldOpt "identification_number" .str s.identificationNumber
    ++ fieldOpt "manufacturer" ManufacturerSummary.doc s.manufacturer
    ++ fieldOpt "access_number" byteDoc s.accessNumber ++ fieldOpt "status" .str s.status
    ++ fieldOpt "security_mode" .str s.securityMode ++ fieldOpt "version" byteDoc s.version
    ++ fieldOpt "device_type" .str s.deviceType ++ field "encrypted" (.bool s.encrypted)
    ++ field "decrypted" (.bool s.decrypted) ++ fieldOpt "encrypted_payload_hex" .str s.encryptedPayloadHex
    ++ field "records" (.arr (s.records.map (RecordSummary.doc number))))

/-- The frame and the user data of the telegram, as `parse_frame_output` parses them, src/mbus_data.rs:543-582. -/
def olderFrame (cfg : Cfg) (data : List UInt8) : Doc × Option UserDataBlock :=
  match MbusData.tryFromWired cfg data with
  | .ok m => (m.frame.olderDoc, m.userData)
  | _ =>
    match withoutFormatA data with
    | .ok normalized =>
      match MbusData.tryFromWireless normalized with
      | .ok m => (m.frame.olderDoc, m.userData)
      | _ => (.null, none)
    | _ => (.null, none)

/-- `build_output`, src/mbus_data.rs:508-516: `MbusData`, src/mbus_data.rs:11-24, and the summary. -/
def olderDocument (cfg : Cfg) (number : F64 → List Char) (data : List UInt8) (o : ParsedOutput) : Doc :=
  valueObj (field "frame" (olderFrame cfg data).1
    ++ field "user_data" (optionDoc UserDataBlock.olderDoc (olderFrame cfg data).2)
    ++ field "data_records" (optionDoc (fun rs : List DataRecord => .arr (rs.map (DataRecord.olderDoc number)))
      o.jsonRecords)
    ++ field "summary" (o.summary.doc number))

end MBus
