import Verif.Spec.Json
import Verif.Spec.Tooltip
import Verif.Model.LegacyJson
/-!
# Specification of `json-legacy`: where the JSON shows which part of the telegram (C137)

`[.key "frame", .key "LongFrame", .key "address"]` is the path of a value; a part that is absent has `none` or, where
the member is always written, `null`.  How the values are written is `JsonText`.
-/
namespace MBus.Spec

/-- Paths and what is found there. -/
abbrev ShownFields := List (List Step × Option Doc)

/-- A member that is `null` if there is nothing to show. -/
def nullable {α : Type} (f : α → ShownFields) : Option α → ShownFields
  | some a => f a
  | none => [([], some .null)]

/-- Bytes as a list of numbers. -/
def byteList (bytes : List UInt8) : Doc := .arr (bytes.map (fun b => number b.toNat))

/-- A number with sign. -/
def signed (v : Int) : Doc := .num (if v < 0 then '-' :: decimal v.natAbs else decimal v.natAbs)

/-- The control field. -/
def functionShown : Function → ShownFields
  | .sndNk prm => [([.key "SndNk", .key "prm"], some (.bool prm))]
  | .sndUd fcb => [([.key "SndUd", .key "fcb"], some (.bool fcb))]
  | .reqUd1 fcb => [([.key "ReqUd1", .key "fcb"], some (.bool fcb))]
  | .reqUd2 fcb => [([.key "ReqUd2", .key "fcb"], some (.bool fcb))]
  | .rspUd acd dfc => [([.key "RspUd", .key "acd"], some (.bool acd)), ([.key "RspUd", .key "dfc"], some (.bool dfc))]
  | .sndUd2 => [([], some (.str "SndUd2".toList))]
  | .sndUd3 => [([], some (.str "SndUd3".toList))]
  | .sndNr => [([], some (.str "SndNr".toList))]
  | .sendIr => [([], some (.str "SendIr".toList))]
  | .accNr => [([], some (.str "AccNr".toList))]
  | .accDmd => [([], some (.str "AccDmd".toList))]
  | .ack => [([], some (.str "Ack".toList))]
  | .nack => [([], some (.str "Nack".toList))]
  | .cnfIr => [([], some (.str "CnfIr".toList))]

/-- The address field. -/
def addressShown : Address → ShownFields
  | .uninitalized => [([], some (.str "Uninitalized".toList))]
  | .primary n => [([.key "Primary"], some (number n.toNat))]
  | .secondary => [([], some (.str "Secondary".toList))]
  | .broadcast reply => [([.key "Broadcast", .key "reply_required"], some (.bool reply))]

/-- A wired frame. -/
def wiredShown : WiredFrame → ShownFields
  | .singleCharacter c => [([.key "SingleCharacter", .key "character"], some (number c.toNat))]
  | .shortFrame fn a => below [.key "ShortFrame", .key "function"] (functionShown fn)
      ++ below [.key "ShortFrame", .key "address"] (addressShown a)
  | .longFrame fn a _ => below [.key "LongFrame", .key "function"] (functionShown fn)
      ++ below [.key "LongFrame", .key "address"] (addressShown a)
  | .controlFrame fn a _ => below [.key "ControlFrame", .key "function"] (functionShown fn)
      ++ below [.key "ControlFrame", .key "address"] (addressShown a)

/-- A manufacturer code: a list of three letters. -/
def codeShown (m : ManufacturerCode) : ShownFields :=
  [([.key "code"], some (.arr [.str [Char.ofNat m.c0.toNat], .str [Char.ofNat m.c1.toNat], .str [Char.ofNat m.c2.toNat]]))]

/-- A kind of device; reserved ones are shown with their code. -/
def deviceShown : DeviceType → ShownFields
  | .other => [([], some (.str "Other".toList))]
  | .oilMeter => [([], some (.str "OilMeter".toList))]
  | .electricityMeter => [([], some (.str "ElectricityMeter".toList))]
  | .gasMeter => [([], some (.str "GasMeter".toList))]
  | .heatMeterReturn => [([], some (.str "HeatMeterReturn".toList))]
  | .steamMeter => [([], some (.str "SteamMeter".toList))]
  | .warmWaterMeter => [([], some (.str "WarmWaterMeter".toList))]
  | .waterMeter => [([], some (.str "WaterMeter".toList))]
  | .heatCostAllocator => [([], some (.str "HeatCostAllocator".toList))]
  | .compressedAir => [([], some (.str "CompressedAir".toList))]
  | .coolingMeterReturn => [([], some (.str "CoolingMeterReturn".toList))]
  | .coolingMeterFlow => [([], some (.str "CoolingMeterFlow".toList))]
  | .heatMeterFlow => [([], some (.str "HeatMeterFlow".toList))]
  | .combinedHeatCoolingMeter => [([], some (.str "CombinedHeatCoolingMeter".toList))]
  | .busSystemComponent => [([], some (.str "BusSystemComponent".toList))]
  | .unknownDevice => [([], some (.str "UnknownDevice".toList))]
  | .irrigationWaterMeter => [([], some (.str "IrrigationWaterMeter".toList))]
  | .waterDataLogger => [([], some (.str "WaterDataLogger".toList))]
  | .gasDataLogger => [([], some (.str "GasDataLogger".toList))]
  | .gasConverter => [([], some (.str "GasConverter".toList))]
  | .calorificValue => [([], some (.str "CalorificValue".toList))]
  | .hotWaterMeter => [([], some (.str "HotWaterMeter".toList))]
  | .coldWaterMeter => [([], some (.str "ColdWaterMeter".toList))]
  | .dualRegisterWaterMeter => [([], some (.str "DualRegisterWaterMeter".toList))]
  | .pressureMeter => [([], some (.str "PressureMeter".toList))]
  | .adConverter => [([], some (.str "AdConverter".toList))]
  | .smokeDetector => [([], some (.str "SmokeDetector".toList))]
  | .roomSensor => [([], some (.str "RoomSensor".toList))]
  | .gasDetector => [([], some (.str "GasDetector".toList))]
  | .reservedSensor code => [([.key "ReservedSensor"], some (number code.toNat))]
  | .electricityBreaker => [([], some (.str "ElectricityBreaker".toList))]
  | .valve => [([], some (.str "Valve".toList))]
  | .reservedSwitch code => [([.key "ReservedSwitch"], some (number code.toNat))]
  | .customerUnit => [([], some (.str "CustomerUnit".toList))]
  | .reservedCustomer code => [([.key "ReservedCustomer"], some (number code.toNat))]
  | .wasteWaterMeter => [([], some (.str "WasteWaterMeter".toList))]
  | .garbage => [([], some (.str "Garbage".toList))]
  | .reservedCO2 => [([], some (.str "ReservedCO2".toList))]
  | .reservedEnvironmental code => [([.key "ReservedEnvironmental"], some (number code.toNat))]
  | .serviceTool => [([], some (.str "ServiceTool".toList))]
  | .communicationController => [([], some (.str "CommunicationController".toList))]
  | .unidirectionalRepeater => [([], some (.str "UnidirectionalRepeater".toList))]
  | .bidirectionalRepeater => [([], some (.str "BidirectionalRepeater".toList))]
  | .reservedSystem code => [([.key "ReservedSystem"], some (number code.toNat))]
  | .radioConverterSystemSide => [([], some (.str "RadioConverterSystemSide".toList))]
  | .radioConverterMeterSide => [([], some (.str "RadioConverterMeterSide".toList))]
  | .busConverterMeterSide => [([], some (.str "BusConverterMeterSide".toList))]
  | .reserved code => [([.key "Reserved"], some (number code.toNat))]
  | .wildcard => [([], some (.str "Wildcard".toList))]

/-- A wireless frame. -/
def wirelessShown (f : WirelessFrame) : ShownFields :=
  [([.key "control_field"], some (number f.controlField.toNat)), ([.key "data"], some (.str (hexBytes f.data))),
   ([.key "manufacturer_id", .key "identification_number", .key "number"],
     some (number f.manufacturerId.identificationNumber)),
   ([.key "manufacturer_id", .key "version"], some (number f.manufacturerId.version.toNat)),
   ([.key "manufacturer_id", .key "is_unique_globally"], some (.bool f.manufacturerId.isUniqueGlobally))]
  ++ below [.key "manufacturer_id", .key "manufacturer_code"] (codeShown f.manufacturerId.manufacturerCode)
  ++ below [.key "manufacturer_id", .key "device_type"] (deviceShown f.manufacturerId.deviceType)
  ++ below [.key "function"] (nullable functionShown f.function)

/-- The names of the bits of the status byte, from bit 0. -/
def statusBits : List String :=
  ["COUNTER_BINARY_SIGNED", "COUNTER_FIXED_DATE", "POWER_LOW", "PERMANENT_ERROR", "TEMPORARY_ERROR",
   "MANUFACTURER_SPECIFIC_1", "MANUFACTURER_SPECIFIC_2", "MANUFACTURER_SPECIFIC_3"]

/-- The status byte: the names of its bits, separated by bars. -/
def statusText (status : UInt8) : List Char :=
  " | ".toList.intercalate ((statusBits.zipIdx.filter (fun p => status.toNat.testBit p.2)).map (·.1.toList))

/-- The part of the header that a short header has. -/
def shortHeaderShown (h : ShortTplHeader) : ShownFields :=
  [([.key "access_number"], some (number h.accessNumber.toNat)),
   ([.key "status"], some (.str (statusText h.status))),
   ([.key "configuration_field", .key "raw"], some (number h.configurationField.raw.toNat))]

/-- A long header. -/
def longHeaderShown (h : LongTplHeader) : ShownFields :=
  [([.key "identification_number", .key "number"], some (number h.identificationNumber)),
   ([.key "version"], some (number h.version.toNat)), ([.key "lsb_order"], some (.bool h.lsbOrder))]
  ++ (match h.manufacturer with
    | .ok m => below [.key "manufacturer", .key "Ok"] (codeShown m)
    | .err (.invalidManufacturerCode code) =>
      [([.key "manufacturer", .key "Err", .key "InvalidManufacturerCode", .key "code"], some (number code.toNat))]
    | _ => [])
  ++ below [.key "device_type"] (deviceShown h.deviceType)
  ++ below [.key "short_tpl_header"] (shortHeaderShown h.short)

/-- An extended link layer. -/
def ellShown (e : ExtendedLinkLayer) : ShownFields :=
  [([.key "communication_control"], some (number e.communicationControl.toNat)),
   ([.key "access_number"], some (number e.accessNumber.toNat))]
  ++ below [.key "receiver_address"] (nullable (fun r : ReceiverAddress =>
    [([.key "manufacturer"], some (number r.manufacturer.toNat)), ([.key "address"], some (byteList r.address))])
      e.receiverAddress)
  ++ below [.key "encryption"] (nullable (fun x : EncryptionFields =>
    [([.key "session_number"], some (byteList x.sessionNumber)),
     ([.key "payload_crc"], some (number x.payloadCrc.toNat))]) e.encryption)

/-- The subcode of an application reset. -/
def resetShown : ApplicationResetSubcode → ShownFields
  | .all v => [([.key "All"], some (number v.toNat))]
  | .userData v => [([.key "UserData"], some (number v.toNat))]
  | .simpleBilling v => [([.key "SimpleBilling"], some (number v.toNat))]
  | .enhancedBilling v => [([.key "EnhancedBilling"], some (number v.toNat))]
  | .multiTariffBilling v => [([.key "MultiTariffBilling"], some (number v.toNat))]
  | .instantaneousValues v => [([.key "InstantaneousValues"], some (number v.toNat))]
  | .loadManagementValues v => [([.key "LoadManagementValues"], some (number v.toNat))]
  | .reserved1 v => [([.key "Reserved1"], some (number v.toNat))]
  | .installationStartup v => [([.key "InstallationStartup"], some (number v.toNat))]
  | .testing v => [([.key "Testing"], some (number v.toNat))]
  | .calibration v => [([.key "Calibration"], some (number v.toNat))]
  | .configurationUpdates v => [([.key "ConfigurationUpdates"], some (number v.toNat))]
  | .manufacturing v => [([.key "Manufacturing"], some (number v.toNat))]
  | .development v => [([.key "Development"], some (number v.toNat))]
  | .selftest v => [([.key "Selftest"], some (number v.toNat))]
  | .reserved2 v => [([.key "Reserved2"], some (number v.toNat))]

/-- The application layer. -/
def userDataShown : UserDataBlock → ShownFields
  | .reset subcode => below [.key "ResetAtApplicationLevel", .key "subcode"] (resetShown subcode)
  | .fixed id access status unit c1 c2 => below [.key "FixedDataStructure"]
      [([.key "identification_number", .key "number"], some (number id)),
       ([.key "access_number"], some (number access.toNat)), ([.key "status"], some (.str (statusText status))),
       ([.key "device_type_and_unit"], some (number unit.toNat)),
       ([.key "counter1", .key "count"], some (number c1)), ([.key "counter2", .key "count"], some (number c2))]
  | .long ell h _ =>
      below [.key "VariableDataStructureWithLongTplHeader", .key "extended_link_layer"] (nullable ellShown ell)
      ++ below [.key "VariableDataStructureWithLongTplHeader", .key "long_tpl_header"] (longHeaderShown h)
  | .short ell h _ =>
      below [.key "VariableDataStructureWithShortTplHeader", .key "extended_link_layer"] (nullable ellShown ell)
      ++ below [.key "VariableDataStructureWithShortTplHeader", .key "short_tpl_header"] (shortHeaderShown h)
  | .noTpl ell _ =>
      below [.key "VariableDataStructureWithoutTplHeader", .key "extended_link_layer"] (nullable ellShown ell)

/-- A part of a date or time: given, not given, or not valid. -/
def partShown {α : Type} (f : α → Doc) : SEI α → ShownFields
  | .single a => [([.key "Single"], some (f a))]
  | .every => [([.key "Every"], some (.arr []))]
  | .invalid => [([.key "Invalid"], some (.arr []))]

/-- The name of a month. -/
def monthText : Month → List Char
  | .january => "January".toList | .february => "February".toList | .march => "March".toList
  | .april => "April".toList | .may => "May".toList | .june => "June".toList | .july => "July".toList
  | .august => "August".toList | .september => "September".toList | .october => "October".toList
  | .november => "November".toList | .december => "December".toList

/-- A number of a record: a literal, or `null` if it is infinite or not a number. -/
def realShown (literal : F64 → List Char) : F64 → Doc
  | .real32 bits => if bits.toNat / 2 ^ 23 % 256 = 255 then .null else .num (literal (.real32 bits))
  | v => .num (literal v)

/-- The value of a record. -/
def dataShown (literal : F64 → List Char) : DataType → ShownFields
  | .text bytes => [([.key "Text"], some (.str (decodeTextUnit bytes)))]
  | .number v => [([.key "Number"], some (realShown literal v))]
  | .lossyNumber v => [([.key "LossyNumber"], some (realShown literal v))]
  | .date d m y => below [.key "Date", .at 0] (partShown (fun b : UInt8 => number b.toNat) d)
      ++ below [.key "Date", .at 1] (partShown (fun m => .str (monthText m)) m)
      ++ below [.key "Date", .at 2] (partShown (fun y : UInt16 => number y.toNat) y)
  | .time s m h => below [.key "Time", .at 0] (partShown (fun b : UInt8 => number b.toNat) s)
      ++ below [.key "Time", .at 1] (partShown (fun b : UInt8 => number b.toNat) m)
      ++ below [.key "Time", .at 2] (partShown (fun b : UInt8 => number b.toNat) h)
  | .dateTime d m y h n => below [.key "DateTime", .at 0] (partShown (fun b : UInt8 => number b.toNat) d)
      ++ below [.key "DateTime", .at 1] (partShown (fun m => .str (monthText m)) m)
      ++ below [.key "DateTime", .at 2] (partShown (fun y : UInt16 => number y.toNat) y)
      ++ below [.key "DateTime", .at 3] (partShown (fun b : UInt8 => number b.toNat) h)
      ++ below [.key "DateTime", .at 4] (partShown (fun b : UInt8 => number b.toNat) n)
  | .dateTimeWithSeconds d m y h n s =>
      below [.key "DateTimeWithSeconds", .at 0] (partShown (fun b : UInt8 => number b.toNat) d)
      ++ below [.key "DateTimeWithSeconds", .at 1] (partShown (fun m => .str (monthText m)) m)
      ++ below [.key "DateTimeWithSeconds", .at 2] (partShown (fun y : UInt16 => number y.toNat) y)
      ++ below [.key "DateTimeWithSeconds", .at 3] (partShown (fun b : UInt8 => number b.toNat) h)
      ++ below [.key "DateTimeWithSeconds", .at 4] (partShown (fun b : UInt8 => number b.toNat) n)
      ++ below [.key "DateTimeWithSeconds", .at 5] (partShown (fun b : UInt8 => number b.toNat) s)
  | .manufacturerSpecific bytes => [([.key "ManufacturerSpecific"], some (.str (hexBytes bytes)))]

/-- The name of the coding of a field, `SpecialFunctions` apart. -/
def codingText : Coding → List Char
  | .noData => "NoData".toList | .integer8 => "Integer8Bit".toList | .integer16 => "Integer16Bit".toList
  | .integer24 => "Integer24Bit".toList | .integer32 => "Integer32Bit".toList | .real32 => "Real32Bit".toList
  | .integer48 => "Integer48Bit".toList | .integer64 => "Integer64Bit".toList
  | .selectionForReadout => "SelectionForReadout".toList | .bcd2 => "BCD2Digit".toList | .bcd4 => "BCD4Digit".toList
  | .bcd6 => "BCD6Digit".toList | .bcd8 => "BCD8Digit".toList | .variableLength => "VariableLength".toList
  | .bcd12 => "BCDDigit12".toList | .dateTypeG => "DateTypeG".toList | .dateTimeTypeF => "DateTimeTypeF".toList
  | .dateTimeTypeJ => "DateTimeTypeJ".toList | .dateTimeTypeI => "DateTimeTypeI".toList
  | .specialFunctions _ => []

/-- The name of a special function. -/
def specialText : SpecialFunction → List Char
  | .manufacturerSpecific => "ManufacturerSpecific".toList | .moreRecordsFollow => "MoreRecordsFollow".toList
  | .idleFiller => "IdleFiller".toList | .reserved => "Reserved".toList
  | .globalReadoutRequest => "GlobalReadoutRequest".toList

/-- The name of a function of a value. -/
def valueFunctionText : FunctionField → List Char
  | .instantaneousValue => "InstantaneousValue".toList | .maximumValue => "MaximumValue".toList
  | .minimumValue => "MinimumValue".toList | .valueDuringErrorState => "ValueDuringErrorState".toList

/-- The name of a unit. -/
def unitText : UnitName → List Char
  | .watt => "Watt".toList | .reactiveWatt => "ReactiveWatt".toList | .apparentWatt => "ApparentWatt".toList
  | .joul => "Joul".toList | .kilogram => "Kilogram".toList | .tonne => "Tonne".toList | .meter => "Meter".toList
  | .feet => "Feet".toList | .celsius => "Celsius".toList | .kelvin => "Kelvin".toList | .bar => "Bar".toList
  | .hca => "HCA".toList | .reserved => "Reserved".toList | .withoutUnits => "WithoutUnits".toList
  | .second => "Second".toList | .minute => "Minute".toList | .hour => "Hour".toList | .day => "Day".toList
  | .week => "Week".toList | .month => "Month".toList | .year => "Year".toList | .revolution => "Revolution".toList
  | .increment => "Increment".toList | .inputPulseOnChannel0 => "InputPulseOnChannel0".toList
  | .outputPulseOnChannel0 => "OutputPulseOnChannel0".toList | .inputPulseOnChannel1 => "InputPulseOnChannel1".toList
  | .outputPulseOnChannel1 => "OutputPulseOnChannel1".toList | .liter => "Liter".toList | .volt => "Volt".toList
  | .ampere => "Ampere".toList | .localMoneyCurrency => "LocalMoneyCurrency".toList | .symbol => "Symbol".toList
  | .bitTime => "BitTime".toList | .decibelMilliWatt => "DecibelMilliWatt".toList | .percent => "Percent".toList
  | .degree => "Degree".toList | .hertz => "Hertz".toList | .hcaUnit => "HCAUnit".toList
  | .fahrenheit => "Fahrenheit".toList | .americanGallon => "AmericanGallon".toList | .calorie => "Calorie".toList

/-- The coding of a record. -/
def codingShown : Coding → ShownFields
  | .specialFunctions f => [([.key "SpecialFunctions"], some (.str (specialText f)))]
  | c => [([], some (.str (codingText c)))]

/-- What the DIF and the DIFEs say. -/
def dataInfoShown (i : DataInfo) : ShownFields :=
  [([.key "storage_number"], some (number i.storageNumber)), ([.key "tariff"], some (number i.tariff)),
   ([.key "device"], some (number i.device)), ([.key "function_field"], some (.str (valueFunctionText i.functionField))),
   ([.key "data_information_extension"], some (if i.extension then .obj [] else .null)),
   ([.key "size"], some (number i.size))]
  ++ below [.key "data_field_coding"] (codingShown i.coding)

/-- What the VIF and the VIFEs say. -/
def valueInfoShown (v : ValueInfo) : ShownFields :=
  [([.key "decimal_offset_exponent"], some (signed v.offset)), ([.key "decimal_scale_exponent"], some (signed v.scale)),
   ([.key "labels"], some (.arr (v.labels.map (fun l => .str l.debug.toList)))),
   ([.key "units", .at v.units.length], none)]
  ++ v.units.zipIdx.flatMap (fun p =>
    [([.key "units", .at p.2, .key "name"], some (.str (unitText p.1.name))),
     ([.key "units", .at p.2, .key "exponent"], some (signed p.1.exponent))])

/-- A record: its bytes, what its header says, its value. -/
def olderRecordShown (literal : F64 → List Char) (r : DataRecord) : ShownFields :=
  below [.key "data_record_header", .key "raw_data_record_header"]
    ([([.key "data_information_block", .key "data_information_field", .key "data"],
        some (number r.header.raw.dib.dif.toNat)),
      ([.key "data_information_block", .key "data_information_field_extension"],
        some (match r.header.raw.dib.difes with | some l => byteList l | none => .null))]
     ++ below [.key "value_information_block"] (nullable (fun b : VIB =>
      [([.key "value_information", .key "data"], some (number b.vif.toNat)),
       ([.key "value_information_extension"], some (match b.vifes with
         | some l => .arr (l.map (fun v => .obj [("data".toList, number v.toNat)])) | none => .null)),
       ([.key "plaintext_vife"], some (match b.plaintext with
         | some l => .arr (l.map (fun c => .str [Char.ofNat c.toNat])) | none => .null))]) r.header.raw.vib))
  ++ below [.key "data_record_header", .key "processed_data_record_header", .key "data_information"]
    (nullable dataInfoShown r.header.processed.dataInfo)
  ++ below [.key "data_record_header", .key "processed_data_record_header", .key "value_information"]
    (nullable valueInfoShown r.header.processed.valueInfo)
  ++ below [.key "data", .key "value"] (nullable (dataShown literal) r.data.value)
  ++ [([.key "data", .key "size"], some (number r.data.size)), ([.key "raw_bytes"], some (.str (hexBytes r.rawBytes)))]

/-- The fields of the summary. -/
def summaryShown (s : FrameSummary) : ShownFields :=
  [([.key "frame_type"], some (.str s.frameType)), ([.key "function"], s.function.map Doc.str),
   ([.key "address"], s.address.map Doc.str),
   ([.key "identification_number"], s.identificationNumber.map Doc.str),
   ([.key "manufacturer", .key "code"], s.manufacturer.map (Doc.str ·.code)),
   ([.key "manufacturer", .key "name"], (s.manufacturer.bind (·.info)).map (Doc.str ·.name.toList)),
   ([.key "manufacturer", .key "website"], (s.manufacturer.bind (·.info)).map (Doc.str ·.website.toList)),
   ([.key "manufacturer", .key "description"], (s.manufacturer.bind (·.info)).map (Doc.str ·.description.toList)),
   ([.key "access_number"], s.accessNumber.map (number ·.toNat)), ([.key "status"], s.status.map Doc.str),
   ([.key "security_mode"], s.securityMode.map Doc.str), ([.key "version"], s.version.map (number ·.toNat)),
   ([.key "device_type"], s.deviceType.map Doc.str), ([.key "encrypted"], some (.bool s.encrypted)),
   ([.key "decrypted"], some (.bool s.decrypted)),
   ([.key "encrypted_payload_hex"], s.encryptedPayloadHex.map Doc.str)]

/-- The fields of a record of the summary. -/
def summaryRecordShown (literal : F64 → List Char) (r : RecordSummary) : ShownFields :=
  [([.key "display"], some (.str r.display)), ([.key "value"], r.value.map (realShown literal)),
   ([.key "exponent"], r.exponent.map signed), ([.key "unit"], r.unit.map Doc.str),
   ([.key "quantity"], r.quantity.map Doc.str), ([.key "data_information"], some (.str r.dataInformation)),
   ([.key "header_hex"], some (.str r.headerHex)), ([.key "data_hex"], some (.str r.dataHex))]

/-- The library prints finite numbers as JSON numbers. -/
def PrintsLiterals (literal : F64 → List Char) : Prop :=
  ∀ v, (∀ bits, v = .real32 bits → FiniteReal bits) → NumberText (literal v)

/-- A list at a path: each element shows its fields, and there are no more elements. -/
structure ShowsElements (path : List Step) (elements : List ShownFields) (d : Doc) : Prop where
  each : ∀ i (h : i < elements.length), ∀ f ∈ elements[i], follow (path ++ [.at i] ++ f.1) d = f.2
  ends : ∀ i, elements.length ≤ i → follow (path ++ [.at i]) d = none

/-- A value shows a telegram: its frame, its application layer, its records and the summary. -/
structure ShowsOlder (literal : F64 → List Char) (frame : ShownFields) (userData : Option UserDataBlock) (p : ParsedOutput)
    (d : Doc) : Prop where
  frame : ∀ f ∈ below [.key "frame"] frame, follow f.1 d = f.2
  userData : ∀ f ∈ below [.key "user_data"] (nullable userDataShown userData), follow f.1 d = f.2
  noRecords : p.jsonRecords = none → follow [.key "data_records"] d = some .null
  records : ∀ rs, p.jsonRecords = some rs →
    ShowsElements [.key "data_records"] (rs.map (olderRecordShown literal)) d
  summary : ∀ f ∈ below [.key "summary"] (summaryShown p.summary), follow f.1 d = f.2
  summaryRecords : ShowsElements [.key "summary", .key "records"]
    (p.summary.records.map (summaryRecordShown literal)) d

end MBus.Spec
