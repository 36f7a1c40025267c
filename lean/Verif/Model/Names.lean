import Verif.Model.Hex
import Verif.Model.Record
import Verif.Model.RecordOutput
import Verif.Model.Wired
/-!
# Model of the texts the structured output is made of

`Display` implementations of the library's types, and the name functions of `src/output.rs`.
-/
namespace MBus

/-- `{}` of an unsigned integer. -/
def natDisplay (n : Nat) : List Char := Nat.toDigits 10 n

/-- `{}` of a signed integer. -/
def intDisplay (n : Int) : List Char := if n < 0 then '-' :: natDisplay n.natAbs else natDisplay n.natAbs

/-- `{}` of a `bool`. -/
def boolDisplay (b : Bool) : List Char := (if b then "true" else "false").toList

/-- `{:04X}` of a `u16`. -/
def hex4 (n : UInt16) : List Char := hexString [(n >>> 8).toUInt8, (n &&& 0xFF).toUInt8]

/-- `Display` of `ManufacturerCode`, crates/m-bus-core/src/lib.rs:65-70. -/
def ManufacturerCode.display (c : ManufacturerCode) : List Char :=
  [Char.ofNat c.c0.toNat, Char.ofNat c.c1.toNat, Char.ofNat c.c2.toNat]

/-- `Display` of `IdentificationNumber`, crates/m-bus-core/src/lib.rs:140-144. -/
def idDisplay (n : Nat) : List Char := padNat 8 n

/-- `Display` of `DeviceType`, crates/m-bus-core/src/lib.rs:204-262. -/
def DeviceType.display : DeviceType → List Char
  | .other => "Other".toList
  | .oilMeter => "Oil Meter".toList
  | .electricityMeter => "Electricity Meter".toList
  | .gasMeter => "Gas Meter".toList
  | .heatMeterReturn => "Heat Meter (Return)".toList
  | .steamMeter => "Steam Meter".toList
  | .warmWaterMeter => "Warm Water Meter (30-90°C)".toList
  | .waterMeter => "Water Meter".toList
  | .heatCostAllocator => "Heat Cost Allocator".toList
  | .compressedAir => "Compressed Air".toList
  | .coolingMeterReturn => "Cooling Meter (Return)".toList
  | .coolingMeterFlow => "Cooling Meter (Flow)".toList
  | .heatMeterFlow => "Heat Meter (Flow)".toList
  | .combinedHeatCoolingMeter => "Combined Heat/Cooling Meter".toList
  | .busSystemComponent => "Bus/System Component".toList
  | .unknownDevice => "Unknown Device".toList
  | .irrigationWaterMeter => "Irrigation Water Meter".toList
  | .waterDataLogger => "Water Data Logger".toList
  | .gasDataLogger => "Gas Data Logger".toList
  | .gasConverter => "Gas Converter".toList
  | .calorificValue => "Calorific Value".toList
  | .hotWaterMeter => "Hot Water Meter (≥90°C)".toList
  | .coldWaterMeter => "Cold Water Meter".toList
  | .dualRegisterWaterMeter => "Dual Register Water Meter".toList
  | .pressureMeter => "Pressure Meter".toList
  | .adConverter => "A/D Converter".toList
  | .smokeDetector => "Smoke Detector".toList
  | .roomSensor => "Room Sensor".toList
  | .gasDetector => "Gas Detector".toList
  | .reservedSensor code => "Reserved Sensor (0x".toList ++ hexString [code] ++ ")".toList
  | .electricityBreaker => "Breaker (Electricity)".toList
  | .valve => "Valve (Gas/Water)".toList
  | .reservedSwitch code => "Reserved Switch (0x".toList ++ hexString [code] ++ ")".toList
  | .customerUnit => "Customer Unit (Display)".toList
  | .reservedCustomer code => "Reserved Customer Unit (0x".toList ++ hexString [code] ++ ")".toList
  | .wasteWaterMeter => "Waste Water Meter".toList
  | .garbage => "Garbage".toList
  | .reservedCO2 => "Reserved (CO₂)".toList
  | .reservedEnvironmental code => "Reserved Environmental (0x".toList ++ hexString [code] ++ ")".toList
  | .serviceTool => "Service Tool".toList
  | .communicationController => "Communication Controller (Gateway)".toList
  | .unidirectionalRepeater => "Unidirectional Repeater".toList
  | .bidirectionalRepeater => "Bidirectional Repeater".toList
  | .reservedSystem code => "Reserved System (0x".toList ++ hexString [code] ++ ")".toList
  | .radioConverterSystemSide => "Radio Converter (System Side)".toList
  | .radioConverterMeterSide => "Radio Converter (Meter Side)".toList
  | .busConverterMeterSide => "Bus Converter (Meter Side)".toList
  | .reserved code => "Reserved (0x".toList ++ hexString [code] ++ ")".toList
  | .wildcard => "Wildcard".toList

/-- `Display` of `SecurityMode`, crates/m-bus-core/src/lib.rs:644-666. -/
def SecurityMode.display : SecurityMode → List Char
  | .noEncryption => "No encryption used".toList
  | .manufacturerSpecific => "Manufacturer specific usage".toList
  | .desIvZero => "DES; IV = 0 (deprecated)".toList
  | .desIvNonZero => "DES; IV ≠ 0 (deprecated)".toList
  | .specificUsage4 => "Specific usage (Bibliographical Entry [6])".toList
  | .aesCbc128IvNonZero => "AES-CBC-128; IV ≠ 0".toList
  | .reserved6 => "Reserved for future use".toList
  | .aesCbc128IvZero => "AES-CBC-128; IV = 0".toList
  | .aesCtr128Cmac => "AES-CTR-128; CMAC".toList
  | .aesGcm128 => "AES-GCM-128".toList
  | .aesCcm128 => "AES-CCM-128".toList
  | .reserved11 => "Reserved for future use".toList
  | .reserved12 => "Reserved for future use".toList
  | .specificUsage13 => "Specific usage (Bibliographical Entry [8])".toList
  | .reserved14 => "Reserved for future use".toList
  | .specificUsage15 => "Specific usage (Bibliographical Entry [7])".toList
  | .reservedHigher mode => "Reserved for future use (mode ".toList ++ natDisplay mode.toNat ++ [')']

/-- `Display` of `Address`, crates/wired-mbus-link-layer/src/lib.rs:42-53. -/
def Address.display : Address → List Char
  | .uninitalized => "Uninitalized".toList
  | .primary byte => "Primary (".toList ++ natDisplay byte.toNat ++ [')']
  | .secondary => "Secondary".toList
  | .broadcast r => "Broadcast (Reply Required: ".toList ++ boolDisplay r ++ [')']

/-- `frame_function_name`, src/output.rs:1309-1329. -/
def frameFunctionName : Function → List Char
  | .sndNk prm => "SND_NKE (PRM: ".toList ++ boolDisplay prm ++ [')']
  | .sndUd fcb => "SND_UD (FCB: ".toList ++ boolDisplay fcb ++ [')']
  | .sndUd2 => "SND_UD2".toList
  | .sndUd3 => "SND_UD3".toList
  | .sndNr => "SND_NR".toList
  | .sendIr => "SND_IR".toList
  | .accNr => "ACC_NR".toList
  | .accDmd => "ACC_DMD".toList
  | .reqUd1 fcb => "REQ_UD1 (FCB: ".toList ++ boolDisplay fcb ++ [')']
  | .reqUd2 fcb => "REQ_UD2 (FCB: ".toList ++ boolDisplay fcb ++ [')']
  | .rspUd acd dfc =>
    "RSP_UD (ACD: ".toList ++ boolDisplay acd ++ ", DFC: ".toList ++ boolDisplay dfc ++ [')']
  | .ack => "ACK".toList
  | .nack => "NACK".toList
  | .cnfIr => "CNF_IR".toList

/-- `record_function_name`, src/output.rs:1331-1339. -/
def recordFunctionName : FunctionField → List Char
  | .instantaneousValue => "Instantaneous value".toList
  | .maximumValue => "Maximum value".toList
  | .minimumValue => "Minimum value".toList
  | .valueDuringErrorState => "Value during error state".toList

/-- `special_function_name`, src/output.rs:1377-1386. -/
def specialFunctionName : SpecialFunction → List Char
  | .manufacturerSpecific => "Manufacturer specific".toList
  | .moreRecordsFollow => "More records follow".toList
  | .idleFiller => "Idle filler".toList
  | .reserved => "Reserved special function".toList
  | .globalReadoutRequest => "Global readout request".toList

/-- `special_record_name`, src/output.rs:1341-1349. -/
def specialRecordName (r : DataRecord) : List Char :=
  let code := r.rawBytes.head?.map (fun dif => dif &&& 0x7F)
  if code = some 0x0F then "Manufacturer specific".toList
  else if code = some 0x1F then "More records follow".toList
  else if code = some 0x2F then "Idle filler".toList
  else if code = some 0x7F then "Global readout request".toList
  else "Special function".toList

/-- `data_coding_name`, src/output.rs:1351-1375. -/
def dataCodingName : Coding → List Char
  | .noData => "No data".toList
  | .integer8 => "8-bit integer".toList
  | .integer16 => "16-bit integer".toList
  | .integer24 => "24-bit integer".toList
  | .integer32 => "32-bit integer".toList
  | .real32 => "32-bit real".toList
  | .integer48 => "48-bit integer".toList
  | .integer64 => "64-bit integer".toList
  | .selectionForReadout => "Selection for readout".toList
  | .bcd2 => "2-digit BCD".toList
  | .bcd4 => "4-digit BCD".toList
  | .bcd6 => "6-digit BCD".toList
  | .bcd8 => "8-digit BCD".toList
  | .variableLength => "Variable length".toList
  | .bcd12 => "12-digit BCD".toList
  | .dateTypeG => "Date (type G)".toList
  | .dateTimeTypeF => "Date and time (type F)".toList
  | .dateTimeTypeJ => "Time (type J)".toList
  | .dateTimeTypeI => "Date and time (type I)".toList
  | .specialFunctions f => specialFunctionName f

/-- `format!("{label:?}")`: the derived `Debug` prints the name of the variant,
value_information.rs:1064-1239. -/
def ValueLabel.debug : ValueLabel → String
  | .instantaneous => "Instantaneous"
  | .reservedForObjectActions => "ReservedForObjectActions"
  | .reserved => "Reserved"
  | .averaged => "Averaged"
  | .integral => "Integral"
  | .parameter => "Parameter"
  | .inverseCompactProfile => "InverseCompactProfile"
  | .relativeDeviation => "RelativeDeviation"
  | .recordErrorCodes => "RecordErrorCodes"
  | .standardConformDataContent => "StandardConformDataContent"
  | .compactProfileWithRegisterNumbers => "CompactProfileWithRegisterNumbers"
  | .compactProfile => "CompactProfile"
  | .actualityDuration => "ActualityDuration"
  | .averagingDuration => "AveragingDuration"
  | .date => "Date"
  | .time => "Time"
  | .dateTime => "DateTime"
  | .dateTimeWithSeconds => "DateTimeWithSeconds"
  | .fabricationNumber => "FabricationNumber"
  | .enhancedIdentification => "EnhancedIdentification"
  | .address => "Address"
  | .plainText => "PlainText"
  | .revolutionOrMeasurement => "RevolutionOrMeasurement"
  | .incrementPerInputPulseOnChannelP => "IncrementPerInputPulseOnChannelP"
  | .incrementPerOutputPulseOnChannelP => "IncrementPerOutputPulseOnChannelP"
  | .hourMinuteSecond => "HourMinuteSecond"
  | .dayMonthYear => "DayMonthYear"
  | .startDateOf => "StartDateOf"
  | .vifContainsUncorrectedUnitOrValue => "VifContainsUncorrectedUnitOrValue"
  | .accumulationOnlyIfValueIsPositive => "AccumulationOnlyIfValueIsPositive"
  | .accumulationOnlyIfValueIsNegative => "AccumulationOnlyIfValueIsNegative"
  | .nonMetricUnits => "NonMetricUnits"
  | .alternativeNonMetricUnits => "AlternativeNonMetricUnits"
  | .valueAtBaseConditions => "ValueAtBaseConditions"
  | .obisDeclaration => "ObisDeclaration"
  | .upperLimitValue => "UpperLimitValue"
  | .lowerLimitValue => "LowerLimitValue"
  | .numberOfExceedsOfUpperLimitValue => "NumberOfExceedsOfUpperLimitValue"
  | .numberOfExceedsOfLowerLimitValue => "NumberOfExceedsOfLowerLimitValue"
  | .dateOfBeginFirstLowerLimitExceed => "DateOfBeginFirstLowerLimitExceed"
  | .dateOfBeginFirstUpperLimitExceed => "DateOfBeginFirstUpperLimitExceed"
  | .dateOfBeginLastLowerLimitExceed => "DateOfBeginLastLowerLimitExceed"
  | .dateOfBeginLastUpperLimitExceed => "DateOfBeginLastUpperLimitExceed"
  | .dateOfEndLastLowerLimitExceed => "DateOfEndLastLowerLimitExceed"
  | .dateOfEndLastUpperLimitExceed => "DateOfEndLastUpperLimitExceed"
  | .dateOfEndFirstLowerLimitExceed => "DateOfEndFirstLowerLimitExceed"
  | .dateOfEndFirstUpperLimitExceed => "DateOfEndFirstUpperLimitExceed"
  | .durationOfFirstLowerLimitExceed => "DurationOfFirstLowerLimitExceed"
  | .durationOfFirstUpperLimitExceed => "DurationOfFirstUpperLimitExceed"
  | .durationOfLastLowerLimitExceed => "DurationOfLastLowerLimitExceed"
  | .durationOfLastUpperLimitExceed => "DurationOfLastUpperLimitExceed"
  | .durationOfFirst => "DurationOfFirst"
  | .durationOfLast => "DurationOfLast"
  | .valueDuringLowerValueExceed => "ValueDuringLowerValueExceed"
  | .valueDuringUpperValueExceed => "ValueDuringUpperValueExceed"
  | .leakageValues => "LeakageValues"
  | .overflowValues => "OverflowValues"
  | .dateOfBeginLast => "DateOfBeginLast"
  | .dateOfBeginFirst => "DateOfBeginFirst"
  | .dateOfEndLast => "DateOfEndLast"
  | .dateOfEndFirst => "DateOfEndFirst"
  | .extensionOfCombinableOrthogonalVIFE => "ExtensionOfCombinableOrthogonalVIFE"
  | .futureValue => "FutureValue"
  | .nextVIFEAndDataOfThisBlockAreManufacturerSpecific => "NextVIFEAndDataOfThisBlockAreManufacturerSpecific"
  | .credit => "Credit"
  | .debit => "Debit"
  | .uniqueMessageIdentificationOrAccessNumber => "UniqueMessageIdentificationOrAccessNumber"
  | .deviceType => "DeviceType"
  | .manufacturer => "Manufacturer"
  | .parameterSetIdentification => "ParameterSetIdentification"
  | .modelOrVersion => "ModelOrVersion"
  | .hardwareVersion => "HardwareVersion"
  | .metrologyFirmwareVersion => "MetrologyFirmwareVersion"
  | .otherSoftwareVersion => "OtherSoftwareVersion"
  | .customerLocation => "CustomerLocation"
  | .customer => "Customer"
  | .accessCodeUser => "AccessCodeUser"
  | .accessCodeOperator => "AccessCodeOperator"
  | .accessCodeSystemOperator => "AccessCodeSystemOperator"
  | .accessCodeDeveloper => "AccessCodeDeveloper"
  | .password => "Password"
  | .errorFlags => "ErrorFlags"
  | .errorMask => "ErrorMask"
  | .securityKey => "SecurityKey"
  | .digitalInput => "DigitalInput"
  | .digitalOutput => "DigitalOutput"
  | .binary => "Binary"
  | .baudRate => "BaudRate"
  | .responseDelayTime => "ResponseDelayTime"
  | .retry => "Retry"
  | .remoteControl => "RemoteControl"
  | .firstStorageForCycleStorage => "FirstStorageForCycleStorage"
  | .lastStorageForCycleStorage => "LastStorageForCycleStorage"
  | .sizeOfStorageBlock => "SizeOfStorageBlock"
  | .descriptionOfTariffAndSubunit => "DescriptionOfTariffAndSubunit"
  | .storageInterval => "StorageInterval"
  | .dimensionless => "Dimensionless"
  | .dimensionlessHCA => "DimensionlessHCA"
  | .dataContainerForWmbusProtocol => "DataContainerForWmbusProtocol"
  | .periodOfNormalDataTransmission => "PeriodOfNormalDataTransmission"
  | .resetCounter => "ResetCounter"
  | .cumulationCounter => "CumulationCounter"
  | .controlSignal => "ControlSignal"
  | .dayOfWeek => "DayOfWeek"
  | .weekNumber => "WeekNumber"
  | .timePointOfChangeOfTariff => "TimePointOfChangeOfTariff"
  | .stateOfParameterActivation => "StateOfParameterActivation"
  | .specialSupplierInformation => "SpecialSupplierInformation"
  | .durationSinceLastCumulation => "DurationSinceLastCumulation"
  | .operatingTimeBattery => "OperatingTimeBattery"
  | .dateAndTimeOfBatteryChange => "DateAndTimeOfBatteryChange"
  | .rfPowerLevel => "RFPowerLevel"
  | .daylightSavingBeginningEndingDeviation => "DaylightSavingBeginningEndingDeviation"
  | .listeningWindowManagementData => "ListeningWindowManagementData"
  | .remainingBatteryLifeTime => "RemainingBatteryLifeTime"
  | .numberOfTimesTheMeterWasStopped => "NumberOfTimesTheMeterWasStopped"
  | .dataContainerForManufacturerSpecificProtocol => "DataContainerForManufacturerSpecificProtocol"
  | .currentlySelectedApplication => "CurrentlySelectedApplication"
  | .energy => "Energy"
  | .reactiveEnergy => "ReactiveEnergy"
  | .apparentEnergy => "ApparentEnergy"
  | .coefficientOfPerformance => "CoefficientOfPerformance"
  | .reactivePower => "ReactivePower"
  | .frequency => "Frequency"
  | .apparentPower => "ApparentPower"
  | .atPhaseL1 => "AtPhaseL1"
  | .atPhaseL2 => "AtPhaseL2"
  | .atPhaseL3 => "AtPhaseL3"
  | .atNeutral => "AtNeutral"
  | .betweenPhasesL1L2 => "BetweenPhasesL1L2"
  | .betweenPhasesL2L3 => "BetweenPhasesL2L3"
  | .betweenPhasesL3L1 => "BetweenPhasesL3L1"
  | .atQuadrant1 => "AtQuadrant1"
  | .atQuadrant2 => "AtQuadrant2"
  | .atQuadrant3 => "AtQuadrant3"
  | .atQuadrant4 => "AtQuadrant4"
  | .deltaBetweenImportAndExport => "DeltaBetweenImportAndExport"
  | .accumulationOfAbsoluteValueBothPositiveAndNegativeContribution => "AccumulationOfAbsoluteValueBothPositiveAndNegativeContribution"
  | .secondarySensorMeasurement => "SecondarySensorMeasurement"
  | .higherResolutionRegister => "HigherResolutionRegister"
  | .dataPresentedWithTypeC => "DataPresentedWithTypeC"
  | .dataPresentedWithTypeD => "DataPresentedWithTypeD"
  | .endDate => "EndDate"
  | .directionFromCommunicationPartnerToMeter => "DirectionFromCommunicationPartnerToMeter"
  | .directionFromMeterToCommunicationPartner => "DirectionFromMeterToCommunicationPartner"
  | .relativeHumidity => "RelativeHumidity"
  | .moistureLevel => "MoistureLevel"
  | .phaseUtoU => "PhaseUtoU"
  | .phaseUtoI => "PhaseUtoI"
  | .phaseItoU => "PhaseItoU"
  | .coldWarmTemperatureLimit => "ColdWarmTemperatureLimit"
  | .cumulativeMaximumOfActivePower => "CumulativeMaximumOfActivePower"
  | .resultingRatingFactor => "ResultingRatingFactor"
  | .thermalOutputRatingFactor => "ThermalOutputRatingFactor"
  | .thermalCouplingRatingFactorOverall => "ThermalCouplingRatingFactorOverall"
  | .thermalCouplingRatingRoomSide => "ThermalCouplingRatingRoomSide"
  | .thermalCouplingRatingFactorHeatingSide => "ThermalCouplingRatingFactorHeatingSide"
  | .lowTemperatureRatingFactor => "LowTemperatureRatingFactor"
  | .displayOutputScalingFactor => "DisplayOutputScalingFactor"
  | .manufacturerSpecific => "ManufacturerSpecific"
  | .onTime => "OnTime"
  | .operatingTime => "OperatingTime"
  | .volume => "Volume"
  | .mass => "Mass"
  | .power => "Power"
  | .volumeFlow => "VolumeFlow"
  | .massFlow => "MassFlow"
  | .pressure => "Pressure"
  | .voltage => "Voltage"
  | .current => "Current"
  | .flowTemperature => "FlowTemperature"
  | .returnTemperature => "ReturnTemperature"
  | .temperatureDifference => "TemperatureDifference"
  | .externalTemperature => "ExternalTemperature"

def isUpper (c : Char) : Bool := 'A' ≤ c && c ≤ 'Z'
def isLower (c : Char) : Bool := 'a' ≤ c && c ≤ 'z'
def isDigit (c : Char) : Bool := '0' ≤ c && c ≤ '9'
/-- `char::to_ascii_lowercase`. -/
def asciiLower (c : Char) : Char := if isUpper c then Char.ofNat (c.toNat + 32) else c

/-- The loop of `sentence_case_identifier`, src/output.rs:1409-1426: `previous` is the character before
the rest of the identifier, `word` and `words` the variables of the same name. -/
def sentenceLoop : Option Char → List Char → (word : List Char) → (words : List (List Char)) →
    List (List Char)
  | _, [], word, words => if word ≠ [] then words ++ [word] else words
  | previous, c :: rest, word, words =>
    let next := rest.head?
    let boundary := !word.isEmpty && isUpper c &&
      (previous.any (fun v => isLower v || isDigit v) || (previous.any isUpper && next.any isLower))
    if boundary then sentenceLoop (some c) rest [c] (words ++ [word])
    else sentenceLoop (some c) rest (word ++ [c]) words

/-- `standardized_word`, src/output.rs:1435-1451. -/
def standardizedWord (word : List Char) (first : Bool) : List Char :=
  if word = "Vif".toList then "VIF".toList
  else if word = "Vife".toList then "VIFE".toList
  else if word = "Obis".toList then "OBIS".toList
  else if word = "Wmbus".toList then "wireless M-Bus".toList
  else if (word.filter (fun c => isUpper c || isLower c)).all isUpper then word
  else if first then word
  else word.map asciiLower

/-- `sentence_case_identifier`, src/output.rs:1405-1433. -/
def sentenceCaseIdentifier (identifier : List Char) : List Char :=
  match sentenceLoop none identifier [] [] with
  | [] => []
  | w :: rest => [' '].intercalate (standardizedWord w true :: rest.map (standardizedWord · false))

/-- `quantity_name`, src/output.rs:1388-1403. -/
def quantityName : ValueLabel → List Char
  | .date => "Time point (date)".toList
  | .time => "Time point (time)".toList
  | .dateTime => "Time point (date and time)".toList
  | .dateTimeWithSeconds => "Time point (date and time)".toList
  | .dataContainerForWmbusProtocol => "Data container for wireless M-Bus protocol".toList
  | .phaseUtoU => "Phase U-to-U".toList
  | .phaseUtoI => "Phase U-to-I".toList
  | .phaseItoU => "Phase I-to-U".toList
  | label => sentenceCaseIdentifier label.debug.toList

/-- `Display` of `UnitName`, value_information.rs:1337-1385. -/
def UnitName.display : UnitName → String
  | .watt => "W"
  | .reactiveWatt => "W (reactive)"
  | .apparentWatt => "W (apparent)"
  | .joul => "J"
  | .kilogram => "Kg"
  | .tonne => "t"
  | .meter => "m"
  | .feet => "ft"
  | .celsius => "°C"
  | .kelvin => "°K"
  | .bar => "Bar"
  | .hca => "HCA"
  | .reserved => "Reserved"
  | .withoutUnits => "-"
  | .second => "s"
  | .minute => "min"
  | .hour => "h"
  | .day => "day"
  | .week => "week"
  | .month => "month"
  | .year => "year"
  | .revolution => "revolution"
  | .increment => "increment"
  | .inputPulseOnChannel0 => "InputPulseOnChannel0"
  | .outputPulseOnChannel0 => "OutputPulseOnChannel0"
  | .inputPulseOnChannel1 => "InputPulseOnChannel1"
  | .outputPulseOnChannel1 => "OutputPulseOnChannel1"
  | .liter => "l"
  | .volt => "V"
  | .ampere => "A"
  | .localMoneyCurrency => "$ (local)"
  | .symbol => "Symbol"
  | .bitTime => "BitTime"
  | .decibelMilliWatt => "dBmW"
  | .percent => "%"
  | .degree => "°"
  | .hertz => "Hz"
  | .hcaUnit => "HCAUnit"
  | .fahrenheit => "°F"
  | .americanGallon => "UsGal"
  | .calorie => "cal"

/-- The array `superscripts` of `Display` of `Unit`, value_information.rs:1244. -/
def superscripts : List Char := ['⁰', '¹', '²', '³', '⁴', '⁵', '⁶', '⁷', '⁸', '⁹']

/-- `Display` of `Unit`, value_information.rs:1242-1287. -/
def MUnit.display (u : MUnit) : List Char :=
  let name := u.name.display.toList
  let digit (n : Nat) : Char := superscripts[n]?.getD '⁻'
  let x := u.exponent
  if x = 1 then name
  else if 0 ≤ x ∧ x ≤ 9 then name ++ [digit x.toNat]
  else if 10 ≤ x ∧ x ≤ 19 then name ++ [digit 1, digit (x.toNat - 10)]
  else if -9 ≤ x ∧ x < 0 then name ++ ['⁻', digit (-x).toNat]
  else if -19 ≤ x ∧ x < 0 then name ++ ['⁻', digit 1, digit ((-x).toNat - 10)]
  else name ++ '^' :: intDisplay x

/-- The symbols of `ucum_component`, src/output.rs:1893-1919. -/
def ucumSymbol : UnitName → Option String
  | .watt => some "W"
  | .joul => some "J"
  | .kilogram => some "kg"
  | .tonne => some "t"
  | .meter => some "m"
  | .feet => some "[ft_i]"
  | .celsius => some "Cel"
  | .kelvin => some "K"
  | .bar => some "bar"
  | .second => some "s"
  | .minute => some "min"
  | .hour => some "h"
  | .day => some "d"
  | .week => some "wk"
  | .month => some "mo"
  | .year => some "a"
  | .liter => some "L"
  | .volt => some "V"
  | .ampere => some "A"
  | .percent => some "%"
  | .hertz => some "Hz"
  | .fahrenheit => some "[degF]"
  | .americanGallon => some "[gal_us]"
  | .calorie => some "cal"
  | _ => none

/-- `ucum_component`, src/output.rs:1892-1925. -/
def ucumComponent (u : MUnit) : Option (List Char) :=
  (ucumSymbol u.name).map (fun symbol =>
    if u.exponent = 1 then symbol.toList else symbol.toList ++ intDisplay u.exponent)

/-- `unit_output`, src/output.rs:1883-1890. -/
def unitOutput (units : List MUnit) : List Char :=
  match units.mapM ucumComponent with
  | some components => ['.'].intercalate components
  | none => units.flatMap MUnit.display

/-- `Display` of `ApplicationLayerError`, crates/m-bus-core/src/lib.rs:86-113. -/
def AppError.display : AppError → List Char
  | .missingControlInformation => "Missing control information".toList
  | .invalidControlInformation byte => "Invalid control information: ".toList ++ natDisplay byte.toNat
  | .invalidManufacturerCode code => "Invalid manufacturer code: ".toList ++ natDisplay code.toNat
  | .identificationNumberError d0 d1 d2 d3 number =>
    "Invalid identification number: [".toList
      ++ ", ".toList.intercalate ([d0, d1, d2, d3].map (fun d => natDisplay d.toNat))
      ++ "], number: ".toList ++ natDisplay number
  | .insufficientData => "Insufficient data".toList
  | .unimplemented feature => "Unimplemented feature: ".toList ++ feature.toList

/-- `Display` of `DataInformationError`, data_information.rs:180-194, and `DataRecordError`,
variable_user_data.rs:14-21. -/
def RecordError.display : RecordError → List Char
  | .dataInformation .noData => "No data available".toList
  | .dataInformation .dataTooLong => "Data too long".toList
  | .dataInformation .dataTooShort => "Data too short".toList
  | .dataInformation .invalidValueInformation => "Invalid value information".toList
  | .dataInformation (.unimplemented feature) => "Unimplemented feature: ".toList ++ feature.toList
  | .insufficientData => "Insufficient data".toList

end MBus
