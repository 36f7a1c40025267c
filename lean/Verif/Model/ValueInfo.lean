import Verif.Model.DataInfo
/-!
# Model of `crates/m-bus-application-layer/src/value_information.rs`

The four code tables below are literal transcriptions of the `match` arms of the Rust code (one
entry per literal arm; the range arms are written in the functions that use the tables).
-/
namespace MBus

/-- `UnitName`, value_information.rs:1292-1334. -/
inductive UnitName where
  | watt | reactiveWatt | apparentWatt | joul | kilogram | tonne | meter | feet | celsius
  | kelvin | bar | hca | reserved | withoutUnits | second | minute | hour | day | week | month
  | year | revolution | increment | inputPulseOnChannel0 | outputPulseOnChannel0
  | inputPulseOnChannel1 | outputPulseOnChannel1 | liter | volt | ampere | localMoneyCurrency
  | symbol | bitTime | decibelMilliWatt | percent | degree | hertz | hcaUnit | fahrenheit
  | americanGallon | calorie
  deriving DecidableEq, Repr, Inhabited

/-- `Unit`, value_information.rs:12-15. -/
structure MUnit where
  name : UnitName
  exponent : Int
  deriving DecidableEq, Repr, Inhabited

/-- `ValueLabel`, value_information.rs:1064-1239. -/
inductive ValueLabel where
  | instantaneous | reservedForObjectActions | reserved | averaged | integral | parameter
  | inverseCompactProfile | relativeDeviation | recordErrorCodes | standardConformDataContent
  | compactProfileWithRegisterNumbers | compactProfile | actualityDuration | averagingDuration
  | date | time | dateTime | dateTimeWithSeconds | fabricationNumber | enhancedIdentification
  | address | plainText | revolutionOrMeasurement | incrementPerInputPulseOnChannelP
  | incrementPerOutputPulseOnChannelP | hourMinuteSecond | dayMonthYear | startDateOf
  | vifContainsUncorrectedUnitOrValue | accumulationOnlyIfValueIsPositive
  | accumulationOnlyIfValueIsNegative | nonMetricUnits | alternativeNonMetricUnits
  | valueAtBaseConditions | obisDeclaration | upperLimitValue | lowerLimitValue
  | numberOfExceedsOfUpperLimitValue | numberOfExceedsOfLowerLimitValue
  | dateOfBeginFirstLowerLimitExceed | dateOfBeginFirstUpperLimitExceed
  | dateOfBeginLastLowerLimitExceed | dateOfBeginLastUpperLimitExceed
  | dateOfEndLastLowerLimitExceed | dateOfEndLastUpperLimitExceed
  | dateOfEndFirstLowerLimitExceed | dateOfEndFirstUpperLimitExceed
  | durationOfFirstLowerLimitExceed | durationOfFirstUpperLimitExceed
  | durationOfLastLowerLimitExceed | durationOfLastUpperLimitExceed | durationOfFirst
  | durationOfLast | valueDuringLowerValueExceed | valueDuringUpperValueExceed | leakageValues
  | overflowValues | dateOfBeginLast | dateOfBeginFirst | dateOfEndLast | dateOfEndFirst
  | extensionOfCombinableOrthogonalVIFE | futureValue
  | nextVIFEAndDataOfThisBlockAreManufacturerSpecific | credit | debit
  | uniqueMessageIdentificationOrAccessNumber | deviceType | manufacturer
  | parameterSetIdentification | modelOrVersion | hardwareVersion | metrologyFirmwareVersion
  | otherSoftwareVersion | customerLocation | customer | accessCodeUser | accessCodeOperator
  | accessCodeSystemOperator | accessCodeDeveloper | password | errorFlags | errorMask
  | securityKey | digitalInput | digitalOutput | binary | baudRate | responseDelayTime | retry
  | remoteControl | firstStorageForCycleStorage | lastStorageForCycleStorage | sizeOfStorageBlock
  | descriptionOfTariffAndSubunit | storageInterval | dimensionless | dimensionlessHCA
  | dataContainerForWmbusProtocol | periodOfNormalDataTransmission | resetCounter
  | cumulationCounter | controlSignal | dayOfWeek | weekNumber | timePointOfChangeOfTariff
  | stateOfParameterActivation | specialSupplierInformation | durationSinceLastCumulation
  | operatingTimeBattery | dateAndTimeOfBatteryChange | rfPowerLevel
  | daylightSavingBeginningEndingDeviation | listeningWindowManagementData
  | remainingBatteryLifeTime | numberOfTimesTheMeterWasStopped
  | dataContainerForManufacturerSpecificProtocol | currentlySelectedApplication | energy
  | reactiveEnergy | apparentEnergy | coefficientOfPerformance | reactivePower | frequency
  | apparentPower | atPhaseL1 | atPhaseL2 | atPhaseL3 | atNeutral | betweenPhasesL1L2
  | betweenPhasesL2L3 | betweenPhasesL3L1 | atQuadrant1 | atQuadrant2 | atQuadrant3 | atQuadrant4
  | deltaBetweenImportAndExport | accumulationOfAbsoluteValueBothPositiveAndNegativeContribution
  | secondarySensorMeasurement | higherResolutionRegister | dataPresentedWithTypeC
  | dataPresentedWithTypeD | endDate | directionFromCommunicationPartnerToMeter
  | directionFromMeterToCommunicationPartner | relativeHumidity | moistureLevel | phaseUtoU
  | phaseUtoI | phaseItoU | coldWarmTemperatureLimit | cumulativeMaximumOfActivePower
  | resultingRatingFactor | thermalOutputRatingFactor | thermalCouplingRatingFactorOverall
  | thermalCouplingRatingRoomSide | thermalCouplingRatingFactorHeatingSide
  | lowTemperatureRatingFactor | displayOutputScalingFactor | manufacturerSpecific | onTime
  | operatingTime | volume | mass | power | volumeFlow | massFlow | pressure | voltage | current
  | flowTemperature | returnTemperature | temperatureDifference | externalTemperature
  deriving DecidableEq, Repr, Inhabited

/-- `ValueInformationBlock`, value_information.rs:101-106.  Characters are kept as bytes
(`*item as char` maps a byte to the Latin-1 character of the same number). -/
structure VIB where
  vif : UInt8
  vifes : Option (List UInt8)
  plaintext : Option (List UInt8)
  deriving DecidableEq, Repr, Inhabited

/-- `ValueInformationBlock::get_size`, value_information.rs:194-207. -/
def VIB.size (b : VIB) : Nat :=
  1 + (match b.vifes with | some v => v.length | none => 0)
    + (match b.plaintext with | some p => p.length + 1 | none => 0)

/-- `value_information_contains_ascii`, value_information.rs:142-146. -/
def containsAscii (vif : UInt8) : Bool := vif == 0x7C || vif == 0xFC

/-- `extract_plaintext_vife`, value_information.rs:87-98.  Pushing a tenth character onto the
`ArrayVec<char, 9>` panics. -/
def extractPlaintext (data : List UInt8) : Res DataInfoError (List UInt8) := do
  let n ← Res.ofOption .dataTooShort data.head?
  let chars ← Res.ofOption .dataTooShort (slice? data 1 (n.toNat + 1))
  if chars.length > 9 then .panic else .ok chars

/-- The VIFE loop of `ValueInformationBlock::try_from`, value_information.rs:58-71, on the bytes
from `offset` on; it returns the VIFEs and the bytes after them.  Pushing an eleventh VIFE onto the
`ArrayVec<_, 10>` panics. -/
def vifeLoop : List UInt8 → List UInt8 → Res DataInfoError (List UInt8 × List UInt8)
  | [], acc => .ok (acc, [])
  | b :: rest, acc =>
    if acc.length ≥ 10 then .panic
    else
      let acc' := acc ++ [b]
      if !hasExt b then .ok (acc', rest)
      else if acc'.length > 10 then .err .invalidValueInformation
      else vifeLoop rest acc'

/-- `ValueInformationBlock::try_from(&[u8])`, value_information.rs:31-85. -/
def VIB.tryFrom (cfg : Cfg) (data : List UInt8) : Res DataInfoError VIB := do
  let vif ← Res.ofOption .dataTooShort data.head?
  let early ←
    if cfg.plaintextFirst ∧ containsAscii vif then do
      let rest ← Res.ofOption .dataTooShort (sliceFrom? data 1)
      let p ← extractPlaintext rest
      .ok (some p)
    else .ok none
  if hasExt vif then
    let offset := match early with | some p => 2 + p.length | none => 1
    let (vifes, rest) ← vifeLoop (data.drop offset) []
    let late ←
      if !cfg.plaintextFirst ∧ containsAscii vif then do
        let p ← extractPlaintext rest
        .ok (some p)
      else .ok early
    .ok ⟨vif, if vifes.isEmpty then none else some vifes, late⟩
  else .ok ⟨vif, none, early⟩

/-- `ValueInformationCoding`, value_information.rs:186-192. -/
inductive VifCoding where
  | primary | plainText | mainExtension | alternateExtension | manufacturerSpecific
  deriving DecidableEq, Repr, Inhabited

/-- `ValueInformationCoding::from(&ValueInformationField)`, value_information.rs:155-169; the last
arm is `unreachable!`. -/
def vifCoding (vif : UInt8) : Res DataInfoError VifCoding :=
  let n := vif.toNat
  if n ≤ 0x7B ∨ (0x80 ≤ n ∧ n ≤ 0xFA) then .ok .primary
  else if n = 0x7C ∨ n = 0xFC then .ok .plainText
  else if n = 0xFD then .ok .mainExtension
  else if n = 0xFB then .ok .alternateExtension
  else if n = 0x7E ∨ n = 0xFE ∨ n = 0x7F ∨ n = 0xFF then .ok .manufacturerSpecific
  else .panic

/-- `ValueInformation`, value_information.rs:988-993. -/
structure ValueInfo where
  offset : Int := 0
  labels : List ValueLabel := []
  scale : Int := 0
  units : List MUnit := []
  deriving DecidableEq, Repr, Inhabited

/-- What one VIF or VIFE contributes: units and labels to push, and amounts to add to the two
exponents.  (The Rust code writes the exponent with `=` for the first code and `+=` afterwards; the
exponent is 0 at that point, so adding is the same.) -/
structure Effect where
  units : List MUnit := []
  labels : List ValueLabel := []
  scale : Int := 0
  offset : Int := 0
  deriving DecidableEq, Repr, Inhabited

/-- Apply the contribution of one code: `push` on the two `ArrayVec<_, 10>` panics when full. -/
def ValueInfo.apply (v : ValueInfo) (e : Effect) : Res DataInfoError ValueInfo :=
  if v.labels.length + e.labels.length > 10 ∨ v.units.length + e.units.length > 10 then .panic
  else .ok ⟨v.offset + e.offset, v.labels ++ e.labels, v.scale + e.scale, v.units ++ e.units⟩

/-- Seconds, minutes, hours, days by the low two bits, value_information.rs:255-261, 265-271. -/
def timeUnit (code : UInt8) : MUnit :=
  let n := code &&& 0x03
  if n = 0 then ⟨.second, 1⟩ else if n = 1 then ⟨.minute, 1⟩ else if n = 2 then ⟨.hour, 1⟩
  else ⟨.day, 1⟩

/-- Primary VIFs, value_information.rs:226-351. -/
def primaryVif (vif : UInt8) : Res DataInfoError Effect :=
  let n := (vif &&& 0x7F).toNat
  let e3 : Int := (vif &&& 0x07).toNat
  let e2 : Int := (vif &&& 0x03).toNat
  if n ≤ 0x07 then
    .ok { units := [⟨.watt, 1⟩, ⟨.hour, 1⟩], labels := [.energy], scale := e3 - 3 }
  else if n ≤ 0x0F then .ok { units := [⟨.joul, 1⟩], labels := [.energy], scale := e3 }
  else if n ≤ 0x17 then .ok { units := [⟨.meter, 3⟩], labels := [.volume], scale := e3 - 6 }
  else if n ≤ 0x1F then .ok { units := [⟨.kilogram, 1⟩], labels := [.mass], scale := e3 - 3 }
  else if n ≤ 0x23 then .ok { units := [timeUnit vif], labels := [.onTime] }
  else if n ≤ 0x27 then .ok { units := [timeUnit vif], labels := [.operatingTime] }
  else if n ≤ 0x2F then .ok { units := [⟨.watt, 1⟩], labels := [.power], scale := e3 - 3 }
  else if n ≤ 0x37 then
    .ok { units := [⟨.joul, 1⟩, ⟨.hour, -1⟩], labels := [.power], scale := e3 }
  else if n ≤ 0x3F then
    .ok { units := [⟨.meter, 3⟩, ⟨.hour, -1⟩], labels := [.volumeFlow], scale := e3 - 6 }
  else if n ≤ 0x47 then
    .ok { units := [⟨.meter, 3⟩, ⟨.minute, -1⟩], labels := [.volumeFlow], scale := e3 - 7 }
  else if n ≤ 0x4F then
    .ok { units := [⟨.meter, 3⟩, ⟨.second, -1⟩], labels := [.volumeFlow], scale := e3 - 9 }
  else if n ≤ 0x57 then
    .ok { units := [⟨.kilogram, 1⟩, ⟨.hour, -1⟩], labels := [.massFlow], scale := e3 - 3 }
  else if n ≤ 0x5B then
    .ok { units := [⟨.celsius, 1⟩], labels := [.flowTemperature], scale := e2 - 3 }
  else if n ≤ 0x5F then
    .ok { units := [⟨.celsius, 1⟩], labels := [.returnTemperature], scale := e2 - 3 }
  else if n ≤ 0x63 then
    .ok { units := [⟨.kelvin, 1⟩], labels := [.temperatureDifference], scale := e2 - 3 }
  else if n ≤ 0x67 then
    .ok { units := [⟨.celsius, 1⟩], labels := [.externalTemperature], scale := e2 - 3 }
  else if n ≤ 0x6B then .ok { units := [⟨.bar, 1⟩], labels := [.pressure], scale := e2 - 3 }
  else if n = 0x6C then .ok { labels := [.date] }
  else if n = 0x6D then .ok { labels := [.dateTime] }
  else if n = 0x6E then .ok { labels := [.dimensionlessHCA] }
  else if 0x70 ≤ n ∧ n ≤ 0x73 then .ok { labels := [.averagingDuration] }
  else if 0x74 ≤ n ∧ n ≤ 0x77 then .ok { labels := [.actualityDuration] }
  else if n = 0x78 then .ok { labels := [.fabricationNumber] }
  else if n = 0x79 then .ok { labels := [.enhancedIdentification] }
  else if n = 0x7A then .ok { labels := [.address] }
  else if n = 0x7B then .ok {}
  else .err (.unimplemented "Primary value information unit codes (partial)")

/-- Literal arms of the main VIF extension (VIF FD), value_information.rs:383-529. -/
def mainTable : List (Nat × Effect) :=
  [
    (0x08, { labels := [.uniqueMessageIdentificationOrAccessNumber] }),
    (0x09, { labels := [.deviceType] }),
    (0x0A, { labels := [.manufacturer] }),
    (0x0B, { labels := [.parameterSetIdentification] }),
    (0x0C, { labels := [.modelOrVersion] }),
    (0x0D, { labels := [.hardwareVersion] }),
    (0x0E, { labels := [.metrologyFirmwareVersion] }),
    (0x0F, { labels := [.otherSoftwareVersion] }),
    (0x10, { labels := [.customerLocation] }),
    (0x11, { labels := [.customer] }),
    (0x12, { labels := [.accessCodeUser] }),
    (0x13, { labels := [.accessCodeOperator] }),
    (0x14, { labels := [.accessCodeSystemOperator] }),
    (0x15, { labels := [.accessCodeDeveloper] }),
    (0x16, { labels := [.password] }),
    (0x17, { labels := [.errorFlags] }),
    (0x18, { labels := [.errorMask] }),
    (0x19, { labels := [.securityKey] }),
    (0x1A, { labels := [.digitalOutput, .binary] }),
    (0x1B, { labels := [.digitalInput, .binary] }),
    (0x1C, { units := [⟨.symbol, 1⟩, ⟨.second, -1⟩], labels := [.baudRate] }),
    (0x1D, { units := [⟨.bitTime, 1⟩], labels := [.responseDelayTime] }),
    (0x1E, { labels := [.retry] }),
    (0x1F, { labels := [.remoteControl] }),
    (0x20, { labels := [.firstStorageForCycleStorage] }),
    (0x21, { labels := [.lastStorageForCycleStorage] }),
    (0x22, { labels := [.sizeOfStorageBlock] }),
    (0x23, { labels := [.descriptionOfTariffAndSubunit] }),
    (0x24, { units := [⟨.second, 1⟩], labels := [.storageInterval] }),
    (0x25, { units := [⟨.minute, 1⟩], labels := [.storageInterval] }),
    (0x26, { units := [⟨.hour, 1⟩], labels := [.storageInterval] }),
    (0x27, { units := [⟨.day, 1⟩], labels := [.storageInterval] }),
    (0x28, { units := [⟨.month, 1⟩], labels := [.storageInterval] }),
    (0x29, { units := [⟨.year, 1⟩], labels := [.storageInterval] }),
    (0x30, { labels := [.dimensionlessHCA] }),
    (0x31, { labels := [.dataContainerForWmbusProtocol] }),
    (0x32, { units := [⟨.second, 1⟩], labels := [.periodOfNormalDataTransmission] }),
    (0x33, { units := [⟨.meter, 1⟩], labels := [.periodOfNormalDataTransmission] }),
    (0x34, { units := [⟨.hour, 1⟩], labels := [.periodOfNormalDataTransmission] }),
    (0x35, { units := [⟨.day, 1⟩], labels := [.periodOfNormalDataTransmission] }),
    (0x3A, { labels := [.dimensionless] }),
    (0x60, { labels := [.resetCounter] }),
    (0x61, { labels := [.cumulationCounter] }),
    (0x62, { labels := [.controlSignal] }),
    (0x63, { labels := [.dayOfWeek] }),
    (0x64, { labels := [.weekNumber] }),
    (0x65, { labels := [.timePointOfChangeOfTariff] }),
    (0x66, { labels := [.stateOfParameterActivation] }),
    (0x67, { labels := [.specialSupplierInformation] }),
    (0x68, { units := [⟨.hour, 1⟩], labels := [.durationSinceLastCumulation] }),
    (0x69, { units := [⟨.day, 1⟩], labels := [.durationSinceLastCumulation] }),
    (0x6A, { units := [⟨.month, 1⟩], labels := [.durationSinceLastCumulation] }),
    (0x6B, { units := [⟨.year, 1⟩], labels := [.durationSinceLastCumulation] }),
    (0x6C, { units := [⟨.hour, 1⟩], labels := [.operatingTimeBattery] }),
    (0x6D, { units := [⟨.day, 1⟩], labels := [.operatingTimeBattery] }),
    (0x6E, { units := [⟨.month, 1⟩], labels := [.operatingTimeBattery] }),
    (0x6F, { units := [⟨.hour, 1⟩], labels := [.operatingTimeBattery] }),
    (0x70, { units := [⟨.second, 1⟩], labels := [.dateAndTimeOfBatteryChange] }),
    (0x71, { units := [⟨.decibelMilliWatt, 1⟩], labels := [.rfPowerLevel] }),
    (0x72, { labels := [.daylightSavingBeginningEndingDeviation] }),
    (0x73, { labels := [.listeningWindowManagementData] }),
    (0x74, { labels := [.remainingBatteryLifeTime] }),
    (0x75, { labels := [.numberOfTimesTheMeterWasStopped] }),
    (0x76, { labels := [.dataContainerForManufacturerSpecificProtocol] })
  ]

/-- Main VIF extension (VIF FD): contribution of the true VIF, value_information.rs:367-547. -/
def mainVif (first : UInt8) (second : Option UInt8) : Effect :=
  let n := (first &&& 0x7F).toNat
  let e2 : Int := (first &&& 0x03).toNat
  let e4 : Int := (first &&& 0x0F).toNat
  if n ≤ 0x03 then
    { units := [⟨.localMoneyCurrency, 1⟩], labels := [.credit], scale := e2 - 3 }
  else if n ≤ 0x07 then
    { units := [⟨.localMoneyCurrency, 1⟩], labels := [.debit], scale := e2 - 3 }
  else if 0x40 ≤ n ∧ n ≤ 0x4F then
    { units := [⟨.volt, 1⟩], labels := [.voltage], scale := e4 - 9 }
  else if 0x50 ≤ n ∧ n ≤ 0x5F then
    { units := [⟨.ampere, 1⟩], labels := [.current], scale := e4 - 12 }
  else if n = 0x7D then
    match second.map (fun s => (s &&& 0x7F).toNat) with
    | some 0x00 => { labels := [.currentlySelectedApplication] }
    | some 0x02 => { units := [⟨.month, 1⟩], labels := [.remainingBatteryLifeTime] }
    | some 0x03 => { units := [⟨.year, 1⟩], labels := [.remainingBatteryLifeTime] }
    | some 0x3E => { units := [⟨.percent, 1⟩], labels := [.moistureLevel] }
    | _ => { labels := [.reserved] }
  else (mainTable.lookup n).getD { labels := [.reserved] }

/-- Arms of the alternate VIF extension (VIF FB), value_information.rs:593-677. -/
def alternateTable : List (Nat × Effect) :=
  [
    (0x00, { units := [⟨.watt, 3⟩, ⟨.hour, -1⟩], labels := [.energy], scale := 5 }),
    (0x01, { units := [⟨.watt, 3⟩, ⟨.hour, -1⟩], labels := [.energy], scale := 6 }),
    (0x02, { units := [⟨.reactiveWatt, 1⟩, ⟨.hour, 1⟩], labels := [.reactiveEnergy], scale := 3 }),
    (0x03, { units := [⟨.reactiveWatt, 1⟩, ⟨.hour, 1⟩], labels := [.reactiveEnergy], scale := 4 }),
    (0x04, { units := [⟨.apparentWatt, 1⟩, ⟨.hour, 1⟩], labels := [.apparentEnergy], scale := 3 }),
    (0x05, { units := [⟨.apparentWatt, 1⟩, ⟨.hour, 1⟩], labels := [.apparentEnergy], scale := 4 }),
    (0x06, { labels := [.coefficientOfPerformance], scale := -1 }),
    (0x08, { units := [⟨.joul, 1⟩], labels := [.energy], scale := 8 }),
    (0x09, { units := [⟨.joul, 1⟩], labels := [.energy], scale := 9 }),
    (0x0C, { units := [⟨.calorie, 1⟩], labels := [.energy], scale := 5 }),
    (0x0D, { units := [⟨.calorie, 1⟩], labels := [.energy], scale := 6 }),
    (0x0E, { units := [⟨.calorie, 1⟩], labels := [.energy], scale := 7 }),
    (0x0F, { units := [⟨.calorie, 1⟩], labels := [.energy], scale := 8 }),
    (0x10, { units := [⟨.meter, 3⟩], labels := [.volume], scale := 2 }),
    (0x11, { units := [⟨.meter, 3⟩], labels := [.volume], scale := 3 }),
    (0x14, { units := [⟨.reactiveWatt, 1⟩], labels := [.reactivePower] }),
    (0x15, { units := [⟨.reactiveWatt, 1⟩], labels := [.reactivePower], scale := 1 }),
    (0x16, { units := [⟨.reactiveWatt, 1⟩], labels := [.reactivePower], scale := 2 }),
    (0x17, { units := [⟨.reactiveWatt, 1⟩], labels := [.reactivePower], scale := 3 }),
    (0x18, { units := [⟨.tonne, 1⟩], labels := [.mass], scale := 2 }),
    (0x19, { units := [⟨.tonne, 1⟩], labels := [.mass], scale := 3 }),
    (0x1A, { units := [⟨.percent, 1⟩], labels := [.relativeHumidity], scale := -1 }),
    (0x1B, { units := [⟨.percent, 1⟩], labels := [.relativeHumidity] }),
    (0x20, { units := [⟨.feet, 3⟩], labels := [.volume] }),
    (0x21, { units := [⟨.feet, 3⟩], labels := [.volume], scale := -1 }),
    (0x23, { units := [⟨.degree, 1⟩], labels := [.phaseItoU], scale := -1 }),
    (0x28, { units := [⟨.watt, 1⟩], labels := [.power], scale := 5 }),
    (0x29, { units := [⟨.watt, 1⟩], labels := [.power], scale := 6 }),
    (0x2A, { units := [⟨.degree, 1⟩], labels := [.phaseUtoU], scale := -1 }),
    (0x2B, { units := [⟨.degree, 1⟩], labels := [.phaseUtoI], scale := -1 }),
    (0x2C, { units := [⟨.hertz, 1⟩], labels := [.frequency], scale := -3 }),
    (0x2D, { units := [⟨.hertz, 1⟩], labels := [.frequency], scale := -2 }),
    (0x2E, { units := [⟨.hertz, 1⟩], labels := [.frequency], scale := -1 }),
    (0x2F, { units := [⟨.hertz, 1⟩], labels := [.frequency] }),
    (0x30, { units := [⟨.joul, 1⟩, ⟨.hour, -1⟩], labels := [.power], scale := 8 }),
    (0x31, { units := [⟨.joul, 1⟩, ⟨.hour, -1⟩], labels := [.power], scale := 9 }),
    (0x34, { units := [⟨.apparentWatt, 1⟩], labels := [.apparentPower] }),
    (0x35, { units := [⟨.apparentWatt, 1⟩], labels := [.apparentPower], scale := 1 }),
    (0x36, { units := [⟨.apparentWatt, 1⟩], labels := [.apparentPower], scale := 2 }),
    (0x37, { units := [⟨.apparentWatt, 1⟩], labels := [.apparentPower], scale := 3 }),
    (0x58, { units := [⟨.fahrenheit, 1⟩], labels := [.flowTemperature], scale := -3 }),
    (0x59, { units := [⟨.fahrenheit, 1⟩], labels := [.flowTemperature], scale := -2 }),
    (0x5A, { units := [⟨.fahrenheit, 1⟩], labels := [.flowTemperature], scale := -1 }),
    (0x5B, { units := [⟨.fahrenheit, 1⟩], labels := [.flowTemperature] }),
    (0x5C, { units := [⟨.fahrenheit, 1⟩], labels := [.returnTemperature], scale := -3 }),
    (0x5D, { units := [⟨.fahrenheit, 1⟩], labels := [.returnTemperature], scale := -2 }),
    (0x5E, { units := [⟨.fahrenheit, 1⟩], labels := [.returnTemperature], scale := -1 }),
    (0x5F, { units := [⟨.fahrenheit, 1⟩], labels := [.returnTemperature] }),
    (0x60, { units := [⟨.fahrenheit, 1⟩], labels := [.temperatureDifference], scale := -3 }),
    (0x61, { units := [⟨.fahrenheit, 1⟩], labels := [.temperatureDifference], scale := -2 }),
    (0x62, { units := [⟨.fahrenheit, 1⟩], labels := [.temperatureDifference], scale := -1 }),
    (0x63, { units := [⟨.fahrenheit, 1⟩], labels := [.temperatureDifference] }),
    (0x64, { units := [⟨.fahrenheit, 1⟩], labels := [.externalTemperature], scale := -3 }),
    (0x65, { units := [⟨.fahrenheit, 1⟩], labels := [.externalTemperature], scale := -2 }),
    (0x66, { units := [⟨.fahrenheit, 1⟩], labels := [.externalTemperature], scale := -1 }),
    (0x67, { units := [⟨.fahrenheit, 1⟩], labels := [.externalTemperature] }),
    (0x70, { units := [⟨.fahrenheit, 1⟩], labels := [.coldWarmTemperatureLimit], scale := -3 }),
    (0x71, { units := [⟨.fahrenheit, 1⟩], labels := [.coldWarmTemperatureLimit], scale := -2 }),
    (0x72, { units := [⟨.fahrenheit, 1⟩], labels := [.coldWarmTemperatureLimit], scale := -1 }),
    (0x73, { units := [⟨.fahrenheit, 1⟩], labels := [.coldWarmTemperatureLimit] }),
    (0x74, { units := [⟨.celsius, 1⟩], labels := [.coldWarmTemperatureLimit], scale := -3 }),
    (0x75, { units := [⟨.celsius, 1⟩], labels := [.coldWarmTemperatureLimit], scale := -2 }),
    (0x76, { units := [⟨.celsius, 1⟩], labels := [.coldWarmTemperatureLimit], scale := -1 }),
    (0x77, { units := [⟨.celsius, 1⟩], labels := [.coldWarmTemperatureLimit] }),
    (0x78, { units := [⟨.watt, 1⟩], labels := [.cumulativeMaximumOfActivePower], scale := -3 }),
    (0x79, { units := [⟨.watt, 1⟩], labels := [.cumulativeMaximumOfActivePower], scale := -2 }),
    (0x7A, { units := [⟨.watt, 1⟩], labels := [.cumulativeMaximumOfActivePower], scale := -1 }),
    (0x7B, { units := [⟨.watt, 1⟩], labels := [.cumulativeMaximumOfActivePower] }),
    (0x7C, { units := [⟨.watt, 1⟩], labels := [.cumulativeMaximumOfActivePower], scale := 1 }),
    (0x7D, { units := [⟨.watt, 1⟩], labels := [.cumulativeMaximumOfActivePower], scale := 2 }),
    (0x7E, { units := [⟨.watt, 1⟩], labels := [.cumulativeMaximumOfActivePower], scale := 3 }),
    (0x7F, { units := [⟨.watt, 1⟩], labels := [.cumulativeMaximumOfActivePower], scale := 4 }),
    (0x68, { units := [⟨.hcaUnit, 1⟩], labels := [.resultingRatingFactor] }),
    (0x69, { units := [⟨.hcaUnit, 1⟩], labels := [.thermalOutputRatingFactor] }),
    (0x6A, { units := [⟨.hcaUnit, 1⟩], labels := [.thermalCouplingRatingFactorOverall] }),
    (0x6B, { units := [⟨.hcaUnit, 1⟩], labels := [.thermalCouplingRatingRoomSide] }),
    (0x6C, { units := [⟨.hcaUnit, 1⟩], labels := [.thermalCouplingRatingFactorHeatingSide] }),
    (0x6D, { units := [⟨.hcaUnit, 1⟩], labels := [.lowTemperatureRatingFactor] }),
    (0x6E, { units := [⟨.hcaUnit, 1⟩], labels := [.displayOutputScalingFactor] })
  ]

/-- Alternate VIF extension (VIF FB): contribution of the true VIF,
value_information.rs:557-679. -/
def alternateVif (first : UInt8) : Effect :=
  (alternateTable.lookup (first &&& 0x7F).toNat).getD { labels := [.reserved] }

/-- Arms of the extension (FC) of the combinable orthogonal VIFEs,
value_information.rs:731-754. -/
def orthogonalExtTable : List (Nat × Effect) :=
  [
    (0x00, { labels := [.reserved] }),
    (0x01, { labels := [.atPhaseL1] }),
    (0x02, { labels := [.atPhaseL2] }),
    (0x03, { labels := [.atPhaseL3] }),
    (0x04, { labels := [.atNeutral] }),
    (0x05, { labels := [.betweenPhasesL1L2] }),
    (0x06, { labels := [.betweenPhasesL2L3] }),
    (0x07, { labels := [.betweenPhasesL3L1] }),
    (0x08, { labels := [.atQuadrant1] }),
    (0x09, { labels := [.atQuadrant2] }),
    (0x0A, { labels := [.atQuadrant3] }),
    (0x0B, { labels := [.atQuadrant4] }),
    (0x0C, { labels := [.deltaBetweenImportAndExport] }),
    (0x0D, { labels := [.alternativeNonMetricUnits] }),
    (0x0E, { labels := [.secondarySensorMeasurement] }),
    (0x0F, { labels := [.higherResolutionRegister] }),
    (0x10, { labels := [.accumulationOfAbsoluteValueBothPositiveAndNegativeContribution] }),
    (0x11, { labels := [.dataPresentedWithTypeC] }),
    (0x12, { labels := [.dataPresentedWithTypeD] }),
    (0x13, { labels := [.endDate] }),
    (0x14, { labels := [.directionFromCommunicationPartnerToMeter] }),
    (0x15, { labels := [.directionFromMeterToCommunicationPartner] })
  ]

/-- Literal arms of the combinable orthogonal VIFEs, value_information.rs:759-964. -/
def orthogonalTable : List (Nat × Effect) :=
  [
    (0x12, { labels := [.averaged] }),
    (0x13, { labels := [.inverseCompactProfile] }),
    (0x14, { labels := [.relativeDeviation] }),
    (0x1D, { labels := [.standardConformDataContent] }),
    (0x1E, { labels := [.compactProfileWithRegisterNumbers] }),
    (0x1F, { labels := [.compactProfile] }),
    (0x20, { units := [⟨.second, -1⟩] }),
    (0x21, { units := [⟨.minute, -1⟩] }),
    (0x22, { units := [⟨.hour, -1⟩] }),
    (0x23, { units := [⟨.day, -1⟩] }),
    (0x24, { units := [⟨.week, -1⟩] }),
    (0x25, { units := [⟨.month, -1⟩] }),
    (0x26, { units := [⟨.year, -1⟩] }),
    (0x27, { units := [⟨.revolution, -1⟩] }),
    (0x28, { units := [⟨.increment, 1⟩, ⟨.inputPulseOnChannel0, -1⟩] }),
    (0x29, { units := [⟨.increment, 1⟩, ⟨.inputPulseOnChannel1, -1⟩] }),
    (0x2A, { units := [⟨.increment, 1⟩, ⟨.outputPulseOnChannel0, -1⟩] }),
    (0x2B, { units := [⟨.increment, 1⟩, ⟨.outputPulseOnChannel1, -1⟩] }),
    (0x2C, { units := [⟨.liter, 1⟩] }),
    (0x2D, { units := [⟨.meter, -3⟩] }),
    (0x2E, { units := [⟨.kilogram, -1⟩] }),
    (0x2F, { units := [⟨.kelvin, -1⟩] }),
    (0x30, { units := [⟨.watt, -1⟩, ⟨.hour, -1⟩], scale := -3 }),
    (0x31, { units := [⟨.joul, -1⟩], scale := -9 }),
    (0x32, { units := [⟨.watt, -1⟩], scale := -3 }),
    (0x33, { units := [⟨.kelvin, -1⟩, ⟨.liter, -1⟩] }),
    (0x34, { units := [⟨.volt, -1⟩] }),
    (0x35, { units := [⟨.ampere, -1⟩] }),
    (0x36, { units := [⟨.second, 1⟩] }),
    (0x37, { units := [⟨.second, 1⟩, ⟨.volt, -1⟩] }),
    (0x38, { units := [⟨.second, 1⟩, ⟨.ampere, -1⟩] }),
    (0x39, { labels := [.startDateOf] }),
    (0x3A, { labels := [.vifContainsUncorrectedUnitOrValue] }),
    (0x3B, { labels := [.accumulationOnlyIfValueIsPositive] }),
    (0x3C, { labels := [.accumulationOnlyIfValueIsNegative] }),
    (0x3D, { labels := [.nonMetricUnits] }),
    (0x3E, { labels := [.valueAtBaseConditions] }),
    (0x3F, { labels := [.obisDeclaration] }),
    (0x40, { labels := [.lowerLimitValue] }),
    (0x48, { labels := [.upperLimitValue] }),
    (0x41, { labels := [.numberOfExceedsOfLowerLimitValue] }),
    (0x49, { labels := [.numberOfExceedsOfUpperLimitValue] }),
    (0x42, { labels := [.dateOfBeginFirstLowerLimitExceed] }),
    (0x43, { labels := [.dateOfEndFirstLowerLimitExceed] }),
    (0x46, { labels := [.dateOfBeginLastLowerLimitExceed] }),
    (0x47, { labels := [.dateOfEndLastLowerLimitExceed] }),
    (0x4A, { labels := [.dateOfBeginFirstUpperLimitExceed] }),
    (0x4B, { labels := [.dateOfEndFirstUpperLimitExceed] }),
    (0x4E, { labels := [.dateOfBeginLastUpperLimitExceed] }),
    (0x4F, { labels := [.dateOfEndLastUpperLimitExceed] }),
    (0x50, { units := [⟨.second, 1⟩], labels := [.durationOfFirstLowerLimitExceed] }),
    (0x51, { units := [⟨.minute, 1⟩], labels := [.durationOfFirstLowerLimitExceed] }),
    (0x52, { units := [⟨.hour, 1⟩], labels := [.durationOfFirstLowerLimitExceed] }),
    (0x53, { units := [⟨.day, 1⟩], labels := [.durationOfFirstLowerLimitExceed] }),
    (0x54, { units := [⟨.second, 1⟩], labels := [.durationOfLastLowerLimitExceed] }),
    (0x55, { units := [⟨.minute, 1⟩], labels := [.durationOfLastLowerLimitExceed] }),
    (0x56, { units := [⟨.hour, 1⟩], labels := [.durationOfLastLowerLimitExceed] }),
    (0x57, { units := [⟨.day, 1⟩], labels := [.durationOfLastLowerLimitExceed] }),
    (0x58, { units := [⟨.second, 1⟩], labels := [.durationOfFirstUpperLimitExceed] }),
    (0x59, { units := [⟨.minute, 1⟩], labels := [.durationOfFirstUpperLimitExceed] }),
    (0x5A, { units := [⟨.hour, 1⟩], labels := [.durationOfFirstUpperLimitExceed] }),
    (0x5B, { units := [⟨.day, 1⟩], labels := [.durationOfFirstUpperLimitExceed] }),
    (0x5C, { units := [⟨.second, 1⟩], labels := [.durationOfLastUpperLimitExceed] }),
    (0x5D, { units := [⟨.minute, 1⟩], labels := [.durationOfLastUpperLimitExceed] }),
    (0x5E, { units := [⟨.hour, 1⟩], labels := [.durationOfLastUpperLimitExceed] }),
    (0x5F, { units := [⟨.day, 1⟩], labels := [.durationOfLastUpperLimitExceed] }),
    (0x60, { units := [⟨.second, 1⟩], labels := [.durationOfFirst] }),
    (0x61, { units := [⟨.minute, 1⟩], labels := [.durationOfFirst] }),
    (0x62, { units := [⟨.hour, 1⟩], labels := [.durationOfFirst] }),
    (0x63, { units := [⟨.day, 1⟩], labels := [.durationOfFirst] }),
    (0x64, { units := [⟨.second, 1⟩], labels := [.durationOfLast] }),
    (0x65, { units := [⟨.minute, 1⟩], labels := [.durationOfLast] }),
    (0x66, { units := [⟨.hour, 1⟩], labels := [.durationOfLast] }),
    (0x67, { units := [⟨.day, 1⟩], labels := [.durationOfLast] }),
    (0x68, { labels := [.valueDuringLowerValueExceed] }),
    (0x6C, { labels := [.valueDuringUpperValueExceed] }),
    (0x69, { labels := [.leakageValues] }),
    (0x6D, { labels := [.overflowValues] }),
    (0x6A, { labels := [.dateOfBeginFirst] }),
    (0x6B, { labels := [.dateOfBeginLast] }),
    (0x6E, { labels := [.dateOfEndLast] }),
    (0x6F, { labels := [.dateOfEndFirst] }),
    (0x7D, { scale := 3 }),
    (0x7E, { labels := [.futureValue] }),
    (0x7F, { labels := [.nextVIFEAndDataOfThisBlockAreManufacturerSpecific] })
  ]

/-- Contribution of an orthogonal VIFE following FC, value_information.rs:728-756. -/
def orthogonalExtVife (b : UInt8) : Effect :=
  (orthogonalExtTable.lookup (b &&& 0x7F).toNat).getD { labels := [.reserved] }

/-- Contribution of an orthogonal VIFE, value_information.rs:757-967. -/
def orthogonalVife (b : UInt8) : Effect :=
  let n := (b &&& 0x7F).toNat
  if n ≤ 0x0F then { labels := [.reservedForObjectActions] }
  else if n ≤ 0x11 then { labels := [.reserved] }
  else if 0x15 ≤ n ∧ n ≤ 0x1C then { labels := [.recordErrorCodes] }
  else if 0x70 ≤ n ∧ n ≤ 0x77 then { scale := ((b &&& 0x07).toNat : Int) - 6 }
  else if 0x78 ≤ n ∧ n ≤ 0x7B then { offset := ((b &&& 0x03).toNat : Int) - 3 }
  else (orthogonalTable.lookup n).getD { labels := [.reserved] }

/-- `consume_orthhogonal_vife`, value_information.rs:715-970; `fc` is
`is_extension_of_combinable_orthogonal_vife`. -/
def consumeOrthogonal : List UInt8 → (fc : Bool) → ValueInfo → Res DataInfoError ValueInfo
  | [], _, v => .ok v
  | b :: rest, fc, v =>
    if b = 0xFC then consumeOrthogonal rest true v
    else do
      let v' ← v.apply (if fc then orthogonalExtVife b else orthogonalVife b)
      consumeOrthogonal rest false v'

/-- `ValueInformation::try_from(&ValueInformationBlock)`, value_information.rs:209-713. -/
def ValueInfo.tryFrom (b : VIB) : Res DataInfoError ValueInfo := do
  let vifes := b.vifes.getD []
  match ← vifCoding b.vif with
  | .primary => do
    let e ← primaryVif b.vif
    let v ← ({} : ValueInfo).apply e
    consumeOrthogonal vifes false v
  | .mainExtension => do
    let first ← Res.ofOption .dataTooShort vifes[0]?
    let v ← ({} : ValueInfo).apply (mainVif first vifes[1]?)
    consumeOrthogonal (vifes.drop 1) false v
  | .alternateExtension => do
    let first ← Res.ofOption .dataTooShort vifes[0]?
    let v ← ({} : ValueInfo).apply (alternateVif first)
    consumeOrthogonal (vifes.drop 1) false v
  | .plainText => do
    let v ← ({} : ValueInfo).apply { labels := [.plainText] }
    consumeOrthogonal vifes false v
  | .manufacturerSpecific => ({} : ValueInfo).apply { labels := [.manufacturerSpecific] }

end MBus
