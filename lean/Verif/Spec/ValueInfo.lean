import Verif.Spec.DataInfo
import Verif.Model.ValueInfo
/-!
# Specification of value information blocks (EN 13757-3, annex "VIF coding")
-/
namespace MBus.Spec

/-! ## Layout -/

/-- The byte strings a value information block is read from, with the block that is read.  With
`textFirst` (the cargo feature `plaintext-before-extension`) a plain text unit precedes the VIFEs,
otherwise it follows them.  The last two cases are chains cut off by the end of the data. -/
inductive VibLayout (textFirst : Bool) : List UInt8 → VIB → Prop
  | single (vif : UInt8) (rest : List UInt8) : vif.toNat < 128 →
      ¬ (textFirst = true ∧ vif = 0x7C) → VibLayout textFirst (vif :: rest) ⟨vif, none, none⟩
  | singleText (text rest : List UInt8) : textFirst = true → text.length ≤ 9 →
      VibLayout textFirst (0x7C :: UInt8.ofNat text.length :: (text ++ rest)) ⟨0x7C, none, some text⟩
  | extended (vif : UInt8) (vifes rest : List UInt8) : 128 ≤ vif.toNat → vif ≠ 0xFC →
      Chain vifes → vifes.length ≤ 10 →
      VibLayout textFirst (vif :: (vifes ++ rest)) ⟨vif, some vifes, none⟩
  | textLast (vifes text rest : List UInt8) : textFirst = false → Chain vifes →
      vifes.length ≤ 10 → text.length ≤ 9 →
      VibLayout textFirst (0xFC :: (vifes ++ UInt8.ofNat text.length :: (text ++ rest)))
        ⟨0xFC, some vifes, some text⟩
  | textBefore (vifes text rest : List UInt8) : textFirst = true → Chain vifes →
      vifes.length ≤ 10 → text.length ≤ 9 →
      VibLayout textFirst (0xFC :: UInt8.ofNat text.length :: (text ++ (vifes ++ rest)))
        ⟨0xFC, some vifes, some text⟩
  | cutOff (vif : UInt8) (vifes : List UInt8) : 128 ≤ vif.toNat → vif ≠ 0xFC →
      (∀ b ∈ vifes, 128 ≤ b.toNat) → vifes.length ≤ 10 →
      VibLayout textFirst (vif :: vifes) ⟨vif, if vifes = [] then none else some vifes, none⟩
  | cutOffText (vifes text : List UInt8) : textFirst = true → (∀ b ∈ vifes, 128 ≤ b.toNat) →
      vifes.length ≤ 10 → text.length ≤ 9 →
      VibLayout textFirst (0xFC :: UInt8.ofNat text.length :: (text ++ vifes))
        ⟨0xFC, if vifes = [] then none else some vifes, some text⟩

/-- The encoding of an optional plain text unit: a length byte and the characters. -/
def textBytes : Option (List UInt8) → List UInt8
  | none => []
  | some t => UInt8.ofNat t.length :: t

/-! ## Code tables -/

/-- A row of a code table: codes `first, first+1, …, first+count-1` share units and label; the
power of ten of the first one is `bias` and, when `scaled`, grows by one with each code. -/
structure Row where
  first : Nat
  count : Nat
  units : List MUnit
  labels : List ValueLabel
  bias : Int := 0
  scaled : Bool := false

/-- Meaning of code `n` in a table. -/
def meaning (rows : List Row) (n : Nat) : Option Effect :=
  (rows.find? (fun r => decide (r.first ≤ n ∧ n < r.first + r.count))).map fun r =>
    { units := r.units, labels := r.labels
      scale := if r.scaled then r.bias + ((n : Int) - r.first) else r.bias }

/-- Four consecutive codes for seconds, minutes, hours and days. -/
def secondsToDays (first : Nat) (label : ValueLabel) : List Row :=
  [⟨first, 1, [⟨.second, 1⟩], [label], 0, false⟩, ⟨first + 1, 1, [⟨.minute, 1⟩], [label], 0, false⟩,
   ⟨first + 2, 1, [⟨.hour, 1⟩], [label], 0, false⟩, ⟨first + 3, 1, [⟨.day, 1⟩], [label], 0, false⟩]

/-- Primary VIFs, EN 13757-3 table 10. -/
def primaryRows : List Row :=
  [ ⟨0x00, 8, [⟨.watt, 1⟩, ⟨.hour, 1⟩], [.energy], -3, true⟩,          -- 10^(nnn-3) Wh
    ⟨0x08, 8, [⟨.joul, 1⟩], [.energy], 0, true⟩,                       -- 10^nnn J
    ⟨0x10, 8, [⟨.meter, 3⟩], [.volume], -6, true⟩,                     -- 10^(nnn-6) m3
    ⟨0x18, 8, [⟨.kilogram, 1⟩], [.mass], -3, true⟩ ]                   -- 10^(nnn-3) kg
  ++ secondsToDays 0x20 .onTime ++ secondsToDays 0x24 .operatingTime ++
  [ ⟨0x28, 8, [⟨.watt, 1⟩], [.power], -3, true⟩,                       -- 10^(nnn-3) W
    ⟨0x30, 8, [⟨.joul, 1⟩, ⟨.hour, -1⟩], [.power], 0, true⟩,           -- 10^nnn J/h
    ⟨0x38, 8, [⟨.meter, 3⟩, ⟨.hour, -1⟩], [.volumeFlow], -6, true⟩,    -- 10^(nnn-6) m3/h
    ⟨0x40, 8, [⟨.meter, 3⟩, ⟨.minute, -1⟩], [.volumeFlow], -7, true⟩,  -- 10^(nnn-7) m3/min
    ⟨0x48, 8, [⟨.meter, 3⟩, ⟨.second, -1⟩], [.volumeFlow], -9, true⟩,  -- 10^(nnn-9) m3/s
    ⟨0x50, 8, [⟨.kilogram, 1⟩, ⟨.hour, -1⟩], [.massFlow], -3, true⟩,   -- 10^(nnn-3) kg/h
    ⟨0x58, 4, [⟨.celsius, 1⟩], [.flowTemperature], -3, true⟩,
    ⟨0x5C, 4, [⟨.celsius, 1⟩], [.returnTemperature], -3, true⟩,
    ⟨0x60, 4, [⟨.kelvin, 1⟩], [.temperatureDifference], -3, true⟩,
    ⟨0x64, 4, [⟨.celsius, 1⟩], [.externalTemperature], -3, true⟩,
    ⟨0x68, 4, [⟨.bar, 1⟩], [.pressure], -3, true⟩,
    ⟨0x6C, 1, [], [.date], 0, false⟩,
    ⟨0x6D, 1, [], [.dateTime], 0, false⟩,
    ⟨0x6E, 1, [], [.dimensionlessHCA], 0, false⟩ ]
  ++ secondsToDays 0x70 .averagingDuration ++ secondsToDays 0x74 .actualityDuration ++
  [ ⟨0x78, 1, [], [.fabricationNumber], 0, false⟩,
    ⟨0x79, 1, [], [.enhancedIdentification], 0, false⟩,
    ⟨0x7A, 1, [], [.address], 0, false⟩ ]

/-- Codes carrying only a label, numbered from `first`. -/
def labelled (first : Nat) (labels : List ValueLabel) : List Row :=
  labels.zipIdx.map fun (l, i) => ⟨first + i, 1, [], [l], 0, false⟩

/-- Main VIF extension (VIF FD), EN 13757-3 table 12.  The rows without label are quantities the library
has no label for: time since last readout, start, duration and period of the tariff. -/
def mainRows : List Row :=
  [ ⟨0x00, 4, [⟨.localMoneyCurrency, 1⟩], [.credit], -3, true⟩,
    ⟨0x04, 4, [⟨.localMoneyCurrency, 1⟩], [.debit], -3, true⟩ ]
  ++ labelled 0x08 [.uniqueMessageIdentificationOrAccessNumber, .deviceType, .manufacturer,
    .parameterSetIdentification, .modelOrVersion, .hardwareVersion, .metrologyFirmwareVersion,
    .otherSoftwareVersion, .customerLocation, .customer, .accessCodeUser, .accessCodeOperator,
    .accessCodeSystemOperator, .accessCodeDeveloper, .password, .errorFlags, .errorMask,
    .securityKey] ++
  [ ⟨0x1A, 1, [], [.digitalOutput, .binary], 0, false⟩,
    ⟨0x1B, 1, [], [.digitalInput, .binary], 0, false⟩,
    ⟨0x1C, 1, [⟨.symbol, 1⟩, ⟨.second, -1⟩], [.baudRate], 0, false⟩,
    ⟨0x1D, 1, [⟨.bitTime, 1⟩], [.responseDelayTime], 0, false⟩ ]
  ++ labelled 0x1E [.retry, .remoteControl, .firstStorageForCycleStorage,
    .lastStorageForCycleStorage, .sizeOfStorageBlock, .descriptionOfTariffAndSubunit]
  ++ secondsToDays 0x24 .storageInterval ++
  [ ⟨0x28, 1, [⟨.month, 1⟩], [.storageInterval], 0, false⟩,
    ⟨0x29, 1, [⟨.year, 1⟩], [.storageInterval], 0, false⟩,
    ⟨0x2C, 1, [⟨.second, 1⟩], [], 0, false⟩, ⟨0x2D, 1, [⟨.minute, 1⟩], [], 0, false⟩,
    ⟨0x2E, 1, [⟨.hour, 1⟩], [], 0, false⟩, ⟨0x2F, 1, [⟨.day, 1⟩], [], 0, false⟩,
    ⟨0x30, 1, [], [], 0, false⟩, ⟨0x31, 1, [⟨.minute, 1⟩], [], 0, false⟩,
    ⟨0x32, 1, [⟨.hour, 1⟩], [], 0, false⟩, ⟨0x33, 1, [⟨.day, 1⟩], [], 0, false⟩,
    ⟨0x34, 1, [⟨.second, 1⟩], [], 0, false⟩, ⟨0x35, 1, [⟨.minute, 1⟩], [], 0, false⟩,
    ⟨0x36, 1, [⟨.hour, 1⟩], [], 0, false⟩, ⟨0x37, 1, [⟨.day, 1⟩], [], 0, false⟩,
    ⟨0x38, 1, [⟨.month, 1⟩], [], 0, false⟩, ⟨0x39, 1, [⟨.year, 1⟩], [], 0, false⟩,
    ⟨0x3A, 1, [], [.dimensionless], 0, false⟩,
    ⟨0x3B, 1, [], [.dataContainerForWmbusProtocol], 0, false⟩ ]
  ++ secondsToDays 0x3C .periodOfNormalDataTransmission ++
  [ ⟨0x40, 16, [⟨.volt, 1⟩], [.voltage], -9, true⟩,
    ⟨0x50, 16, [⟨.ampere, 1⟩], [.current], -12, true⟩ ]
  ++ labelled 0x60 [.resetCounter, .cumulationCounter, .controlSignal, .dayOfWeek, .weekNumber,
    .timePointOfChangeOfTariff, .stateOfParameterActivation, .specialSupplierInformation] ++
  [ ⟨0x68, 1, [⟨.hour, 1⟩], [.durationSinceLastCumulation], 0, false⟩,
    ⟨0x69, 1, [⟨.day, 1⟩], [.durationSinceLastCumulation], 0, false⟩,
    ⟨0x6A, 1, [⟨.month, 1⟩], [.durationSinceLastCumulation], 0, false⟩,
    ⟨0x6B, 1, [⟨.year, 1⟩], [.durationSinceLastCumulation], 0, false⟩,
    ⟨0x6C, 1, [⟨.hour, 1⟩], [.operatingTimeBattery], 0, false⟩,
    ⟨0x6D, 1, [⟨.day, 1⟩], [.operatingTimeBattery], 0, false⟩,
    ⟨0x6E, 1, [⟨.month, 1⟩], [.operatingTimeBattery], 0, false⟩,
    ⟨0x6F, 1, [⟨.year, 1⟩], [.operatingTimeBattery], 0, false⟩,
    ⟨0x70, 1, [], [.dateAndTimeOfBatteryChange], 0, false⟩,
    ⟨0x71, 1, [⟨.decibelMilliWatt, 1⟩], [.rfPowerLevel], 0, false⟩ ]
  ++ labelled 0x72 [.daylightSavingBeginningEndingDeviation, .listeningWindowManagementData,
    .remainingBatteryLifeTime, .numberOfTimesTheMeterWasStopped,
    .dataContainerForManufacturerSpecificProtocol]

/-- Second level of the main extension table (after FD FD). -/
def secondLevelRows : List Row :=
  [ ⟨0x00, 1, [], [.currentlySelectedApplication], 0, false⟩,
    ⟨0x02, 1, [⟨.month, 1⟩], [.remainingBatteryLifeTime], 0, false⟩,
    ⟨0x03, 1, [⟨.year, 1⟩], [.remainingBatteryLifeTime], 0, false⟩,
    ⟨0x3E, 1, [⟨.percent, 1⟩], [.moistureLevel], 0, false⟩ ]

/-- Alternate VIF extension (VIF FB), EN 13757-3 table 14, in base units. -/
def alternateRows : List Row :=
  [ ⟨0x00, 2, [⟨.watt, 1⟩, ⟨.hour, 1⟩], [.energy], 5, true⟩,                 -- 10^(n-1) MWh
    ⟨0x02, 2, [⟨.reactiveWatt, 1⟩, ⟨.hour, 1⟩], [.reactiveEnergy], 3, true⟩, -- 10^n kvarh
    ⟨0x04, 2, [⟨.apparentWatt, 1⟩, ⟨.hour, 1⟩], [.apparentEnergy], 3, true⟩, -- 10^n kVAh
    ⟨0x06, 1, [], [.coefficientOfPerformance], -1, false⟩,
    ⟨0x08, 2, [⟨.joul, 1⟩], [.energy], 8, true⟩,                             -- 10^(n-1) GJ
    ⟨0x0C, 4, [⟨.calorie, 1⟩], [.energy], 5, true⟩,                          -- 10^(nn-1) Mcal
    ⟨0x10, 2, [⟨.meter, 3⟩], [.volume], 2, true⟩,                            -- 10^(n+2) m3
    ⟨0x14, 4, [⟨.reactiveWatt, 1⟩], [.reactivePower], 0, true⟩,              -- 10^(nn-3) kvar
    ⟨0x18, 2, [⟨.tonne, 1⟩], [.mass], 2, true⟩,                              -- 10^(n+2) t
    ⟨0x1A, 2, [⟨.percent, 1⟩], [.relativeHumidity], -1, true⟩,               -- 10^(n-1) %
    ⟨0x20, 1, [⟨.feet, 3⟩], [.volume], 0, false⟩,                            -- feet^3
    ⟨0x21, 1, [⟨.feet, 3⟩], [.volume], -1, false⟩,                           -- 0.1 feet^3
    ⟨0x23, 1, [⟨.degree, 1⟩], [.phaseItoU], -1, false⟩,
    ⟨0x28, 2, [⟨.watt, 1⟩], [.power], 5, true⟩,                              -- 10^(n-1) MW
    ⟨0x2A, 1, [⟨.degree, 1⟩], [.phaseUtoU], -1, false⟩,                      -- 0.1 degree
    ⟨0x2B, 1, [⟨.degree, 1⟩], [.phaseUtoI], -1, false⟩,                      -- 0.1 degree
    ⟨0x2C, 4, [⟨.hertz, 1⟩], [.frequency], -3, true⟩,                        -- 10^(nn-3) Hz
    ⟨0x30, 2, [⟨.joul, 1⟩, ⟨.hour, -1⟩], [.power], 8, true⟩,                 -- 10^(n-1) GJ/h
    ⟨0x34, 4, [⟨.apparentWatt, 1⟩], [.apparentPower], 0, true⟩,              -- 10^(nn-3) kVA
    ⟨0x58, 4, [⟨.fahrenheit, 1⟩], [.flowTemperature], -3, true⟩,
    ⟨0x5C, 4, [⟨.fahrenheit, 1⟩], [.returnTemperature], -3, true⟩,
    ⟨0x60, 4, [⟨.fahrenheit, 1⟩], [.temperatureDifference], -3, true⟩,
    ⟨0x64, 4, [⟨.fahrenheit, 1⟩], [.externalTemperature], -3, true⟩,
    ⟨0x68, 1, [⟨.hcaUnit, 1⟩], [.resultingRatingFactor], 0, false⟩,
    ⟨0x69, 1, [⟨.hcaUnit, 1⟩], [.thermalOutputRatingFactor], 0, false⟩,
    ⟨0x6A, 1, [⟨.hcaUnit, 1⟩], [.thermalCouplingRatingFactorOverall], 0, false⟩,
    ⟨0x6B, 1, [⟨.hcaUnit, 1⟩], [.thermalCouplingRatingRoomSide], 0, false⟩,
    ⟨0x6C, 1, [⟨.hcaUnit, 1⟩], [.thermalCouplingRatingFactorHeatingSide], 0, false⟩,
    ⟨0x6D, 1, [⟨.hcaUnit, 1⟩], [.lowTemperatureRatingFactor], 0, false⟩,
    ⟨0x6E, 1, [⟨.hcaUnit, 1⟩], [.displayOutputScalingFactor], 0, false⟩,
    ⟨0x70, 4, [⟨.fahrenheit, 1⟩], [.coldWarmTemperatureLimit], -3, true⟩,
    ⟨0x74, 4, [⟨.celsius, 1⟩], [.coldWarmTemperatureLimit], -3, true⟩,
    ⟨0x78, 8, [⟨.watt, 1⟩], [.cumulativeMaximumOfActivePower], -3, true⟩ ]   -- 10^(nnn-3) W

/-- "per something" and other units. -/
def unitCodes (first : Nat) (units : List (List MUnit)) : List Row :=
  units.zipIdx.map fun (u, i) => ⟨first + i, 1, u, [], 0, false⟩

/-- Combinable (orthogonal) VIFEs, EN 13757-3 table 15. -/
def orthogonalRows : List Row :=
  [ ⟨0x00, 16, [], [.reservedForObjectActions], 0, false⟩,
    ⟨0x10, 2, [], [.reserved], 0, false⟩ ]
  ++ labelled 0x12 [.averaged, .inverseCompactProfile, .relativeDeviation] ++
  [ ⟨0x15, 8, [], [.recordErrorCodes], 0, false⟩ ]
  ++ labelled 0x1D [.standardConformDataContent, .compactProfileWithRegisterNumbers,
    .compactProfile]
  ++ unitCodes 0x20 [[⟨.second, -1⟩], [⟨.minute, -1⟩], [⟨.hour, -1⟩], [⟨.day, -1⟩], [⟨.week, -1⟩],
    [⟨.month, -1⟩], [⟨.year, -1⟩], [⟨.revolution, -1⟩],
    [⟨.increment, 1⟩, ⟨.inputPulseOnChannel0, -1⟩], [⟨.increment, 1⟩, ⟨.inputPulseOnChannel1, -1⟩],
    [⟨.increment, 1⟩, ⟨.outputPulseOnChannel0, -1⟩], [⟨.increment, 1⟩, ⟨.outputPulseOnChannel1, -1⟩],
    [⟨.liter, -1⟩], [⟨.meter, -3⟩], [⟨.kilogram, -1⟩], [⟨.kelvin, -1⟩]] ++
  [ ⟨0x30, 1, [⟨.watt, -1⟩, ⟨.hour, -1⟩], [], -3, false⟩,   -- per kWh
    ⟨0x31, 1, [⟨.joul, -1⟩], [], -9, false⟩,                -- per GJ
    ⟨0x32, 1, [⟨.watt, -1⟩], [], -3, false⟩ ]               -- per kW
  ++ unitCodes 0x33 [[⟨.kelvin, -1⟩, ⟨.liter, -1⟩], [⟨.volt, -1⟩], [⟨.ampere, -1⟩], [⟨.second, 1⟩],
    [⟨.second, 1⟩, ⟨.volt, -1⟩], [⟨.second, 1⟩, ⟨.ampere, -1⟩]]
  ++ labelled 0x39 [.startDateOf, .vifContainsUncorrectedUnitOrValue,
    .accumulationOnlyIfValueIsPositive, .accumulationOnlyIfValueIsNegative, .nonMetricUnits,
    .valueAtBaseConditions, .obisDeclaration]
  -- limits: E100 u000, E100 u001, E100 uf1b
  ++ labelled 0x40 [.lowerLimitValue, .numberOfExceedsOfLowerLimitValue,
    .dateOfBeginFirstLowerLimitExceed, .dateOfEndFirstLowerLimitExceed]
  ++ labelled 0x46 [.dateOfBeginLastLowerLimitExceed, .dateOfEndLastLowerLimitExceed,
    .upperLimitValue, .numberOfExceedsOfUpperLimitValue,
    .dateOfBeginFirstUpperLimitExceed, .dateOfEndFirstUpperLimitExceed]
  ++ labelled 0x4E [.dateOfBeginLastUpperLimitExceed, .dateOfEndLastUpperLimitExceed]
  -- durations: E101 ufnn, E110 0fnn
  ++ secondsToDays 0x50 .durationOfFirstLowerLimitExceed
  ++ secondsToDays 0x54 .durationOfLastLowerLimitExceed
  ++ secondsToDays 0x58 .durationOfFirstUpperLimitExceed
  ++ secondsToDays 0x5C .durationOfLastUpperLimitExceed
  ++ secondsToDays 0x60 .durationOfFirst ++ secondsToDays 0x64 .durationOfLast
  -- E110 1u00, leakage, overflow, E110 1f1b
  ++ labelled 0x68 [.valueDuringLowerValueExceed, .leakageValues, .dateOfBeginFirst,
    .dateOfEndFirst, .valueDuringUpperValueExceed, .overflowValues, .dateOfBeginLast,
    .dateOfEndLast] ++
  [ ⟨0x70, 8, [], [], -6, true⟩,                            -- multiplied by 10^(nnn-6)
    ⟨0x7D, 1, [], [], 3, false⟩ ]                           -- multiplied by 10^3
  ++ labelled 0x7E [.futureValue, .nextVIFEAndDataOfThisBlockAreManufacturerSpecific]

/-- Extension (after FC) of the combinable VIFEs. -/
def orthogonalExtRows : List Row :=
  labelled 0x01 [.atPhaseL1, .atPhaseL2, .atPhaseL3, .atNeutral, .betweenPhasesL1L2,
    .betweenPhasesL2L3, .betweenPhasesL3L1, .atQuadrant1, .atQuadrant2, .atQuadrant3, .atQuadrant4,
    .deltaBetweenImportAndExport, .alternativeNonMetricUnits, .secondarySensorMeasurement,
    .higherResolutionRegister, .accumulationOfAbsoluteValueBothPositiveAndNegativeContribution,
    .dataPresentedWithTypeC, .dataPresentedWithTypeD, .endDate,
    .directionFromCommunicationPartnerToMeter, .directionFromMeterToCommunicationPartner]

/-! ## Accumulation -/

/-- The value information made of several contributions: labels and units in order, powers of ten
added up. -/
def total (es : List Effect) : ValueInfo :=
  { offset := (es.map (·.offset)).sum
    labels := es.flatMap (·.labels)
    scale := (es.map (·.scale)).sum
    units := es.flatMap (·.units) }

end MBus.Spec
