import Verif.Spec.Units
import Verif.Spec.Decimal
/-!
# Units and quantities in the structured output

Units as terms of the Unified Code for Units of Measure (UCUM), and the names of quantities.
-/
namespace MBus.Spec

/-! ## Units -/

/-- The unit symbols of UCUM for the quantities a meter reports, with what they stand for.  A month is a
twelfth of a year and a year has 365.25 days, as UCUM has it. -/
def ucumAtoms : List (String × List (Base × Rat × Int)) :=
  [("W", [(.watt, 1, 1)]), ("J", [(.watt, 1, 1), (.second, 1, 1)]), ("kg", [(.kilogram, 1, 1)]),
   ("t", [(.kilogram, 1000, 1)]), ("m", [(.metre, 1, 1)]), ("[ft_i]", [(.foot, 1, 1)]),
   ("Cel", [(.celsius, 1, 1)]), ("K", [(.kelvin, 1, 1)]), ("[degF]", [(.fahrenheit, 1, 1)]),
   ("bar", [(.bar, 1, 1)]), ("s", [(.second, 1, 1)]), ("min", [(.second, 60, 1)]),
   ("h", [(.second, 3600, 1)]), ("d", [(.second, 86400, 1)]), ("wk", [(.second, 604800, 1)]),
   ("mo", [(.second, 2629800, 1)]), ("a", [(.second, 31557600, 1)]), ("L", [(.metre, 1 / 10, 3)]),
   ("V", [(.volt, 1, 1)]), ("A", [(.ampere, 1, 1)]), ("%", [(.percent, 1, 1)]), ("Hz", [(.hertz, 1, 1)]),
   ("[gal_us]", [(.gallon, 1, 1)]), ("cal", [(.calorie, 1, 1)])]

/-- The symbols. -/
def ucumSymbols : List String := ucumAtoms.map (·.1)

/-- A symbol with an exponent: nothing stands for the exponent 1, any other is written in decimal. -/
inductive UcumFactor : List Char → String → Int → Prop
  | plain (atom : String) : atom ∈ ucumSymbols → UcumFactor atom.toList atom 1
  | power (atom : String) (digits : List Char) (e : Int) : atom ∈ ucumSymbols → DenotesInt digits e →
      UcumFactor (atom.toList ++ digits) atom e

/-- Factors with points between them, with what they are. -/
inductive UcumTerm : List Char → List (String × Int) → Prop
  | one (text : List Char) (atom : String) (e : Int) : UcumFactor text atom e → UcumTerm text [(atom, e)]
  | times (text rest : List Char) (atom : String) (e : Int) (factors : List (String × Int)) :
      UcumFactor text atom e → UcumTerm rest factors → UcumTerm (text ++ '.' :: rest) ((atom, e) :: factors)

/-- UCUM has no products or powers of the temperature scales Celsius and Fahrenheit. -/
def UcumAllowed (factors : List (String × Int)) : Prop :=
  ∀ f ∈ factors, f.1 = "Cel" ∨ f.1 = "[degF]" → factors = [(f.1, 1)]

instance (factors : List (String × Int)) : Decidable (UcumAllowed factors) :=
  inferInstanceAs (Decidable (∀ f ∈ factors, f.1 = "Cel" ∨ f.1 = "[degF]" → factors = [(f.1, 1)]))

/-- `text` is a unit in UCUM. -/
def UcumUnit (text : List Char) (factors : List (String × Int)) : Prop :=
  UcumTerm text factors ∧ UcumAllowed factors

/-- The base units in a factor. -/
def ucumParts (f : String × Int) : List (Base × Rat × Int) :=
  ((ucumAtoms.lookup f.1).getD []).map (fun (b, m, e) => (b, m, e * f.2))

/-- The quantity of a UCUM unit. -/
def ucumQuantity (factors : List (String × Int)) : Quantity := product 1 (factors.flatMap ucumParts)

/-- The unit symbol of UCUM for a named unit of the library; some units have none. -/
def ucumOf : UnitName → Option String
  | .watt => "W"
  | .joul => "J"
  | .kilogram => "kg"
  | .tonne => "t"
  | .meter => "m"
  | .feet => "[ft_i]"
  | .celsius => "Cel"
  | .kelvin => "K"
  | .bar => "bar"
  | .second => "s"
  | .minute => "min"
  | .hour => "h"
  | .day => "d"
  | .week => "wk"
  | .month => "mo"
  | .year => "a"
  | .liter => "L"
  | .volt => "V"
  | .ampere => "A"
  | .percent => "%"
  | .hertz => "Hz"
  | .fahrenheit => "[degF]"
  | .americanGallon => "[gal_us]"
  | .calorie => "cal"
  | _ => none

/-! ## Quantities -/

/-- What a quantity is called in the structured output. -/
def quantityText : ValueLabel → String
  | .instantaneous => "Instantaneous"
  | .reservedForObjectActions => "Reserved for object actions"
  | .reserved => "Reserved"
  | .averaged => "Averaged"
  | .integral => "Integral"
  | .parameter => "Parameter"
  | .inverseCompactProfile => "Inverse compact profile"
  | .relativeDeviation => "Relative deviation"
  | .recordErrorCodes => "Record error codes"
  | .standardConformDataContent => "Standard conform data content"
  | .compactProfileWithRegisterNumbers => "Compact profile with register numbers"
  | .compactProfile => "Compact profile"
  | .actualityDuration => "Actuality duration"
  | .averagingDuration => "Averaging duration"
  | .date => "Time point (date)"
  | .time => "Time point (time)"
  | .dateTime => "Time point (date and time)"
  | .dateTimeWithSeconds => "Time point (date and time)"
  | .fabricationNumber => "Fabrication number"
  | .enhancedIdentification => "Enhanced identification"
  | .address => "Address"
  | .plainText => "Plain text"
  | .revolutionOrMeasurement => "Revolution or measurement"
  | .incrementPerInputPulseOnChannelP => "Increment per input pulse on channel P"
  | .incrementPerOutputPulseOnChannelP => "Increment per output pulse on channel P"
  | .hourMinuteSecond => "Hour minute second"
  | .dayMonthYear => "Day month year"
  | .startDateOf => "Start date of"
  | .vifContainsUncorrectedUnitOrValue => "VIF contains uncorrected unit or value"
  | .accumulationOnlyIfValueIsPositive => "Accumulation only if value is positive"
  | .accumulationOnlyIfValueIsNegative => "Accumulation only if value is negative"
  | .nonMetricUnits => "Non metric units"
  | .alternativeNonMetricUnits => "Alternative non metric units"
  | .valueAtBaseConditions => "Value at base conditions"
  | .obisDeclaration => "OBIS declaration"
  | .upperLimitValue => "Upper limit value"
  | .lowerLimitValue => "Lower limit value"
  | .numberOfExceedsOfUpperLimitValue => "Number of exceeds of upper limit value"
  | .numberOfExceedsOfLowerLimitValue => "Number of exceeds of lower limit value"
  | .dateOfBeginFirstLowerLimitExceed => "Date of begin first lower limit exceed"
  | .dateOfBeginFirstUpperLimitExceed => "Date of begin first upper limit exceed"
  | .dateOfBeginLastLowerLimitExceed => "Date of begin last lower limit exceed"
  | .dateOfBeginLastUpperLimitExceed => "Date of begin last upper limit exceed"
  | .dateOfEndLastLowerLimitExceed => "Date of end last lower limit exceed"
  | .dateOfEndLastUpperLimitExceed => "Date of end last upper limit exceed"
  | .dateOfEndFirstLowerLimitExceed => "Date of end first lower limit exceed"
  | .dateOfEndFirstUpperLimitExceed => "Date of end first upper limit exceed"
  | .durationOfFirstLowerLimitExceed => "Duration of first lower limit exceed"
  | .durationOfFirstUpperLimitExceed => "Duration of first upper limit exceed"
  | .durationOfLastLowerLimitExceed => "Duration of last lower limit exceed"
  | .durationOfLastUpperLimitExceed => "Duration of last upper limit exceed"
  | .durationOfFirst => "Duration of first"
  | .durationOfLast => "Duration of last"
  | .valueDuringLowerValueExceed => "Value during lower value exceed"
  | .valueDuringUpperValueExceed => "Value during upper value exceed"
  | .leakageValues => "Leakage values"
  | .overflowValues => "Overflow values"
  | .dateOfBeginLast => "Date of begin last"
  | .dateOfBeginFirst => "Date of begin first"
  | .dateOfEndLast => "Date of end last"
  | .dateOfEndFirst => "Date of end first"
  | .extensionOfCombinableOrthogonalVIFE => "Extension of combinable orthogonal VIFE"
  | .futureValue => "Future value"
  | .nextVIFEAndDataOfThisBlockAreManufacturerSpecific => "Next VIFE and data of this block are manufacturer specific"
  | .credit => "Credit"
  | .debit => "Debit"
  | .uniqueMessageIdentificationOrAccessNumber => "Unique message identification or access number"
  | .deviceType => "Device type"
  | .manufacturer => "Manufacturer"
  | .parameterSetIdentification => "Parameter set identification"
  | .modelOrVersion => "Model or version"
  | .hardwareVersion => "Hardware version"
  | .metrologyFirmwareVersion => "Metrology firmware version"
  | .otherSoftwareVersion => "Other software version"
  | .customerLocation => "Customer location"
  | .customer => "Customer"
  | .accessCodeUser => "Access code user"
  | .accessCodeOperator => "Access code operator"
  | .accessCodeSystemOperator => "Access code system operator"
  | .accessCodeDeveloper => "Access code developer"
  | .password => "Password"
  | .errorFlags => "Error flags"
  | .errorMask => "Error mask"
  | .securityKey => "Security key"
  | .digitalInput => "Digital input"
  | .digitalOutput => "Digital output"
  | .binary => "Binary"
  | .baudRate => "Baud rate"
  | .responseDelayTime => "Response delay time"
  | .retry => "Retry"
  | .remoteControl => "Remote control"
  | .firstStorageForCycleStorage => "First storage for cycle storage"
  | .lastStorageForCycleStorage => "Last storage for cycle storage"
  | .sizeOfStorageBlock => "Size of storage block"
  | .descriptionOfTariffAndSubunit => "Description of tariff and subunit"
  | .storageInterval => "Storage interval"
  | .dimensionless => "Dimensionless"
  | .dimensionlessHCA => "Dimensionless HCA"
  | .dataContainerForWmbusProtocol => "Data container for wireless M-Bus protocol"
  | .periodOfNormalDataTransmission => "Period of normal data transmission"
  | .resetCounter => "Reset counter"
  | .cumulationCounter => "Cumulation counter"
  | .controlSignal => "Control signal"
  | .dayOfWeek => "Day of week"
  | .weekNumber => "Week number"
  | .timePointOfChangeOfTariff => "Time point of change of tariff"
  | .stateOfParameterActivation => "State of parameter activation"
  | .specialSupplierInformation => "Special supplier information"
  | .durationSinceLastCumulation => "Duration since last cumulation"
  | .operatingTimeBattery => "Operating time battery"
  | .dateAndTimeOfBatteryChange => "Date and time of battery change"
  | .rfPowerLevel => "RF power level"
  | .daylightSavingBeginningEndingDeviation => "Daylight saving beginning ending deviation"
  | .listeningWindowManagementData => "Listening window management data"
  | .remainingBatteryLifeTime => "Remaining battery life time"
  | .numberOfTimesTheMeterWasStopped => "Number of times the meter was stopped"
  | .dataContainerForManufacturerSpecificProtocol => "Data container for manufacturer specific protocol"
  | .currentlySelectedApplication => "Currently selected application"
  | .energy => "Energy"
  | .reactiveEnergy => "Reactive energy"
  | .apparentEnergy => "Apparent energy"
  | .coefficientOfPerformance => "Coefficient of performance"
  | .reactivePower => "Reactive power"
  | .frequency => "Frequency"
  | .apparentPower => "Apparent power"
  | .atPhaseL1 => "At phase L1"
  | .atPhaseL2 => "At phase L2"
  | .atPhaseL3 => "At phase L3"
  | .atNeutral => "At neutral"
  | .betweenPhasesL1L2 => "Between phases L1 L2"
  | .betweenPhasesL2L3 => "Between phases L2 L3"
  | .betweenPhasesL3L1 => "Between phases L3 L1"
  | .atQuadrant1 => "At quadrant1"
  | .atQuadrant2 => "At quadrant2"
  | .atQuadrant3 => "At quadrant3"
  | .atQuadrant4 => "At quadrant4"
  | .deltaBetweenImportAndExport => "Delta between import and export"
  | .accumulationOfAbsoluteValueBothPositiveAndNegativeContribution => "Accumulation of absolute value both positive and negative contribution"
  | .secondarySensorMeasurement => "Secondary sensor measurement"
  | .higherResolutionRegister => "Higher resolution register"
  | .dataPresentedWithTypeC => "Data presented with type C"
  | .dataPresentedWithTypeD => "Data presented with type D"
  | .endDate => "End date"
  | .directionFromCommunicationPartnerToMeter => "Direction from communication partner to meter"
  | .directionFromMeterToCommunicationPartner => "Direction from meter to communication partner"
  | .relativeHumidity => "Relative humidity"
  | .moistureLevel => "Moisture level"
  | .phaseUtoU => "Phase U-to-U"
  | .phaseUtoI => "Phase U-to-I"
  | .phaseItoU => "Phase I-to-U"
  | .coldWarmTemperatureLimit => "Cold warm temperature limit"
  | .cumulativeMaximumOfActivePower => "Cumulative maximum of active power"
  | .resultingRatingFactor => "Resulting rating factor"
  | .thermalOutputRatingFactor => "Thermal output rating factor"
  | .thermalCouplingRatingFactorOverall => "Thermal coupling rating factor overall"
  | .thermalCouplingRatingRoomSide => "Thermal coupling rating room side"
  | .thermalCouplingRatingFactorHeatingSide => "Thermal coupling rating factor heating side"
  | .lowTemperatureRatingFactor => "Low temperature rating factor"
  | .displayOutputScalingFactor => "Display output scaling factor"
  | .manufacturerSpecific => "Manufacturer specific"
  | .onTime => "On time"
  | .operatingTime => "Operating time"
  | .volume => "Volume"
  | .mass => "Mass"
  | .power => "Power"
  | .volumeFlow => "Volume flow"
  | .massFlow => "Mass flow"
  | .pressure => "Pressure"
  | .voltage => "Voltage"
  | .current => "Current"
  | .flowTemperature => "Flow temperature"
  | .returnTemperature => "Return temperature"
  | .temperatureDifference => "Temperature difference"
  | .externalTemperature => "External temperature"

end MBus.Spec
