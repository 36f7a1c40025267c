import Verif.Model.Xml
/-!
# What a unit means

The library gives a record's unit as a list of named units with exponents and a power of ten; the XML
output gives a unit as text and a factor.  Both are read here as a number times a product of powers of
base units, so that they can be compared.
-/
namespace MBus.Spec

/-- Base units.  Degrees Celsius and kelvin are kept apart: a value in one is not a value in the other. -/
inductive Base where
  | watt | second | kilogram | metre | celsius | kelvin | fahrenheit | bar | currency | volt | ampere
  | symbol | bitTime | foot | gallon | reactive | apparent | calorie | percent | degree | hertz | hca | dBm
  deriving DecidableEq, Repr

def Base.all : List Base :=
  [.watt, .second, .kilogram, .metre, .celsius, .kelvin, .fahrenheit, .bar, .currency, .volt, .ampere,
   .symbol, .bitTime, .foot, .gallon, .reactive, .apparent, .calorie, .percent, .degree, .hertz, .hca, .dBm]

/-- A number of some unit: `factor` times the product of the base units to the powers `dim`. -/
structure Quantity where
  factor : Rat
  dim : Base → Int

def Quantity.same (a b : Quantity) : Bool :=
  a.factor == b.factor && Base.all.all (fun x => a.dim x == b.dim x)

def ten (e : Int) : Rat := if e < 0 then 1 / (10 ^ e.natAbs : Nat) else (10 ^ e.natAbs : Nat)

/-- `10^scale` times the product of the units.  A mean year has 31 556 926 seconds, a mean month is a
twelfth of it, rounded to a hundredth of a second. -/
def product (factor : Rat) (units : List (Base × Rat × Int)) : Quantity :=
  ⟨units.foldl (fun f (_, m, e) => f * m ^ e) factor,
   fun b => (units.filter (·.1 = b)).foldl (fun s (_, _, e) => s + e) 0⟩

/-- Base unit and multiple of it a named unit of the library stands for. -/
def unitBase : UnitName → Option (Base × Rat)
  | .watt => some (.watt, 1)
  | .joul => some (.watt, 1)
  | .kilogram => some (.kilogram, 1)
  | .tonne => some (.kilogram, 1000)
  | .meter => some (.metre, 1)
  | .feet => some (.foot, 1)
  | .celsius => some (.celsius, 1)
  | .kelvin => some (.kelvin, 1)
  | .fahrenheit => some (.fahrenheit, 1)
  | .bar => some (.bar, 1)
  | .second => some (.second, 1)
  | .minute => some (.second, 60)
  | .hour => some (.second, 3600)
  | .day => some (.second, 86400)
  | .month => some (.second, 262974383 / 100)
  | .year => some (.second, 31556926)
  | .volt => some (.volt, 1)
  | .ampere => some (.ampere, 1)
  | .localMoneyCurrency => some (.currency, 1)
  | .symbol => some (.symbol, 1)
  | .bitTime => some (.bitTime, 1)
  | .americanGallon => some (.gallon, 1)
  | .week => some (.second, 604800)
  | .reactiveWatt => some (.reactive, 1)
  | .apparentWatt => some (.apparent, 1)
  | .calorie => some (.calorie, 1)
  | .percent => some (.percent, 1)
  | .degree => some (.degree, 1)
  | .hertz => some (.hertz, 1)
  | .hcaUnit => some (.hca, 1)
  | .decibelMilliWatt => some (.dBm, 1)
  | _ => none

/-- The quantity of a library unit list.  A joule is a watt second. -/
def libraryQuantity (scale : Int) (units : List MUnit) : Option Quantity := do
  let parts ← units.mapM (fun u => do
    let (b, m) ← unitBase u.name
    let own : List (Base × Rat × Int) := [(b, m, u.exponent)]
    some (if u.name = .joul then own ++ [(.second, 1, u.exponent)] else own))
  some (product (ten scale) parts.flatten)

/-- The quantity of a unit text of the XML output. -/
def xmlUnit (unit : String) : Option (List (Base × Rat × Int)) :=
  [("Wh", [(Base.watt, (1 : Rat), (1 : Int)), (.second, 3600, 1)]),
   ("J", [(.watt, 1, 1), (.second, 1, 1)]),
   ("m^3", [(.metre, 1, 3)]),
   ("kg", [(.kilogram, 1, 1)]),
   ("s", [(.second, 1, 1)]),
   ("W", [(.watt, 1, 1)]),
   ("J/h", [(.watt, 1, 1), (.second, 1, 1), (.second, 3600, -1)]),
   ("m^3/h", [(.metre, 1, 3), (.second, 3600, -1)]),
   ("m^3/min", [(.metre, 1, 3), (.second, 60, -1)]),
   ("m^3/s", [(.metre, 1, 3), (.second, 1, -1)]),
   ("kg/h", [(.kilogram, 1, 1), (.second, 3600, -1)]),
   ("°C", [(.celsius, 1, 1)]),
   ("K", [(.kelvin, 1, 1)]),
   ("°F", [(.fahrenheit, 1, 1)]),
   ("bar", [(.bar, 1, 1)]),
   ("Currency units", [(.currency, 1, 1)]),
   ("V", [(.volt, 1, 1)]),
   ("A", [(.ampere, 1, 1)]),
   ("Baud", [(.symbol, 1, 1), (.second, 1, -1)]),
   ("Bittimes", [(.bitTime, 1, 1)]),
   ("feet^3", [(.foot, 1, 3)]),
   ("American gallon", [(.gallon, 1, 1)]),
   ("American gallon/min", [(.gallon, 1, 1), (.second, 60, -1)]),
   ("American gallon/h", [(.gallon, 1, 1), (.second, 3600, -1)])].lookup unit

def xmlQuantity (f : Xml.Factor) (unit : String) : Option Quantity :=
  (xmlUnit unit).map (fun u => product (f.mantissa * ten f.exponent) u)

/-! ## Names -/

/-- What a quantity is called in the XML output. -/
def quantityName : ValueLabel → Option String
  | .energy => some "Energy"
  | .volume => some "Volume"
  | .mass => some "Mass"
  | .onTime => some "On time"
  | .operatingTime => some "Operating time"
  | .power => some "Power"
  | .volumeFlow => some "Volume flow"
  | .massFlow => some "Mass flow"
  | .flowTemperature => some "Flow temperature"
  | .returnTemperature => some "Return temperature"
  | .temperatureDifference => some "Temperature difference"
  | .externalTemperature => some "External temperature"
  | .pressure => some "Pressure"
  | .date => some "Time point (date)"
  | .dateTime => some "Time point (date & time)"
  | .dimensionlessHCA => some "H.C.A."
  | .averagingDuration => some "Averaging Duration"
  | .actualityDuration => some "Actuality Duration"
  | .fabricationNumber => some "Fabrication No"
  | .enhancedIdentification => some "(Enhanced) Identification"
  | .address => some "Bus Address"
  | .credit => some "Credit"
  | .debit => some "Debit"
  | .uniqueMessageIdentificationOrAccessNumber => some "Access Number (transmission count)"
  | .deviceType => some "Medium"
  | .manufacturer => some "Manufacturer"
  | .parameterSetIdentification => some "Parameter set identification"
  | .modelOrVersion => some "Model / Version"
  | .hardwareVersion => some "Hardware version"
  | .metrologyFirmwareVersion => some "Firmware version"
  | .otherSoftwareVersion => some "Software version"
  | .customerLocation => some "Customer location"
  | .customer => some "Customer"
  | .accessCodeUser => some "Access Code User"
  | .accessCodeOperator => some "Access Code Operator"
  | .accessCodeSystemOperator => some "Access Code System Operator"
  | .accessCodeDeveloper => some "Access Code Developer"
  | .password => some "Password"
  | .errorFlags => some "Error flags"
  | .errorMask => some "Error mask"
  | .digitalOutput => some "Digital Output"
  | .digitalInput => some "Digital Input"
  | .baudRate => some "Baudrate"
  | .responseDelayTime => some "Response delay time"
  | .retry => some "Retry"
  | .firstStorageForCycleStorage => some "First storage # for cyclic storage"
  | .lastStorageForCycleStorage => some "Last storage # for cyclic storage"
  | .sizeOfStorageBlock => some "Size of storage block"
  | .storageInterval => some "Storage interval"
  | .dimensionless => some "Dimensionless"
  | .voltage => some "Voltage"
  | .current => some "Current"
  | .resetCounter => some "Reset counter"
  | .cumulationCounter => some "Cumulation counter"
  | .controlSignal => some "Control signal"
  | .dayOfWeek => some "Day of week"
  | .weekNumber => some "Week number"
  | .timePointOfChangeOfTariff => some "Time point of day change"
  | .stateOfParameterActivation => some "State of parameter activation"
  | .specialSupplierInformation => some "Special supplier information"
  | .durationSinceLastCumulation => some "Duration since last cumulation"
  | .operatingTimeBattery => some "Operating time battery"
  | .dateAndTimeOfBatteryChange => some "Date and time of battery change"
  | .coldWarmTemperatureLimit => some "Cold / Warm Temperature Limit"
  | .cumulativeMaximumOfActivePower => some "Cumul count max power"
  | _ => none

/-- What the function of a record is called in the XML output, by bits 4 and 5 of the DIF. -/
def functionNames : List String :=
  ["Instantaneous value", "Maximum value", "Minimum value", "Value during error state"]

/-- What a device type is called in the XML output. -/
def mediumName : DeviceType → String
  | .other => "Other"
  | .oilMeter => "Oil"
  | .electricityMeter => "Electricity"
  | .gasMeter => "Gas"
  | .heatMeterReturn => "Heat: Outlet"
  | .steamMeter => "Steam"
  | .warmWaterMeter => "Warm water (30-90°C)"
  | .waterMeter => "Water"
  | .heatCostAllocator => "Heat Cost Allocator"
  | .compressedAir => "Compressed Air"
  | .coolingMeterReturn => "Cooling load meter: Outlet"
  | .coolingMeterFlow => "Cooling load meter: Inlet"
  | .heatMeterFlow => "Heat: Inlet"
  | .combinedHeatCoolingMeter => "Heat / Cooling load meter"
  | .busSystemComponent => "Bus/System"
  | .unknownDevice => "Unknown Medium"
  | .irrigationWaterMeter => "Irrigation Water"
  | .waterDataLogger => "Water Logger"
  | .gasDataLogger => "Gas Logger"
  | .gasConverter => "Gas Converter"
  | .calorificValue => "Calorific value"
  | .hotWaterMeter => "Hot water (>90°C)"
  | .coldWaterMeter => "Cold water"
  | .dualRegisterWaterMeter => "Dual water"
  | .pressureMeter => "Pressure"
  | .adConverter => "A/D Converter"
  | .smokeDetector => "Smoke Detector"
  | .roomSensor => "Ambient Sensor"
  | .gasDetector => "Gas Detector"
  | .electricityBreaker => "Breaker: Electricity"
  | .valve => "Valve: Gas or Water"
  | .customerUnit => "Customer Unit: Display Device"
  | .wasteWaterMeter => "Waste Water"
  | .garbage => "Garbage"
  | .serviceTool => "Service Unit"
  | .radioConverterSystemSide => "Radio Converter: System"
  | .radioConverterMeterSide => "Radio Converter: Meter"
  | .communicationController => "Communication Controller"
  | .unidirectionalRepeater => "Unidirectional Repeater"
  | .bidirectionalRepeater => "Bidirectional Repeater"
  | .busConverterMeterSide => "Bus Converter: Meter"
  | _ => "Reserved"

/-- Media of the fixed data structure (EN 13757-3, annex on the fixed data structure) in code order.  The
code has two bits in each of the two unit bytes, the low ones in the first. -/
def fixedMedia : List String :=
  ["Other", "Oil", "Electricity", "Gas", "Heat", "Steam", "Hot Water", "Water", "H.C.A.", "Reserved",
   "Gas Mode 2", "Heat Mode 2", "Hot Water Mode 2", "Water Mode 2", "H.C.A. Mode 2", "Reserved"]

/-- The unit codes of fixed length data, EN 13757-3 (former annex): within each group consecutive codes
are consecutive powers of ten of one unit. -/
def fixedUnits : List String :=
  ["h,m,s", "D,M,Y",
   "Wh", "10 Wh", "100 Wh", "kWh", "10 kWh", "100 kWh", "MWh", "10 MWh", "100 MWh",
   "kJ", "10 kJ", "100 kJ", "MJ", "10 MJ", "100 MJ", "GJ", "10 GJ", "100 GJ",
   "W", "10 W", "100 W", "kW", "10 kW", "100 kW", "MW", "10 MW", "100 MW",
   "kJ/h", "10 kJ/h", "100 kJ/h", "MJ/h", "10 MJ/h", "100 MJ/h", "GJ/h", "10 GJ/h", "100 GJ/h",
   "ml", "10 ml", "100 ml", "l", "10 l", "100 l", "m^3", "10 m^3", "100 m^3",
   "ml/h", "10 ml/h", "100 ml/h", "l/h", "10 l/h", "100 l/h", "m^3/h", "10 m^3/h", "100 m^3/h",
   "1e-3 °C", "units for HCA", "reserved", "reserved", "reserved", "reserved", "reserved but historic",
   "without units"]

end MBus.Spec
