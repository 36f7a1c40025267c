import Verif.Model.Base
/-!
# Model of `crates/m-bus-core/src/lib.rs`
-/
namespace MBus

/-- `FrameError`, crates/m-bus-core/src/lib.rs:484-496. -/
inductive FrameError where
  | emptyData
  | invalidStartByte
  | invalidStopByte
  | wrongLengthIndication
  | lengthShort
  | lengthShorterThanSix (length : Nat)
  | wrongLength (expected actual : Nat)
  | wrongCrc (expected actual : UInt16)
  | wrongChecksum (expected actual : UInt8)
  | invalidControlInformation (byte : UInt8)
  | invalidFunction (byte : UInt8)
  deriving DecidableEq, Repr, Inhabited

/-- `ApplicationLayerError`, crates/m-bus-core/src/lib.rs:76-83. -/
inductive AppError where
  | missingControlInformation
  | invalidControlInformation (byte : UInt8)
  | identificationNumberError (d0 d1 d2 d3 : UInt8) (number : Nat)
  | invalidManufacturerCode (code : UInt16)
  | insufficientData
  | unimplemented (feature : String)
  deriving DecidableEq, Repr, Inhabited

/-- `Function`, crates/m-bus-core/src/lib.rs:450-465. -/
inductive Function where
  | sndNk (prm : Bool)
  | sndUd (fcb : Bool)
  | sndUd2 | sndUd3 | sndNr | sendIr | accNr | accDmd
  | reqUd1 (fcb : Bool)
  | reqUd2 (fcb : Bool)
  | rspUd (acd dfc : Bool)
  | ack | nack | cnfIr
  deriving DecidableEq, Repr, Inhabited

/-- `Function::try_from(u8)`, crates/m-bus-core/src/lib.rs:533-565. -/
def Function.tryFrom (byte : UInt8) : Res FrameError Function :=
  match byte with
  | 0x40 => .ok (.sndNk false)
  | 0x44 => .ok .sndNr
  | 0x53 => .ok (.sndUd false)
  | 0x73 => .ok (.sndUd true)
  | 0x5B => .ok (.reqUd2 false)
  | 0x7B => .ok (.reqUd2 true)
  | 0x5A => .ok (.reqUd1 false)
  | 0x7A => .ok (.reqUd1 true)
  | 0x08 => .ok (.rspUd false false)
  | 0x18 => .ok (.rspUd false true)
  | 0x28 => .ok (.rspUd true false)
  | 0x38 => .ok (.rspUd true true)
  | _ => .err (.invalidFunction byte)

/-- `ManufacturerCode`, crates/m-bus-core/src/lib.rs:35-37.  The three `char`s are kept as bytes:
`from_id` only produces ASCII letters and codes are always three ASCII letters. -/
structure ManufacturerCode where
  c0 : UInt8
  c1 : UInt8
  c2 : UInt8
  deriving DecidableEq, Repr, Inhabited

/-- `char::is_ascii_uppercase` on a char below 256. -/
def isAsciiUppercase (c : UInt8) : Bool := 65 ≤ c && c ≤ 90

/-- `ManufacturerCode::from_id`, crates/m-bus-core/src/lib.rs:40-55. -/
def ManufacturerCode.fromId (id : UInt16) : Res AppError ManufacturerCode :=
  let first := (id / (32 * 32) + 64).toUInt8
  let second := ((id % (32 * 32)) / 32 + 64).toUInt8
  let third := (id % 32 + 64).toUInt8
  if isAsciiUppercase first && isAsciiUppercase second && isAsciiUppercase third then
    .ok ⟨first, second, third⟩
  else .err (.invalidManufacturerCode id)

/-- `ManufacturerCode::to_id`, crates/m-bus-core/src/lib.rs:58-62.  Simplification: the `u16`
subtractions and products are wrapping; they are only applied to letters ≥ 64, where nothing
overflows (a hand-built code with a smaller char would panic under overflow checks). -/
def ManufacturerCode.toId (c : ManufacturerCode) : UInt16 :=
  (c.c0.toUInt16 - 64) * 32 * 32 + (c.c1.toUInt16 - 64) * 32 + (c.c2.toUInt16 - 64)

/-- `bcd_hex_digits_to_u32`, crates/m-bus-core/src/lib.rs:118-131; the loop over
`digits.iter().rev()`. `orig` is the untouched input for the error value; the `u32` accumulator
never exceeds 99 999 999, so it is a `Nat`. -/
def bcdLoop (orig : UInt8 × UInt8 × UInt8 × UInt8) : List UInt8 → Nat → Res AppError Nat
  | [], number => .ok number
  | digit :: rest, number =>
    let lower := digit &&& 0x0F
    let upper := digit >>> 4
    if lower > 9 || upper > 9 then
      .err (.identificationNumberError orig.1 orig.2.1 orig.2.2.1 orig.2.2.2 number)
    else bcdLoop orig rest (number * 100 + upper.toNat * 10 + lower.toNat)

/-- `bcd_hex_digits_to_u32`, crates/m-bus-core/src/lib.rs:118-131, and
`IdentificationNumber::from_bcd_hex_digits` (382-385), which only wraps the number. -/
def bcdHexDigitsToU32 (d0 d1 d2 d3 : UInt8) : Res AppError Nat :=
  bcdLoop (d0, d1, d2, d3) [d0, d1, d2, d3].reverse 0

/-- `DeviceType`, crates/m-bus-core/src/lib.rs:133-205. -/
inductive DeviceType where
  | other | oilMeter | electricityMeter | gasMeter | heatMeterReturn | steamMeter
  | warmWaterMeter | waterMeter | heatCostAllocator | compressedAir | coolingMeterReturn
  | coolingMeterFlow | heatMeterFlow | combinedHeatCoolingMeter | busSystemComponent
  | unknownDevice | irrigationWaterMeter | waterDataLogger | gasDataLogger | gasConverter
  | calorificValue | hotWaterMeter | coldWaterMeter | dualRegisterWaterMeter | pressureMeter
  | adConverter | smokeDetector | roomSensor | gasDetector | reservedSensor (code : UInt8)
  | electricityBreaker | valve | reservedSwitch (code : UInt8) | customerUnit
  | reservedCustomer (code : UInt8) | wasteWaterMeter | garbage | reservedCO2
  | reservedEnvironmental (code : UInt8) | serviceTool | communicationController
  | unidirectionalRepeater | bidirectionalRepeater | reservedSystem (code : UInt8)
  | radioConverterSystemSide | radioConverterMeterSide | busConverterMeterSide
  | reserved (code : UInt8) | wildcard
  deriving DecidableEq, Repr, Inhabited

/-- `impl From<DeviceType> for u8`, crates/m-bus-core/src/lib.rs:264-318. -/
def DeviceType.toByte : DeviceType → UInt8
  | other => 0x00 | oilMeter => 0x01 | electricityMeter => 0x02 | gasMeter => 0x03
  | heatMeterReturn => 0x04 | steamMeter => 0x05 | warmWaterMeter => 0x06 | waterMeter => 0x07
  | heatCostAllocator => 0x08 | compressedAir => 0x09 | coolingMeterReturn => 0x0A
  | coolingMeterFlow => 0x0B | heatMeterFlow => 0x0C | combinedHeatCoolingMeter => 0x0D
  | busSystemComponent => 0x0E | unknownDevice => 0x0F | irrigationWaterMeter => 0x10
  | waterDataLogger => 0x11 | gasDataLogger => 0x12 | gasConverter => 0x13
  | calorificValue => 0x14 | hotWaterMeter => 0x15 | coldWaterMeter => 0x16
  | dualRegisterWaterMeter => 0x17 | pressureMeter => 0x18 | adConverter => 0x19
  | smokeDetector => 0x1A | roomSensor => 0x1B | gasDetector => 0x1C
  | reservedSensor code => code | electricityBreaker => 0x20 | valve => 0x21
  | reservedSwitch code => code | customerUnit => 0x25 | reservedCustomer code => code
  | wasteWaterMeter => 0x28 | garbage => 0x29 | reservedCO2 => 0x2A
  | reservedEnvironmental code => code | serviceTool => 0x30 | communicationController => 0x31
  | unidirectionalRepeater => 0x32 | bidirectionalRepeater => 0x33 | reservedSystem code => code
  | radioConverterSystemSide => 0x36 | radioConverterMeterSide => 0x37
  | busConverterMeterSide => 0x38 | reserved code => code | wildcard => 0xFF

/-- `impl From<u8> for DeviceType`, crates/m-bus-core/src/lib.rs:319-374. -/
def DeviceType.fromByte (value : UInt8) : DeviceType :=
  match value with
  | 0x00 => other | 0x01 => oilMeter | 0x02 => electricityMeter | 0x03 => gasMeter
  | 0x04 => heatMeterReturn | 0x05 => steamMeter | 0x06 => warmWaterMeter | 0x07 => waterMeter
  | 0x08 => heatCostAllocator | 0x09 => compressedAir | 0x0A => coolingMeterReturn
  | 0x0B => coolingMeterFlow | 0x0C => heatMeterFlow | 0x0D => combinedHeatCoolingMeter
  | 0x0E => busSystemComponent | 0x0F => unknownDevice | 0x10 => irrigationWaterMeter
  | 0x11 => waterDataLogger | 0x12 => gasDataLogger | 0x13 => gasConverter
  | 0x14 => calorificValue | 0x15 => hotWaterMeter | 0x16 => coldWaterMeter
  | 0x17 => dualRegisterWaterMeter | 0x18 => pressureMeter | 0x19 => adConverter
  | 0x1A => smokeDetector | 0x1B => roomSensor | 0x1C => gasDetector
  | 0x20 => electricityBreaker | 0x21 => valve | 0x25 => customerUnit
  | 0x28 => wasteWaterMeter | 0x29 => garbage | 0x2A => reservedCO2
  | 0x30 => serviceTool | 0x31 => communicationController | 0x32 => unidirectionalRepeater
  | 0x33 => bidirectionalRepeater | 0x36 => radioConverterSystemSide
  | 0x37 => radioConverterMeterSide | 0x38 => busConverterMeterSide
  | 0xFF => wildcard
  | v =>
    if 0x1D ≤ v && v ≤ 0x1F then reservedSensor v
    else if 0x22 ≤ v && v ≤ 0x24 then reservedSwitch v
    else if 0x26 ≤ v && v ≤ 0x27 then reservedCustomer v
    else if 0x2B ≤ v && v ≤ 0x2F then reservedEnvironmental v
    else if 0x34 ≤ v && v ≤ 0x35 then reservedSystem v
    else if 0x39 ≤ v && v ≤ 0x3F then reservedSystem v
    else reserved v

/-- `SecurityMode`, crates/m-bus-core/src/lib.rs:575-593. -/
inductive SecurityMode where
  | noEncryption | manufacturerSpecific | desIvZero | desIvNonZero | specificUsage4
  | aesCbc128IvNonZero | reserved6 | aesCbc128IvZero | aesCtr128Cmac | aesGcm128 | aesCcm128
  | reserved11 | reserved12 | specificUsage13 | reserved14 | specificUsage15
  | reservedHigher (mode : UInt8)
  deriving DecidableEq, Repr, Inhabited

/-- `SecurityMode::from_bits`, crates/m-bus-core/src/lib.rs:597-617. -/
def SecurityMode.fromBits (mode : UInt8) : SecurityMode :=
  match mode &&& 0b00011111 with
  | 0 => noEncryption | 1 => manufacturerSpecific | 2 => desIvZero | 3 => desIvNonZero
  | 4 => specificUsage4 | 5 => aesCbc128IvNonZero | 6 => reserved6 | 7 => aesCbc128IvZero
  | 8 => aesCtr128Cmac | 9 => aesGcm128 | 10 => aesCcm128 | 11 => reserved11
  | 12 => reserved12 | 13 => specificUsage13 | 14 => reserved14 | 15 => specificUsage15
  | other => reservedHigher other

/-- `SecurityMode::to_bits`, crates/m-bus-core/src/lib.rs:620-640. -/
def SecurityMode.toBits : SecurityMode → UInt8
  | noEncryption => 0 | manufacturerSpecific => 1 | desIvZero => 2 | desIvNonZero => 3
  | specificUsage4 => 4 | aesCbc128IvNonZero => 5 | reserved6 => 6 | aesCbc128IvZero => 7
  | aesCtr128Cmac => 8 | aesGcm128 => 9 | aesCcm128 => 10 | reserved11 => 11
  | reserved12 => 12 | specificUsage13 => 13 | reserved14 => 14 | specificUsage15 => 15
  | reservedHigher mode => mode &&& 0b00011111

/-- `ConfigurationField`, crates/m-bus-core/src/lib.rs:686-688. -/
structure ConfigurationField where
  raw : UInt16
  deriving DecidableEq, Repr, Inhabited

namespace ConfigurationField

/-- `ConfigurationField::from_bytes`, crates/m-bus-core/src/lib.rs:696-700. -/
def fromBytes (lsb msb : UInt8) : ConfigurationField := ⟨u16le lsb msb⟩

/-- `ConfigurationField::security_mode`, crates/m-bus-core/src/lib.rs:711-714. -/
def securityMode (cf : ConfigurationField) : SecurityMode :=
  SecurityMode.fromBits ((cf.raw >>> 8) &&& 0b00011111).toUInt8

/-- `ConfigurationField::mode_specific_lower`, crates/m-bus-core/src/lib.rs:719-721. -/
def modeSpecificLower (cf : ConfigurationField) : UInt8 := (cf.raw &&& 0xFF).toUInt8

/-- `ConfigurationField::mode_specific_upper`, crates/m-bus-core/src/lib.rs:726-728. -/
def modeSpecificUpper (cf : ConfigurationField) : UInt8 := ((cf.raw >>> 13) &&& 0b00000111).toUInt8

end ConfigurationField

end MBus
