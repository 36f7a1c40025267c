import Verif.Model.Core
/-!
# Specification for identifiers: manufacturer codes and BCD numbers
-/
namespace MBus.Spec

/-- A manufacturer code made of the `i`-th, `j`-th and `k`-th letters of the alphabet (1-based). -/
def letters (i j k : Nat) : ManufacturerCode :=
  ⟨UInt8.ofNat (64 + i), UInt8.ofNat (64 + j), UInt8.ofNat (64 + k)⟩

/-- `i` is a letter of the alphabet. -/
def IsLetter (i : Nat) : Prop := 1 ≤ i ∧ i ≤ 26

/-- The FLAG manufacturer id of EN 13757-3: 5 bits per letter. -/
def flagId (i j k : Nat) : Nat := i * 1024 + j * 32 + k

/-- Low and high decimal digit of a BCD byte. -/
def lo (b : UInt8) : Nat := b.toNat % 16
def hi (b : UInt8) : Nat := b.toNat / 16

/-- Both nibbles are decimal digits. -/
def IsBcd (b : UInt8) : Prop := lo b ≤ 9 ∧ hi b ≤ 9

instance (b : UInt8) : Decidable (IsBcd b) := by unfold IsBcd; infer_instance

/-- The number spelled by BCD bytes, least significant byte first. -/
def bcdValue : List UInt8 → Nat
  | [] => 0
  | b :: rest => lo b + 10 * hi b + 100 * bcdValue rest

/-- Device types of EN 13757-7 (table "device type identification") in code order from 0; an entry
`none` is a reserved code. -/
def deviceTypes : List (Option DeviceType) :=
  [ some .other, some .oilMeter, some .electricityMeter, some .gasMeter,                -- 00
    some .heatMeterReturn, some .steamMeter, some .warmWaterMeter, some .waterMeter,
    some .heatCostAllocator, some .compressedAir, some .coolingMeterReturn,              -- 08
    some .coolingMeterFlow, some .heatMeterFlow, some .combinedHeatCoolingMeter,
    some .busSystemComponent, some .unknownDevice,
    some .irrigationWaterMeter, some .waterDataLogger, some .gasDataLogger,              -- 10
    some .gasConverter, some .calorificValue, some .hotWaterMeter, some .coldWaterMeter,
    some .dualRegisterWaterMeter, some .pressureMeter, some .adConverter,                -- 18
    some .smokeDetector, some .roomSensor, some .gasDetector, none, none, none,
    some .electricityBreaker, some .valve, none, none, none, some .customerUnit,         -- 20
    none, none, some .wasteWaterMeter, some .garbage, some .reservedCO2,
    none, none, none, none, none,
    some .serviceTool, some .communicationController, some .unidirectionalRepeater,      -- 30
    some .bidirectionalRepeater, none, none, some .radioConverterSystemSide,
    some .radioConverterMeterSide, some .busConverterMeterSide ]

/-- Names of the security modes of EN 13757-7 in numerical order from 0. -/
def securityModes : List SecurityMode :=
  [.noEncryption, .manufacturerSpecific, .desIvZero, .desIvNonZero, .specificUsage4,
   .aesCbc128IvNonZero, .reserved6, .aesCbc128IvZero, .aesCtr128Cmac, .aesGcm128, .aesCcm128,
   .reserved11, .reserved12, .specificUsage13, .reserved14, .specificUsage15]

end MBus.Spec
