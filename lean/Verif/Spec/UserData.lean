import Verif.Spec.Core
import Verif.Model.MbusData
/-!
# Specification of the user data block (EN 13757-3 / EN 13757-7)

`Block data blk` says that the byte string `data` is a user data block with contents `blk`, layout by
layout; `Rejected data e` lists the byte strings that are none, with the error they are reported as.
-/
namespace MBus.Spec

/-- A 16 bit number, least significant byte first. -/
def le16 (lo hi : UInt8) : UInt16 := UInt16.ofNat (lo.toNat + 256 * hi.toNat)

/-- CI field of a response with a long transport header: 76 announces the reversed byte order. -/
def longCi (reversed : Bool) : UInt8 := if reversed then 0x76 else 0x72

/-- Identification bytes in the order least significant first. -/
def idBytes (reversed : Bool) (i0 i1 i2 i3 : UInt8) : List UInt8 :=
  if reversed then [i3, i2, i1, i0] else [i0, i1, i2, i3]

/-- The four bytes are BCD. -/
def AllBcd (l : List UInt8) : Prop := ∀ b ∈ l, IsBcd b

instance (l : List UInt8) : Decidable (AllBcd l) := inferInstanceAs (Decidable (∀ b ∈ l, IsBcd b))

/-- `n` is spelled by the BCD bytes above the most significant byte that is not BCD. -/
def bcdPrefix (l : List UInt8) (n : Nat) : Prop :=
  ∃ low bad high, l = low ++ bad :: high ∧ ¬ IsBcd bad ∧ AllBcd high ∧ n = bcdValue high

/-- CI field of a short transport header directly following it. -/
def isShortCi (ci : UInt8) : Prop := ci = 0x7A ∨ (0xA1 ≤ ci.toNat ∧ ci.toNat ≤ 0xAF)

instance (ci : UInt8) : Decidable (isShortCi ci) := by unfold isShortCi; infer_instance

/-- The same user data under an extended link layer; only records with a short or no transport
header can follow one. -/
def withEll (ell : ExtendedLinkLayer) : UserDataBlock → Option UserDataBlock
  | .short _ h block => some (.short (some ell) h block)
  | .noTpl _ block => some (.noTpl (some ell) block)
  | _ => none

/-- Subcodes of an application reset by the low four bits. -/
def resetSubcodes : List (UInt8 → ApplicationResetSubcode) :=
  [.all, .userData, .simpleBilling, .enhancedBilling, .multiTariffBilling, .instantaneousValues,
   .loadManagementValues, .reserved1, .installationStartup, .testing, .calibration,
   .configurationUpdates, .manufacturing, .development, .selftest, .reserved2]

/-- `data` is a user data block containing `blk`. -/
inductive Block : List UInt8 → UserDataBlock → Prop
  /-- application reset: CI, subcode -/
  | reset (b : UInt8) (rest : List UInt8) (mk : UInt8 → ApplicationResetSubcode) :
      resetSubcodes[b.toNat % 16]? = some mk → Block (0x50 :: b :: rest) (.reset (mk b))
  /-- fixed data structure: id, access number, status, medium and unit, two counters -/
  | fixed (ci i0 i1 i2 i3 acc st u0 u1 a0 a1 a2 a3 b0 b1 b2 b3 : UInt8) (rest : List UInt8) :
      ci = 0x73 ∨ ci = 0x77 → AllBcd [i0, i1, i2, i3] → AllBcd [a0, a1, a2, a3] →
      AllBcd [b0, b1, b2, b3] →
      Block ([ci, i0, i1, i2, i3, acc, st, u0, u1, a0, a1, a2, a3, b0, b1, b2, b3] ++ rest)
        (.fixed (bcdValue [i0, i1, i2, i3]) acc st (le16 u1 u0) (bcdValue [a0, a1, a2, a3])
          (bcdValue [b0, b1, b2, b3]))
  /-- long transport header: id, manufacturer, version, device type, access number, status,
  configuration -/
  | long (reversed : Bool) (i0 i1 i2 i3 m0 m1 version device acc st c0 c1 : UInt8)
      (block : List UInt8) :
      AllBcd [i0, i1, i2, i3] →
      Block ([longCi reversed, i0, i1, i2, i3, m0, m1, version, device, acc, st, c0, c1] ++ block)
        (.long none
          { identificationNumber := bcdValue (idBytes reversed i0 i1 i2 i3)
            manufacturer := ManufacturerCode.fromId (le16 m0 m1)
            version := version
            deviceType := DeviceType.fromByte device
            short := ⟨acc, st, ⟨le16 c0 c1⟩⟩
            lsbOrder := reversed } block)
  /-- short transport header: access number, status, configuration -/
  | short (ci acc st c0 c1 : UInt8) (block : List UInt8) : isShortCi ci →
      Block ([ci, acc, st, c0, c1] ++ block) (.short none ⟨acc, st, ⟨le16 c0 c1⟩⟩ block)
  /-- short transport header after CI A0 and one further byte -/
  | shortA0 (x acc st c0 c1 : UInt8) (block : List UInt8) :
      Block ([0xA0, x, acc, st, c0, c1] ++ block) (.short none ⟨acc, st, ⟨le16 c0 c1⟩⟩ block)
  /-- no transport header -/
  | noTpl (block : List UInt8) : Block ([0x78] ++ block) (.noTpl none block)
  /-- extended link layer I: communication control, access number, then another block -/
  | ellI (cc acc : UInt8) (inner : List UInt8) (blk blk' : UserDataBlock) :
      Block inner blk → withEll ⟨cc, acc, none, none⟩ blk = some blk' →
      Block ([0x8C, cc, acc] ++ inner) blk'
  /-- extended link layer II: also session number and payload CRC -/
  | ellII (cc acc s0 s1 s2 s3 r0 r1 : UInt8) (block : List UInt8) :
      Block ([0x8D, cc, acc, s0, s1, s2, s3, r0, r1] ++ block)
        (.short (some ⟨cc, acc, none, some ⟨[s0, s1, s2, s3], le16 r0 r1⟩⟩) ⟨acc, cc, ⟨0⟩⟩ block)
  /-- extended link layer III: also the receiver's manufacturer and address -/
  | ellIII (cc acc m0 m1 a0 a1 a2 a3 a4 a5 s0 s1 s2 s3 r0 r1 : UInt8) (block : List UInt8) :
      Block ([0x8E, cc, acc, m0, m1, a0, a1, a2, a3, a4, a5, s0, s1, s2, s3, r0, r1] ++ block)
        (.short (some ⟨cc, acc, some ⟨le16 m0 m1, [a0, a1, a2, a3, a4, a5]⟩,
          some ⟨[s0, s1, s2, s3], le16 r0 r1⟩⟩) ⟨acc, cc, ⟨0⟩⟩ block)

/-- CI fields the library knows but does not decode, with the feature named in the error. -/
def undecoded : List (UInt8 × String) :=
  [ (0x51, "SendData"),
    (0x52, "SelectSlave"),
    (0x54, "SynchronizeSlave"),
    (0x5A, "DataSentWithShortTransportLayer"),
    (0x5B, "DataSentWithLongTransportLayer"),
    (0x60, "CosemDataWithLongTransportLayer"),
    (0x61, "CosemDataWithShortTransportLayer"),
    (0x64, "ObisDataReservedLongTransportLayer"),
    (0x65, "ObisDataReservedShortTransportLayer"),
    (0x69, "ApplicationLayerFormatFrameNoTransport"),
    (0x6A, "ApplicationLayerFormatFrameShortTransport"),
    (0x6B, "ApplicationLayerFormatFrameLongTransport"),
    (0x6C, "ClockSyncAbsolute"),
    (0x6D, "ClockSyncRelative"),
    (0x6E, "ApplicationErrorShortTransport"),
    (0x6F, "ApplicationErrorLongTransport"),
    (0x70, "SendErrorStatus"),
    (0x71, "SendAlarmStatus"),
    (0x74, "AlarmShortTransport"),
    (0x75, "AlarmLongTransport"),
    (0x79, "ApplicationLayerCompactFrameNoTransport"),
    (0x7B, "ApplicationLayerCompactFrameShortTransport"),
    (0x7C, "CosemApplicationLayerLongTransport"),
    (0x7D, "CosemApplicationLayerShortTransport"),
    (0x7E, "ObisApplicationLayerReservedLongTransport"),
    (0x7F, "ObisApplicationLayerReservedShortTransport"),
    (0x80, "TransportLayerLongReadoutToMeter"),
    (0x81, "NetworkLayerData"),
    (0x82, "FutureUse"),
    (0x83, "NetworkManagementApplication"),
    (0x84, "TransportLayerCompactFrame"),
    (0x85, "TransportLayerFormatFrame"),
    (0x89, "NetworkManagementDataReserved"),
    (0x8A, "TransportLayerShortMeterToReadout"),
    (0x8B, "TransportLayerLongMeterToReadout"),
    (0x90, "HashProcedure"),
    (0x91, "HashProcedure"),
    (0x92, "HashProcedure"),
    (0x93, "HashProcedure"),
    (0x94, "HashProcedure"),
    (0x95, "HashProcedure"),
    (0x96, "HashProcedure"),
    (0x97, "HashProcedure"),
    (0xB1, "OutputRAMContent"),
    (0xB2, "WriteRAMContent"),
    (0xB3, "StartCalibrationTestMode"),
    (0xB4, "ReadEEPROM"),
    (0xB6, "StartSoftwareTest"),
    (0xB8, "SetBaudRate300"),
    (0xB9, "SetBaudRate600"),
    (0xBA, "SetBaudRate1200"),
    (0xBB, "SetBaudRate2400"),
    (0xBC, "SetBaudRate4800"),
    (0xBD, "SetBaudRate9600"),
    (0xBE, "SetBaudRate19200"),
    (0xBF, "SetBaudRate38400") ]

/-- CI fields the library decodes. -/
def isDecoded (ci : UInt8) : Prop :=
  ci ∈ [0x50, 0x72, 0x76, 0x73, 0x77, 0x78, 0x7A, 0x8C, 0x8D, 0x8E] ∨
    (0xA0 ≤ ci.toNat ∧ ci.toNat ≤ 0xAF)

instance (ci : UInt8) : Decidable (isDecoded ci) := by unfold isDecoded; infer_instance

/-- Bytes, including the CI field, up to the end of the header, or of its first BCD field. -/
def minLength (ci : UInt8) : Nat :=
  if ci = 0x50 then 2 else if ci = 0x8C then 3 else if ci = 0x8D then 9 else if ci = 0x8E then 17
  else if ci = 0xA0 then 6 else if ci = 0x78 then 1 else 5

/-- `data` is rejected with error `e`. -/
inductive Rejected : List UInt8 → AppError → Prop
  | empty : Rejected [] .missingControlInformation
  | unknown (ci : UInt8) (rest : List UInt8) : ¬ isDecoded ci → (∀ f, (ci, f) ∉ undecoded) →
      Rejected (ci :: rest) (.invalidControlInformation ci)
  | undecoded (ci : UInt8) (f : String) (rest : List UInt8) : (ci, f) ∈ undecoded →
      Rejected (ci :: rest) (.unimplemented f)
  | truncated (ci : UInt8) (rest : List UInt8) : isDecoded ci → rest.length + 1 < minLength ci →
      Rejected (ci :: rest) .insufficientData
  | longId (reversed : Bool) (i0 i1 i2 i3 : UInt8) (rest : List UInt8) (n : Nat) (e : AppError) :
      ¬ AllBcd [i0, i1, i2, i3] →
      e = (if reversed then .identificationNumberError i3 i2 i1 i0 n
        else .identificationNumberError i0 i1 i2 i3 n) →
      bcdPrefix (idBytes reversed i0 i1 i2 i3) n →
      Rejected ([longCi reversed, i0, i1, i2, i3] ++ rest) e
  | longTruncated (reversed : Bool) (i0 i1 i2 i3 : UInt8) (rest : List UInt8) :
      AllBcd [i0, i1, i2, i3] → rest.length < 8 →
      Rejected ([longCi reversed, i0, i1, i2, i3] ++ rest) .insufficientData
  | fixedId (ci i0 i1 i2 i3 : UInt8) (rest : List UInt8) (n : Nat) : ci = 0x73 ∨ ci = 0x77 →
      ¬ AllBcd [i0, i1, i2, i3] → bcdPrefix [i0, i1, i2, i3] n →
      Rejected ([ci, i0, i1, i2, i3] ++ rest) (.identificationNumberError i0 i1 i2 i3 n)
  | fixedTruncated1 (ci i0 i1 i2 i3 : UInt8) (rest : List UInt8) : ci = 0x73 ∨ ci = 0x77 →
      AllBcd [i0, i1, i2, i3] → rest.length < 8 →
      Rejected ([ci, i0, i1, i2, i3] ++ rest) .insufficientData
  | fixedCounter1 (ci i0 i1 i2 i3 x0 x1 x2 x3 a0 a1 a2 a3 : UInt8) (rest : List UInt8) (n : Nat) :
      ci = 0x73 ∨ ci = 0x77 → AllBcd [i0, i1, i2, i3] → ¬ AllBcd [a0, a1, a2, a3] →
      bcdPrefix [a0, a1, a2, a3] n →
      Rejected ([ci, i0, i1, i2, i3, x0, x1, x2, x3, a0, a1, a2, a3] ++ rest)
        (.identificationNumberError a0 a1 a2 a3 n)
  | fixedTruncated2 (ci i0 i1 i2 i3 x0 x1 x2 x3 a0 a1 a2 a3 : UInt8) (rest : List UInt8) :
      ci = 0x73 ∨ ci = 0x77 → AllBcd [i0, i1, i2, i3] → AllBcd [a0, a1, a2, a3] →
      rest.length < 4 →
      Rejected ([ci, i0, i1, i2, i3, x0, x1, x2, x3, a0, a1, a2, a3] ++ rest) .insufficientData
  | fixedCounter2 (ci i0 i1 i2 i3 x0 x1 x2 x3 a0 a1 a2 a3 b0 b1 b2 b3 : UInt8)
      (rest : List UInt8) (n : Nat) :
      ci = 0x73 ∨ ci = 0x77 → AllBcd [i0, i1, i2, i3] → AllBcd [a0, a1, a2, a3] →
      ¬ AllBcd [b0, b1, b2, b3] → bcdPrefix [b0, b1, b2, b3] n →
      Rejected ([ci, i0, i1, i2, i3, x0, x1, x2, x3, a0, a1, a2, a3, b0, b1, b2, b3] ++ rest)
        (.identificationNumberError b0 b1 b2 b3 n)
  /-- whatever follows an extended link layer I and cannot stand there is reported as missing -/
  | ellI (cc acc : UInt8) (inner : List UInt8) :
      (∀ blk, Block inner blk → withEll ⟨cc, acc, none, none⟩ blk = none) →
      Rejected ([0x8C, cc, acc] ++ inner) .missingControlInformation

/-- Bytes of the extended link layers I, II and III after the CI field. -/
def ellSize : EllFormat → Nat
  | .formatI => 2 | .formatII => 8 | .formatIII => 16

/-- A chain of extended link layers I, each given by its communication control and access number. -/
def ellChain (hs : List (UInt8 × UInt8)) : List UInt8 := hs.flatMap fun h => [0x8C, h.1, h.2]

/-- The security mode number of a configuration field: the low five bits of its high byte. -/
def modeNumber (cf : ConfigurationField) : Nat := cf.raw.toNat / 256 % 32

/-- A block that is neither encrypted nor in the reversed byte order. -/
def PlainBlock : UserDataBlock → Prop
  | .long _ h _ => modeNumber h.short.configurationField = 0 ∧ h.lsbOrder = false
  | .short _ h _ => modeNumber h.configurationField = 0
  | _ => True

/-- Names of the status flags from bit 0 to bit 7. -/
def statusNames : List String :=
  ["Counter binary signed", "Counter fixed date", "Power low", "Permanent error", "Temporary error",
   "Manufacturer specific 1", "Manufacturer specific 2", "Manufacturer specific 3"]

/-- The names of the flags set in a status byte. -/
def setFlags (status : UInt8) : List String :=
  ((List.range 8).filter fun i => status.toNat / 2 ^ i % 2 = 1).filterMap fun i => statusNames[i]?

/-- `words` separated by commas. -/
def commaSeparated (words : List String) : List Char :=
  [',', ' '].intercalate (words.map String.toList)

/-- The mode 5 initialisation vector of EN 13757-7: address field, then the access number eight
times. -/
def headerIv (m0 m1 : UInt8) (ident : List UInt8) (version device acc : UInt8) : List UInt8 :=
  [m0, m1] ++ ident ++ [version, device] ++ List.replicate 8 acc

end MBus.Spec
