import Verif.Model.Output
/-!
# Model of the texts of the errors of the link layers and of decoding
-/
namespace MBus

/-- `Display` of `FrameError`, crates/m-bus-core/src/lib.rs:502-532. -/
def FrameError.message : FrameError → List Char
  | .emptyData => "Data is empty".toList
  | .invalidStartByte => "Invalid start byte".toList
  | .invalidStopByte => "Invalid stop byte".toList
  | .lengthShort => "Length mismatch".toList
  | .lengthShorterThanSix length => "Length is shorter than six: ".toList ++ natDisplay length
  | .wrongChecksum expected actual =>
    "Wrong checksum, expected: ".toList ++ natDisplay expected.toNat ++ ", actual: ".toList ++
      natDisplay actual.toNat
  | .invalidControlInformation byte => "Invalid control information: ".toList ++ natDisplay byte.toNat
  | .invalidFunction byte => "Invalid function: ".toList ++ natDisplay byte.toNat
  | .wrongLengthIndication => "Wrong length indication".toList
  | .wrongLength expected actual =>
    "Wrong length, expected: ".toList ++ natDisplay expected ++ ", actual: ".toList ++ natDisplay actual
  | .wrongCrc expected actual =>
    "Wrong CRC, expected: ".toList ++ natDisplay expected.toNat ++ ", actual: ".toList ++
      natDisplay actual.toNat

/-- The derived `Debug` of the wireless `FrameError`, crates/wireless-mbus-link-layer/src/lib.rs:161-167. -/
def WirelessFrameError.debug : WirelessFrameError → List Char
  | .emptyData => "EmptyData".toList
  | .tooShort => "TooShort".toList
  | .wrongLength expected actual =>
    "WrongLength { expected: ".toList ++ natDisplay expected ++ ", actual: ".toList ++ natDisplay actual ++
      " }".toList

/-- The derived `Debug` of `MbusError`, src/lib.rs:76-84, for the error of a wireless frame: what
`decode_bytes` puts into its error, src/output.rs:460-463. -/
def WirelessFrameError.wrapped (e : WirelessFrameError) : List Char :=
  "WirelessFrameError(".toList ++ e.debug ++ ")".toList

/-- The derived `Debug` of `SecurityMode`, crates/m-bus-core/src/lib.rs:571-593. -/
def SecurityMode.debug : SecurityMode → List Char
  | .noEncryption => "NoEncryption".toList
  | .manufacturerSpecific => "ManufacturerSpecific".toList
  | .desIvZero => "DesIvZero".toList
  | .desIvNonZero => "DesIvNonZero".toList
  | .specificUsage4 => "SpecificUsage4".toList
  | .aesCbc128IvNonZero => "AesCbc128IvNonZero".toList
  | .reserved6 => "Reserved6".toList
  | .aesCbc128IvZero => "AesCbc128IvZero".toList
  | .aesCtr128Cmac => "AesCtr128Cmac".toList
  | .aesGcm128 => "AesGcm128".toList
  | .aesCcm128 => "AesCcm128".toList
  | .reserved11 => "Reserved11".toList
  | .reserved12 => "Reserved12".toList
  | .specificUsage13 => "SpecificUsage13".toList
  | .reserved14 => "Reserved14".toList
  | .specificUsage15 => "SpecificUsage15".toList
  | .reservedHigher mode => "ReservedHigher(".toList ++ natDisplay mode.toNat ++ ")".toList

/-- `Display` of `DecryptionError`, crates/m-bus-core/src/decryption.rs:32-46. -/
def DecryptionError.message : DecryptionError → List Char
  | .unsupportedMode mode => "Unsupported security mode: ".toList ++ mode.debug
  | .keyNotFound => "Decryption key not found".toList
  | .decryptionFailed => "Decryption operation failed".toList
  | .invalidKeyLength => "Invalid key length".toList
  | .invalidDataLength => "Invalid data length".toList
  | .notEncrypted => "Data is not encrypted".toList
  | .unknownEncryptionState => "Unknown encryption state for this data block type".toList

/-- `Display` of `OutputError`, src/output.rs:184-212, for the errors of `decode_bytes`; the messages of
refused keys are those of src/output.rs:659-686.  Simplification: the error for a length the decryption
returns that is longer than the buffer, which cannot occur, has the text of a failed decryption. -/
def OutputError.message : OutputError → List Char
  | .emptyInput => "input must not be empty".toList
  | .invalidFrame wired wireless =>
    "data is not a valid wired or wireless M-Bus frame (wired: ".toList ++ wired.message ++
      "; wireless: ".toList ++ wireless.wrapped ++ ")".toList
  | .security .unsupportedEll =>
    "decryption was requested for an ELL-protected payload, which is not currently supported".toList
  | .security (.decryption _ e) => e.message

end MBus
