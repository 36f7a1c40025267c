import Verif.Spec.Annotate
import Verif.Spec.Hex
import Verif.Spec.Wired
/-!
# Specification of the text of an annotation

What the text of a segment has to say about the bytes the segment marks, for every kind of segment.
-/
namespace MBus.Spec

/-- Bytes in hexadecimal, two upper case digits each. -/
def hexBytes (bytes : List UInt8) : List Char := bytes.flatMap (hexPair true)

/-- A number in decimal digits. -/
def decimalDigits (n : Nat) : List Char := Nat.toDigits 10 n

/-- The segment names its one byte, after the given words, in hexadecimal. -/
def OneHex (words : String) (bytes : List UInt8) (text : List Char) : Prop :=
  ∃ b, bytes = [b] ∧ text = words.toList ++ hexBytes [b]

/-- The segment names its one byte, after the given words, in decimal. -/
def OneDecimal (words : String) (bytes : List UInt8) (text : List Char) : Prop :=
  ∃ b, bytes = [b] ∧ text = words.toList ++ decimalDigits b.toNat

/-- The segment names its two bytes, after the given words, in hexadecimal. -/
def TwoHex (words : String) (bytes : List UInt8) (text : List Char) : Prop :=
  ∃ a b, bytes = [a, b] ∧ text = words.toList ++ hexBytes [a, b]

/-- The names of the control fields of EN 13757-2: the message, with the frame count bit of a master
and the access demand and data flow control bits of a slave. -/
def messageTexts : List (UInt8 × String) :=
  [(0x40, "SND_NKE (PRM: false)"), (0x44, "SND_NR"),
   (0x53, "SND_UD (FCB: false)"), (0x73, "SND_UD (FCB: true)"),
   (0x5A, "REQ_UD1 (FCB: false)"), (0x7A, "REQ_UD1 (FCB: true)"),
   (0x5B, "REQ_UD2 (FCB: false)"), (0x7B, "REQ_UD2 (FCB: true)"),
   (0x08, "RSP_UD (ACD: false, DFC: false)"), (0x18, "RSP_UD (ACD: false, DFC: true)"),
   (0x28, "RSP_UD (ACD: true, DFC: false)"), (0x38, "RSP_UD (ACD: true, DFC: true)")]

/-- The text of an address field: its class, and the number of a primary address. -/
def addressText (a : UInt8) : List Char :=
  if a.toNat = 0 then "Uninitalized".toList
  else if a.toNat < 253 then "Primary (".toList ++ decimalDigits a.toNat ++ [')']
  else if a.toNat = 253 then "Secondary".toList
  else if a.toNat = 254 then "Broadcast (Reply Required: true)".toList
  else "Broadcast (Reply Required: false)".toList

/-- The text says what the marked bytes are.  Nothing is asked of the segments whose text does not
speak of their bytes: extended link layers, encrypted and unknown bytes; the text of data payloads is a
matter of the value. -/
def Describes (bytes : List UInt8) (text : List Char) : SegmentKind → Prop
  | .startByte => OneHex "Start: 0x" bytes text ∨ OneHex "Single Character: 0x" bytes text ∨
      ∃ b, bytes = [b] ∧ text = "Start: 0x".toList ++ hexBytes [b] ++ " (repeated)".toList
  | .stopByte => OneHex "Stop: 0x" bytes text
  | .length => ∃ b, bytes = [b, b] ∧ text = "Length: ".toList ++ decimalDigits b.toNat ++ " (repeated)".toList
  | .cField => OneHex "C Field: 0x" bytes text ∨
      ∃ b name note, bytes = [b] ∧ (b, name) ∈ messageTexts ∧ (note = "" ∨ note = " (Control)") ∧
        text = "C Field: ".toList ++ name.toList ++ note.toList
  | .aField => ∃ b, bytes = [b] ∧ text = "Address: ".toList ++ addressText b
  | .checksum => OneHex "Checksum: 0x" bytes text
  | .crc => TwoHex "CRC: 0x" bytes text
  | .ciField => ∃ b more, bytes = [b] ∧ text = "CI: 0x".toList ++ hexBytes [b] ++ more
  | .identificationNumber => bytes.length = 4 ∧ text = "ID: ".toList ++ hexBytes bytes
  | .manufacturerCode => TwoHex "Manufacturer: 0x" bytes text
  | .version => OneDecimal "Version: " bytes text
  | .deviceType => OneHex "Device Type: 0x" bytes text
  | .accessNumber => OneDecimal "Access Number: " bytes text
  | .status => OneHex "Status: 0x" bytes text
  | .configurationField => TwoHex "Configuration: 0x" bytes text
  | .encryptionConfigByte => OneHex "Encryption config: 0x" bytes text
  | .lField => OneDecimal "L Field: " bytes text
  | .dif => OneHex "DIF: 0x" bytes text
  | .vif => OneHex "VIF: 0x" bytes text
  | .dife => text = "DIFE: ".toList ++ decimalDigits bytes.length ++ " byte(s)".toList
  | .vife => text = "VIFE: ".toList ++ decimalDigits bytes.length ++ " byte(s)".toList
  -- characters are sent last one first, after their number
  | .plaintextVif => ∃ n chars, bytes = n :: chars ∧
      text = "Plaintext VIF: \"".toList ++ (chars.reverse.map fun b => Char.ofNat b.toNat) ++ ['"']
  | .manufacturerSpecific => ∃ name b rest, bytes = b :: rest ∧
      ((b = 0x0F ∧ name = "Manufacturer Specific") ∨ (b = 0x1F ∧ name = "More Records Follow")) ∧
      text = name.toList ++ ": 0x".toList ++ hexBytes [b] ++ " (".toList ++ decimalDigits bytes.length ++
        " bytes)".toList
  | .idleFiller => bytes = [0x2F] ∧ text = "Idle Filler: 0x2F".toList
  | .wirelessManufacturerId => False
  | .dataPayload | .extendedLinkLayer | .encryptedPayload | .unknown => True

/-- The bytes a segment marks. -/
def markedBytes (data : List UInt8) (s : ByteSegment) : List UInt8 :=
  (data.drop s.start).take (s.stop - s.start)

/-- The text of the segment says what the bytes are that it marks. -/
def Told (data : List UInt8) (s : ByteSegment) : Prop := Describes (markedBytes data s) s.detail s.kind

/-- What the text of a plain text unit says instead: the characters in the order they are sent, that is
backwards. -/
def TextAsSent (data : List UInt8) (s : ByteSegment) : Prop :=
  s.kind = .plaintextVif ∧ ∃ n chars, markedBytes data s = n :: chars ∧
    s.detail = "Plaintext VIF: \"".toList ++ (chars.map fun b => Char.ofNat b.toNat) ++ ['"']

end MBus.Spec
