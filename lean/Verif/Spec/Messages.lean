import Verif.Spec.Tooltip
import Verif.Spec.Output
import Verif.Spec.Formats
/-!
# Specification of the messages of errors

Which defect of a byte string a message claims.
-/
namespace MBus.Spec

/-- `WiredDefect data message`: the message names a defect that the byte string has as a wired telegram. -/
inductive WiredDefect (data : List UInt8) : List Char → Prop
  /-- no telegram begins with this byte -/
  | start (b : UInt8) : data.head? = some b → b ≠ 0x10 → b ≠ 0x68 → b ≠ 0xE5 →
      WiredDefect data "Invalid start byte".toList
  /-- the last byte but one is not the sum of the bytes from the C field up to it -/
  | sum (head body : List UInt8) (sent stop : UInt8) : data = head ++ body ++ [sent, stop] →
      (head = [0x10] ∨ ∃ l l' x, head = [0x68, l, l', x]) → sent ≠ checksum body →
      WiredDefect data ("Wrong checksum, expected: ".toList ++ decimalDigits sent.toNat ++ ", actual: ".toList ++
        decimalDigits (checksum body).toNat)
  /-- the two length fields differ, or the telegram does not have the length they give -/
  | lengths (l l' : UInt8) (rest : List UInt8) : data = 0x68 :: l :: l' :: rest →
      (l ≠ l' ∨ rest.length ≠ l.toNat + 3) → WiredDefect data "Wrong length indication".toList
  /-- the last byte is not the stop byte -/
  | stop (b : UInt8) : data.getLast? = some b → b ≠ 0x16 → WiredDefect data "Invalid stop byte".toList
  /-- the C field is none of those known -/
  | code (c : UInt8) (head rest : List UInt8) : data = head ++ c :: rest →
      (head = [0x10] ∧ rest.length = 3 ∨ (∃ l x, head = [0x68, l, l, x] ∧ rest.length = l.toNat + 1 ∧ 0 < l.toNat)) →
      (∀ fn, ¬ FunctionCode c fn) →
      WiredDefect data ("Invalid function: ".toList ++ decimalDigits c.toNat)
  /-- no telegram with this start byte has this length -/
  | short : (∀ f, ¬ WiredTelegram data f) →
      (∀ other f, WiredTelegram other f → other.head? = data.head? → other.length ≠ data.length) →
      WiredDefect data "Length mismatch".toList

/-- `WirelessDefect frame message`: the message names a defect that the byte string has as a wireless frame. -/
inductive WirelessDefect (frame : List UInt8) : List Char → Prop
  /-- there is no room for the L, C, manufacturer, identification, version, device type and CI fields -/
  | short : frame.length < 11 → WirelessDefect frame "TooShort".toList
  /-- the L field is not the number of bytes after it; the lengths include the L field -/
  | length (l : UInt8) (rest : List UInt8) : frame = l :: rest → l.toNat ≠ rest.length →
      WirelessDefect frame ("WrongLength { expected: ".toList ++ decimalDigits (l.toNat + 1) ++
        ", actual: ".toList ++ decimalDigits (rest.length + 1) ++ " }".toList)

/-- The names of the modes of EN 13757-7 in messages. -/
def modeNames : List String :=
  ["NoEncryption", "ManufacturerSpecific", "DesIvZero", "DesIvNonZero", "SpecificUsage4",
   "AesCbc128IvNonZero", "Reserved6", "AesCbc128IvZero", "AesCtr128Cmac", "AesGcm128", "AesCcm128",
   "Reserved11", "Reserved12", "SpecificUsage13", "Reserved14", "SpecificUsage15"]

/-- The name of a mode in messages: its number where the standard has no meaning for it. -/
def modeName (n : Nat) : List Char :=
  match modeNames[n]? with
  | some name => name.toList
  | none => "ReservedHigher(".toList ++ decimalDigits n ++ ")".toList

/-- The configuration field of the transport header of a block. -/
def configurationOf : UserDataBlock → Option ConfigurationField
  | .long _ header _ => some header.short.configurationField
  | .short _ header _ => some header.configurationField
  | _ => none

end MBus.Spec
