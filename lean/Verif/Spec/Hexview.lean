import Verif.Spec.Annotate
import Verif.Spec.Output
import Verif.Spec.Decryption
/-!
# Specification of the decrypted view of a telegram

The block cipher is a parameter `aes`: block decryption under a key.
-/
namespace MBus.Spec

/-- The four BCD bytes of a number, least significant first. -/
def bcdBytes (n : Nat) : List UInt8 :=
  [0, 1, 2, 3].map fun i => UInt8.ofNat (16 * (n / (10 * 100 ^ i) % 10) + n / 100 ^ i % 10)

/-- The initialisation vector of security mode 5 made of a meter's address and an access number. -/
def meterIv (code : ManufacturerCode) (n : Nat) (version : UInt8) (device : DeviceType)
    (acc : UInt8) : List UInt8 :=
  headerIv (UInt8.ofNat code.toId.toNat) (UInt8.ofNat (code.toId.toNat / 256)) (bcdBytes n) version
    device.toByte acc

/-- Cipher block chaining, decryption: every block is decrypted and combined with the one before
it. -/
def cbcPlain (aes : AesBlock) (key iv : List UInt8) (blocks : List (List UInt8)) : List UInt8 :=
  (List.zipWith (List.zipWith (· ^^^ ·)) (blocks.map (aes key)) (iv :: blocks)).flatten

/-- `plain` is the decryption of `data`; an incomplete last block is not encrypted. -/
def Deciphered (aes : AesBlock) (key iv data plain : List UInt8) : Prop :=
  data ≠ [] ∧ ∃ blocks tail, (∀ b ∈ blocks, b.length = 16) ∧ tail.length < 16 ∧
    data = blocks.flatten ++ tail ∧ plain = cbcPlain aes key iv blocks ++ tail

/-- The initialisation vector of a configuration field: security modes 7 and 5. -/
def ModeIv (cf : ConfigurationField) (meter iv : List UInt8) : Prop :=
  modeNumber cf = 7 ∧ iv = List.replicate 16 0 ∨ modeNumber cf = 5 ∧ iv = meter

/-- The variable data of a user data block decrypts to `plain` under the key of the meter.  The address
of the meter is in the long header, for a short header it is that of the link layer. -/
inductive Recovered (aes : AesBlock) (key : List UInt8) (link : Option ManufacturerId) :
    UserDataBlock → List UInt8 → Prop
  | long (ell : Option ExtendedLinkLayer) (h : LongTplHeader) (block : List UInt8)
      (code : ManufacturerCode) (iv plain : List UInt8) : h.manufacturer = .ok code →
      ModeIv h.short.configurationField (meterIv code h.identificationNumber h.version h.deviceType
        h.short.accessNumber) iv →
      Deciphered aes key iv block plain → Recovered aes key link (.long ell h block) plain
  | short (ell : Option ExtendedLinkLayer) (h : ShortTplHeader) (block : List UInt8)
      (id : ManufacturerId) (iv plain : List UInt8) : link = some id →
      ModeIv h.configurationField (meterIv id.manufacturerCode id.identificationNumber id.version
        id.deviceType h.accessNumber) iv →
      Deciphered aes key iv block plain → Recovered aes key link (.short ell h block) plain

/-- The variable data at the end of a block. -/
def variableData : UserDataBlock → List UInt8
  | .long _ _ block => block
  | .short _ _ block => block
  | .noTpl _ block => block
  | _ => []

/-- The same block with other variable data. -/
def withData (plain : List UInt8) : UserDataBlock → UserDataBlock
  | .long ell h _ => .long ell h plain
  | .short ell h _ => .short ell h plain
  | .noTpl ell _ => .noTpl ell plain
  | b => b

end MBus.Spec
