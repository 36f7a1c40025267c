import Verif.Spec.Output
import Verif.Spec.Aes
import Verif.Spec.Decryption
/-!
# Telegrams that carry given data, encrypted or not
-/
namespace MBus.Spec

/-- The bytes of a short transport header, with access number, status and configuration field, also below extended link
layers of type I. -/
inductive ShortHeader (acc st c0 c1 : UInt8) : List UInt8 → Prop
  | short (ci : UInt8) : isShortCi ci → ShortHeader acc st c0 c1 [ci, acc, st, c0, c1]
  | shortA0 (x : UInt8) : ShortHeader acc st c0 c1 [0xA0, x, acc, st, c0, c1]
  | ellI (cc a : UInt8) (header : List UInt8) : ShortHeader acc st c0 c1 header →
      ShortHeader acc st c0 c1 ([0x8C, cc, a] ++ header)

/-- The telegram carries the data `d`, all blocks of which the meter encrypted with AES-128 under `key` in mode 5 or 7. -/
inductive SealedData (key data : List UInt8) : List UInt8 → Prop
  | long (i0 i1 i2 i3 m0 m1 version device acc st c0 c1 : UInt8) (code : ManufacturerCode) (iv : List UInt8)
      (blocks : List (List UInt8)) (tail : List UInt8) (link : Option ManufacturerId) :
      AllBcd [i0, i1, i2, i3] → ManufacturerCode.fromId (le16 m0 m1) = .ok code →
      CbcIv (c1.toNat % 32) m0 m1 [i0, i1, i2, i3] version device acc iv →
      (∀ b ∈ blocks, b.length = 16) → blocks ≠ [] → tail.length < 16 →
      Telegram data link ([0x72, i0, i1, i2, i3, m0, m1, version, device, acc, st, c0, c1] ++
        (cbcEncrypt Aes.encrypt key iv blocks ++ tail)) →
      SealedData key data (blocks.flatten ++ tail)
  | short (header : List UInt8) (acc st c0 c1 m0 m1 d0 d1 d2 d3 device : UInt8) (link : ManufacturerId) (iv : List UInt8)
      (blocks : List (List UInt8)) (tail : List UInt8) :
      ShortHeader acc st c0 c1 header → AllBcd [d0, d1, d2, d3] →
      ManufacturerCode.fromId (le16 m0 m1) = .ok link.manufacturerCode →
      link.identificationNumber = bcdValue [d0, d1, d2, d3] → link.deviceType = DeviceType.fromByte device →
      CbcIv (c1.toNat % 32) m0 m1 [d0, d1, d2, d3] link.version device acc iv →
      (∀ b ∈ blocks, b.length = 16) → blocks ≠ [] → tail.length < 16 →
      Telegram data (some link) (header ++ (cbcEncrypt Aes.encrypt key iv blocks ++ tail)) →
      SealedData key data (blocks.flatten ++ tail)

/-- The telegram carries the data `d`, in the clear or encrypted under `key`. -/
inductive CarriesData (key data d : List UInt8) : Prop
  | clear (link : Option ManufacturerId) (payload : List UInt8) : Telegram data link payload → ClearData payload d →
      CarriesData key data d
  | sealed : SealedData key data d → CarriesData key data d

end MBus.Spec
