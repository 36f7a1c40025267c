import Verif.Spec.Crc
import Verif.Spec.Core
import Verif.Spec.Wired
import Verif.Model.Wireless
/-!
# Specification of wireless M-Bus link frames (EN 13757-4)

Independent of the parser: it only uses the result *types* of the model.
-/
namespace MBus.Spec

/-- The payload of a wireless frame whose first ten bytes are `head` and whose remaining bytes are
`body`: a final CRC over everything before it is removed, if there is one. -/
inductive WirelessPayload (head body : List UInt8) : List UInt8 → Prop
  | crc (payload : List UInt8) (hi lo : UInt8) (hb : body = payload ++ [hi, lo])
      (hc : CrcOk (head ++ payload) hi lo) : WirelessPayload head body payload
  | plain (h : ∀ payload hi lo, body = payload ++ [hi, lo] → ¬ CrcOk (head ++ payload) hi lo) :
      WirelessPayload head body body

/-- The byte naming the device type: with a CI field in `A0`..`AF` only its high nibble counts. -/
def deviceByte (ci dev : UInt8) : UInt8 :=
  if 0xA0 ≤ ci.toNat ∧ ci.toNat ≤ 0xAF then UInt8.ofNat (hi dev) else dev

/-- `WirelessTelegram bytes frame`: the byte string `L C M M ID ID ID ID Ver Dev CI ...` with L one
less than its length is a wireless frame with the content `frame`. -/
inductive WirelessTelegram : List UInt8 → WirelessFrame → Prop
  | mk (l c m0 m1 d0 d1 d2 d3 ver dev ci : UInt8) (rest payload : List UInt8) (i j k : Nat)
      (fn : Option Function)
      (hl : l.toNat = 10 + rest.length)
      (hfn : ∀ g, fn = some g ↔ FunctionCode c g)
      (hi : IsLetter i) (hj : IsLetter j) (hk : IsLetter k)
      (hm : m0.toNat + 256 * m1.toNat = flagId i j k)
      (hbcd : IsBcd d0 ∧ IsBcd d1 ∧ IsBcd d2 ∧ IsBcd d3)
      (hp : WirelessPayload [l, c, m0, m1, d0, d1, d2, d3, ver, dev] (ci :: rest) payload) :
      WirelessTelegram (l :: c :: m0 :: m1 :: d0 :: d1 :: d2 :: d3 :: ver :: dev :: ci :: rest)
        ⟨c, fn, ⟨letters i j k, bcdValue [d0, d1, d2, d3], DeviceType.fromByte (deviceByte ci dev),
          ver, false⟩, payload⟩

/-- The manufacturer and identification bytes at offsets 2..7 are readable and well formed, and
there is a CI byte at offset 10. -/
def WirelessHeaderOk (data : List UInt8) : Prop :=
  ∃ l c m0 m1 d0 d1 d2 d3 ver dev ci rest i j k,
    data = l :: c :: m0 :: m1 :: d0 :: d1 :: d2 :: d3 :: ver :: dev :: ci :: rest ∧
    IsLetter i ∧ IsLetter j ∧ IsLetter k ∧ m0.toNat + 256 * m1.toNat = flagId i j k ∧
    IsBcd d0 ∧ IsBcd d1 ∧ IsBcd d2 ∧ IsBcd d3

/-- Format A framing of everything after the first block: blocks of 16 bytes, the last one
possibly shorter, each followed by its CRC. -/
inductive FormatABlocks : List UInt8 → List UInt8 → Prop
  | nil : FormatABlocks [] []
  | last (b : List UInt8) (hi lo : UInt8) (h0 : 0 < b.length) (h16 : b.length ≤ 16)
      (hc : CrcOk b hi lo) : FormatABlocks b (b ++ [hi, lo])
  | cons (b body enc : List UInt8) (hi lo : UInt8) (h16 : b.length = 16) (hc : CrcOk b hi lo)
      (ht : FormatABlocks body enc) : FormatABlocks (b ++ body) (b ++ [hi, lo] ++ enc)

/-- `FormatA frame encoded`: Format A framing of a link frame of at least ten bytes. -/
inductive FormatA : List UInt8 → List UInt8 → Prop
  | mk (head body enc : List UInt8) (hi lo : UInt8) (h10 : head.length = 10)
      (hc : CrcOk head hi lo) (hb : FormatABlocks body enc) :
      FormatA (head ++ body) (head ++ [hi, lo] ++ enc)

/-- `rest` starts with `n` bytes followed by their CRC. -/
def BlockAt (rest : List UInt8) (n : Nat) : Prop :=
  ∃ block hi lo tail, block.length = n ∧ rest = block ++ [hi, lo] ++ tail ∧ CrcOk block hi lo

/-- What stripping does with the bytes after the first block of an arbitrary input: take the
longest block of 1..16 bytes with a correct CRC, drop the CRC and go on; when there is none (in
particular for fewer than three bytes) keep all remaining bytes as they are. -/
inductive Stripped : List UInt8 → List UInt8 → Prop
  | raw (rest : List UInt8) (h : ∀ n, 1 ≤ n → n ≤ 16 → ¬ BlockAt rest n) : Stripped rest rest
  | block (b tail out : List UInt8) (hi lo : UInt8) (h1 : 1 ≤ b.length) (h16 : b.length ≤ 16)
      (hc : CrcOk b hi lo)
      (hmax : ∀ n, b.length < n → n ≤ 16 → ¬ BlockAt (b ++ [hi, lo] ++ tail) n)
      (ht : Stripped tail out) : Stripped (b ++ [hi, lo] ++ tail) (b ++ out)

/-- Replace the first byte (the L field) by the length of what follows, modulo 256. -/
def fixL : List UInt8 → List UInt8
  | [] => []
  | _ :: t => UInt8.ofNat t.length :: t

end MBus.Spec
