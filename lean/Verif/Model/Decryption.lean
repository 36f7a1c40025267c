import Verif.Model.Core
/-!
# Model of `crates/m-bus-core/src/decryption.rs` (feature `decryption` on)

AES-128 itself (crates `aes`, `cbc`) is not modelled: block decryption is an arbitrary function
`AesBlock`; cipher block chaining around it is.
-/
namespace MBus

/-- `KeyContext`, crates/m-bus-core/src/decryption.rs:12-19.  The `u32` identification number is a
`UInt32`. -/
structure KeyContext where
  manufacturer : ManufacturerCode
  identificationNumber : UInt32
  version : UInt8
  deviceType : DeviceType
  securityMode : SecurityMode
  accessNumber : UInt8
  deriving DecidableEq, Repr, Inhabited

/-- `DecryptionError`, crates/m-bus-core/src/decryption.rs:22-30. -/
inductive DecryptionError where
  | unsupportedMode (mode : SecurityMode)
  | keyNotFound
  | decryptionFailed
  | invalidKeyLength
  | invalidDataLength
  | notEncrypted
  | unknownEncryptionState
  deriving DecidableEq, Repr, Inhabited

/-- Block decryption under a key: 16 bytes to 16 bytes (crate `aes`, not modelled). -/
abbrev AesBlock := List UInt8 → List UInt8 → List UInt8

/-- One byte of `decimal_to_bcd`, crates/m-bus-core/src/decryption.rs:118-122. -/
def bcdByte (value : Nat) : UInt8 :=
  let low := UInt8.ofNat (value % 10)
  let high := UInt8.ofNat (value / 10 % 10)
  (high <<< 4) ||| low

/-- `decimal_to_bcd`, crates/m-bus-core/src/decryption.rs:115-125; the loop over four bytes, with
`value` divided by 100 in each round. -/
def decimalToBcd (value : Nat) : List UInt8 :=
  let rec go : Nat → Nat → List UInt8
    | 0, _ => []
    | n + 1, v => bcdByte v :: go n (v / 100)
  go 4 value

/-- `EncryptedPayload::_derive_iv`, crates/m-bus-core/src/decryption.rs:94-109. -/
def deriveIv (ctx : KeyContext) : List UInt8 :=
  let mfr := ctx.manufacturer.toId
  [mfr.toUInt8, (mfr >>> 8).toUInt8] ++ decimalToBcd ctx.identificationNumber.toNat ++
    [ctx.version, ctx.deviceType.toByte] ++ List.replicate 8 ctx.accessNumber

/-- xor of two blocks -/
def xorBlock (a b : List UInt8) : List UInt8 := List.zipWith (· ^^^ ·) a b

/-- CBC decryption of `n` blocks (crate `cbc`, `decrypt_padded::<NoPadding>`): every plaintext block
is the decrypted ciphertext block xor the previous ciphertext block (the IV for the first). -/
def cbcDecrypt (aes : AesBlock) (key : List UInt8) : Nat → List UInt8 → List UInt8 → List UInt8
  | 0, _, _ => []
  | n + 1, prev, data =>
    xorBlock (aes key (data.take 16)) prev ++ cbcDecrypt aes key n (data.take 16) (data.drop 16)

/-- Writes `src` over the first `src.length` bytes of `output` (`dest.copy_from_slice`). -/
def overwrite (output src : List UInt8) : List UInt8 := src ++ output.drop src.length

/-- `decrypt_aes_cbc_into`, crates/m-bus-core/src/decryption.rs:182-241.  Returns the result and the
output buffer afterwards. -/
def decryptAesCbcInto (aes : AesBlock) (data key iv output : List UInt8) :
    Res DecryptionError Nat × List UInt8 :=
  if key.length ≠ 16 then (.err .invalidKeyLength, output)
  else if iv.length ≠ 16 then (.err .invalidDataLength, output)
  else if data.isEmpty then (.err .invalidDataLength, output)
  else
    let len := data.length
    let encryptedLen := len - len % 16
    if encryptedLen = 0 then
      if len ≤ output.length then (.ok len, overwrite output data)
      else (.err .invalidDataLength, output)
    else if len ≤ output.length then
      let output := overwrite output data
      let buf := output.take encryptedLen
      (.ok len, overwrite output (cbcDecrypt aes key (encryptedLen / 16) iv buf))
    else (.err .invalidDataLength, output)

/-- `EncryptedPayload::decrypt_into`, crates/m-bus-core/src/decryption.rs:66-91.  `getKey` is the key
provider. -/
def decryptInto (aes : AesBlock) (getKey : KeyContext → Res DecryptionError (List UInt8))
    (ctx : KeyContext) (data output : List UInt8) : Res DecryptionError Nat × List UInt8 :=
  match getKey ctx with
  | .err e => (.err e, output)
  | .panic => (.panic, output)
  | .ok key =>
    match ctx.securityMode with
    | .noEncryption =>
      if data.length ≤ output.length then (.ok data.length, overwrite output data)
      else (.err .invalidDataLength, output)
    | .aesCbc128IvZero => decryptAesCbcInto aes data key (List.replicate 16 0) output
    | .aesCbc128IvNonZero => decryptAesCbcInto aes data key (deriveIv ctx) output
    | mode => (.err (.unsupportedMode mode), output)

/-- `StaticKeyProvider<N>`, crates/m-bus-core/src/decryption.rs:127-130.  `entries` has length `N`. -/
structure StaticKeyProvider where
  entries : List (UInt64 × List UInt8)
  count : Nat
  deriving DecidableEq, Repr

namespace StaticKeyProvider

/-- `StaticKeyProvider::new`, crates/m-bus-core/src/decryption.rs:132-144. -/
def new (n : Nat) : StaticKeyProvider := ⟨List.replicate n (0, List.replicate 16 0), 0⟩

/-- `compute_key_id`, crates/m-bus-core/src/decryption.rs:162-164. -/
def computeKeyId (manufacturerId : UInt16) (identificationNumber : UInt32) : UInt64 :=
  (manufacturerId.toUInt64 <<< 32) ||| identificationNumber.toUInt64

/-- `add_key`, crates/m-bus-core/src/decryption.rs:146-160.  Returns the result and the provider
afterwards. -/
def addKey (p : StaticKeyProvider) (manufacturerId : UInt16) (identificationNumber : UInt32)
    (key : List UInt8) : Res DecryptionError Unit × StaticKeyProvider :=
  let keyId := computeKeyId manufacturerId identificationNumber
  if p.count < p.entries.length then
    (.ok (), ⟨p.entries.set p.count (keyId, key), p.count + 1⟩)
  else (.err .invalidDataLength, p)

/-- `get_key`, crates/m-bus-core/src/decryption.rs:168-178 (`entries[..count]` panics when
`count > N`). -/
def getKey (p : StaticKeyProvider) (ctx : KeyContext) : Res DecryptionError (List UInt8) :=
  let keyId := computeKeyId ctx.manufacturer.toId ctx.identificationNumber
  if p.count ≤ p.entries.length then
    match (p.entries.take p.count).find? (fun e => e.1 == keyId) with
    | some e => .ok e.2
    | none => .err .keyNotFound
  else .panic

end StaticKeyProvider

end MBus
