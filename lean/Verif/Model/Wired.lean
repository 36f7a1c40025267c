import Verif.Model.Core
/-!
# Model of `crates/wired-mbus-link-layer/src/lib.rs`
-/
namespace MBus

/-- `Address`, crates/wired-mbus-link-layer/src/lib.rs:34-39. -/
inductive Address where
  | uninitalized
  | primary (byte : UInt8)
  | secondary
  | broadcast (replyRequired : Bool)
  deriving DecidableEq, Repr, Inhabited

/-- `Address::from`, crates/wired-mbus-link-layer/src/lib.rs:56-68. -/
def Address.ofByte (byte : UInt8) : Address :=
  match byte with
  | 0 => .uninitalized
  | 253 => .secondary
  | 254 => .broadcast true
  | 255 => .broadcast false
  | b => .primary b

/-- `WiredFrame`, crates/wired-mbus-link-layer/src/lib.rs:8-28. -/
inductive WiredFrame where
  | singleCharacter (character : UInt8)
  | shortFrame (function : Function) (address : Address)
  | longFrame (function : Function) (address : Address) (data : List UInt8)
  | controlFrame (function : Function) (address : Address) (data : List UInt8)
  deriving DecidableEq, Repr, Inhabited

/-- `validate_checksum`, crates/wired-mbus-link-layer/src/lib.rs:128-149. -/
def validateChecksum (cfg : Cfg) (data : List UInt8) : Res FrameError Unit := do
  let idx ← usizeSub cfg data.length 2
  let checksumByte ← Res.ofOption .lengthShort data[idx]?
  let body ← Res.ofOption .lengthShort (sliceTo? data idx)
  let calculated := body.foldl (fun acc x => acc + x) 0
  if checksumByte = calculated then .ok ()
  else .err (.wrongChecksum checksumByte calculated)

/-- `WiredFrame::try_from(&[u8])`, crates/wired-mbus-link-layer/src/lib.rs:74-125. -/
def WiredFrame.tryFrom (cfg : Cfg) (data : List UInt8) : Res FrameError WiredFrame := do
  let firstByte ← Res.ofOption .emptyData data[0]?
  if firstByte = 0xE5 then
    .ok (.singleCharacter 0xE5)
  else
    let secondByte ← Res.ofOption .lengthShort data[1]?
    let thirdByte ← Res.ofOption .lengthShort data[2]?
    if firstByte = 0x68 then
      let body ← Res.ofOption .lengthShort (sliceFrom? data 4)
      validateChecksum cfg body
      let length ← Res.ofOption .lengthShort data[1]?
      if secondByte ≠ thirdByte ∨ data.length ≠ length.toNat + 6 then
        .err .wrongLengthIndication
      else
        let last ← Res.ofOption .lengthShort data.getLast?
        if last ≠ 0x16 then
          .err .invalidStopByte
        else
          let controlField ← Res.ofOption .lengthShort data[4]?
          let addressField ← Res.ofOption .lengthShort data[5]?
          if controlField = 0x53 then
            let function ← Function.tryFrom controlField
            let payload ← Res.ofOption .lengthShort (slice? data 6 (data.length - 2))
            .ok (.controlFrame function (Address.ofByte addressField) payload)
          else
            let function ← Function.tryFrom controlField
            let payload ← Res.ofOption .lengthShort (slice? data 6 (data.length - 2))
            .ok (.longFrame function (Address.ofByte addressField) payload)
    else if firstByte = 0x10 then
      let body ← Res.ofOption .lengthShort (sliceFrom? data 1)
      validateChecksum cfg body
      if data.length = 5 ∧ data.getLast? = some 0x16 then
        let function ← Function.tryFrom secondByte
        .ok (.shortFrame function (Address.ofByte thirdByte))
      else
        .err .lengthShort
    else
      .err .invalidStartByte

end MBus
