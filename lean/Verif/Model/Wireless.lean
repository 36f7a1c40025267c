import Verif.Model.Core
/-!
# Model of `crates/wireless-mbus-link-layer/src/lib.rs`
-/
namespace MBus

/-- One round of the inner loop of `crc16_en13757`,
crates/wireless-mbus-link-layer/src/lib.rs:10-14. -/
def crcBit (crc : UInt16) : UInt16 :=
  if crc &&& 0x8000 ≠ 0 then (crc <<< 1) ^^^ 0x3D65 else crc <<< 1

/-- One round of the outer loop of `crc16_en13757`,
crates/wireless-mbus-link-layer/src/lib.rs:8-15. -/
def crcByte (crc : UInt16) (byte : UInt8) : UInt16 :=
  let c := crc ^^^ (byte.toUInt16 <<< 8)
  crcBit (crcBit (crcBit (crcBit (crcBit (crcBit (crcBit (crcBit c)))))))

/-- `crc16_en13757`, crates/wireless-mbus-link-layer/src/lib.rs:5-18. -/
def crc16 (data : List UInt8) : UInt16 := data.foldl crcByte 0 ^^^ 0xFFFF

/-- `trailing_frame_crc_start`, crates/wireless-mbus-link-layer/src/lib.rs:22-30.  The two direct
indexings are in range because `crc_start = len - 2`; a missing byte would be `none` of the match
and is unreachable. -/
def trailingFrameCrcStart (data : List UInt8) : Option Nat :=
  if data.length < 2 then none
  else
    let crcStart := data.length - 2
    if crcStart < 10 then none
    else match data[crcStart]?, data[crcStart + 1]? with
      | some hi, some lo => if crc16 (data.take crcStart) = u16be hi lo then some crcStart else none
      | _, _ => none

/-- `output[pos..pos + src.len()].copy_from_slice(src)`; `none` is a slice-index panic. -/
def copyAt (out : List UInt8) (pos : Nat) (src : List UInt8) : Option (List UInt8) :=
  if pos + src.length ≤ out.length then
    some (out.take pos ++ src ++ out.drop (pos + src.length))
  else none

/-- The search `for data_len in (1..=max_data_len).rev()`,
crates/wireless-mbus-link-layer/src/lib.rs:66-80, over the unread rest `data[pos..]`; the result is
the first (largest) `data_len` whose CRC matches. -/
def findBlock (rest : List UInt8) : Nat → Option Nat
  | 0 => none
  | n + 1 =>
    if n + 1 + 2 > rest.length then findBlock rest n
    else match rest[n + 1]?, rest[n + 2]? with
      | some hi, some lo =>
        if crc16 (rest.take (n + 1)) = u16be hi lo then some (n + 1) else findBlock rest n
      | _, _ => findBlock rest n

/-- The loop `while pos < data.len()` of `strip_format_a_crcs`,
crates/wireless-mbus-link-layer/src/lib.rs:55-88, over the unread rest `data[pos..]`.  State:
`out_pos` and the output buffer.  `panic` is an out-of-range write. -/
def stripLoop (rest : List UInt8) (outPos : Nat) (out : List UInt8) :
    Res Unit (Nat × List UInt8) :=
  if h : 0 < rest.length then
    if rest.length < 3 then
      match copyAt out outPos rest with
      | some out => .ok (outPos + rest.length, out)
      | none => .panic
    else
      match findBlock rest (min 16 (rest.length - 2)) with
      | some n =>
        match copyAt out outPos (rest.take n) with
        | some out => stripLoop (rest.drop (n + 2)) (outPos + n) out
        | none => .panic
      | none =>
        match copyAt out outPos rest with
        | some out => .ok (outPos + rest.length, out)
        | none => .panic
  else .ok (outPos, out)
termination_by rest.length
decreasing_by simp; omega

/-- `strip_format_a_crcs`, crates/wireless-mbus-link-layer/src/lib.rs:41-92.  Returns the resulting
slice (if any) and the buffer afterwards. -/
def stripFormatACrcs (data output : List UInt8) :
    Res Unit (Option (List UInt8) × List UInt8) :=
  if data.length < 12 ∨ output.length < data.length then .ok (none, output)
  else match data[10]?, data[11]? with
    | some hi, some lo =>
      if crc16 (data.take 10) ≠ u16be hi lo then .ok (none, output)
      else match copyAt output 0 (data.take 10) with
        | none => .panic
        | some out =>
          match stripLoop (data.drop 12) 10 out with
          | .panic => .panic
          | .err e => .err e
          | .ok (outPos, out) =>
            match copyAt out 0 [UInt8.ofNat (outPos - 1)] with
            | none => .panic
            | some out => .ok (some (out.take outPos), out)
    | _, _ => .panic

/-- `ManufacturerId`, crates/wireless-mbus-link-layer/src/lib.rs:113-119. -/
structure ManufacturerId where
  manufacturerCode : ManufacturerCode
  identificationNumber : Nat
  deviceType : DeviceType
  version : UInt8
  isUniqueGlobally : Bool
  deriving DecidableEq, Repr, Inhabited

/-- Wireless `FrameError`, crates/wireless-mbus-link-layer/src/lib.rs:163-167. -/
inductive WirelessFrameError where
  | emptyData
  | tooShort
  | wrongLength (expected actual : Nat)
  deriving DecidableEq, Repr, Inhabited

/-- `WirelessFrame`, crates/wireless-mbus-link-layer/src/lib.rs:96-109. -/
structure WirelessFrame where
  controlField : UInt8
  function : Option Function
  manufacturerId : ManufacturerId
  data : List UInt8
  deriving DecidableEq, Repr, Inhabited

/-- `ManufacturerId::try_from`, crates/wireless-mbus-link-layer/src/lib.rs:121-159. -/
def ManufacturerId.tryFrom (data : List UInt8) : Res WirelessFrameError ManufacturerId := do
  let m0 ← Res.ofOption .tooShort data[0]?
  let m1 ← Res.ofOption .tooShort data[1]?
  let code ← (ManufacturerCode.fromId (u16le m0 m1)).mapErr (fun _ => .tooShort)
  let d0 ← Res.ofOption .tooShort data[2]?
  let d1 ← Res.ofOption .tooShort data[3]?
  let d2 ← Res.ofOption .tooShort data[4]?
  let d3 ← Res.ofOption .tooShort data[5]?
  let number ← (bcdHexDigitsToU32 d0 d1 d2 d3).mapErr (fun _ => .tooShort)
  let version ← Res.ofOption .tooShort data[6]?
  let deviceByte ← Res.ofOption .tooShort data[7]?
  let ciByte ← Res.ofOption .tooShort data[8]?
  let code' := if 0xA0 ≤ ciByte && ciByte ≤ 0xAF then (deviceByte >>> 4) &&& 0x0F else deviceByte
  .ok ⟨code, number, DeviceType.fromByte code', version, false⟩

/-- `WirelessFrame::try_from`, crates/wireless-mbus-link-layer/src/lib.rs:169-194.  The two slice
indexings `data[2..]` and `data[10..data_end]` panic when out of range. -/
def WirelessFrame.tryFrom (data : List UInt8) : Res WirelessFrameError WirelessFrame := do
  let length := data.length
  let lengthByte ← Res.ofOption .emptyData data[0]?
  let controlField ← Res.ofOption .tooShort data[1]?
  match sliceFrom? data 2 with
  | none => .panic
  | some rest =>
    let manufacturerId ← ManufacturerId.tryFrom rest
    if lengthByte.toNat + 1 = length then
      let dataEnd := (trailingFrameCrcStart data).getD length
      match slice? data 10 dataEnd with
      | none => .panic
      | some payload =>
        .ok ⟨controlField, (Function.tryFrom controlField).toOption, manufacturerId, payload⟩
    else .err (.wrongLength (lengthByte.toNat + 1) length)

end MBus
