import Verif.Model.Annotate
import Verif.Model.Security
/-!
# Model of the annotated view of `src/mbus_data.rs:1203-1439`

The crate features `std` and `decryption` are on.  The result is the value serialised to JSON; the
serialisation by `serde_json` is not modelled.
-/
namespace MBus

/-- `decrypt_variable_data_with_key`, src/mbus_data.rs:1386-1439: the result and the buffer
afterwards.  `.err ()` is `None`. -/
def decryptWithKey (aes : AesBlock) (userData : UserDataBlock) (wirelessId : Option ManufacturerId)
    (key output : List UInt8) : Res Unit Nat × List UInt8 :=
  match userData with
  | .long _ header _ =>
    if !header.isEncrypted then (.err (), output)
    else match header.manufacturer with
      | .ok manufacturer =>
        match (StaticKeyProvider.new 1).addKey manufacturer.toId
            (UInt32.ofNat header.identificationNumber) key with
        | (.ok (), provider) =>
          let r := userData.decryptVariableData aes provider.getKey output
          (r.1.mapErr (fun _ => ()), r.2)
        | (.err _, _) => (.err (), output)
        | (.panic, _) => (.panic, output)
      | _ => (.err (), output)
  | .short _ header _ =>
    if !header.isEncrypted then (.err (), output)
    else match wirelessId with
      | none => (.err (), output)
      | some id =>
        match (StaticKeyProvider.new 1).addKey id.manufacturerCode.toId
            (UInt32.ofNat id.identificationNumber) key with
        | (.ok (), provider) =>
          let r := userData.decryptVariableDataWithContext aes provider.getKey id.manufacturerCode
            (UInt32.ofNat id.identificationNumber) id.version id.deviceType output
          (r.1.mapErr (fun _ => ()), r.2)
        | (.err _, _) => (.err (), output)
        | (.panic, _) => (.panic, output)
  | _ => (.err (), output)

/-- `Vec::splice(start..end, bytes)`: panics when the range is out of bounds. -/
def splice (l : List UInt8) (start stop : Nat) (bytes : List UInt8) : Res Unit (List UInt8) :=
  if start ≤ stop ∧ stop ≤ l.length then .ok (l.take start ++ bytes ++ l.drop stop) else .panic

/-- The end of `decrypted_wired_hexview_data`, src/mbus_data.rs:1327-1341: the length and the checksum
are set.  `get_mut` on an index out of range gives `None`. -/
def fixWired (display : List UInt8) : Res Unit (List UInt8) := do
  let length ← Res.ofOption () (if 6 ≤ display.length then some (display.length - 6) else none)
  if length > 255 ∨ display.length < 6 then .err ()
  else
    let display := (display.set 1 (UInt8.ofNat length)).set 2 (UInt8.ofNat length)
    let checksumIndex := display.length - 2
    let body ← Res.ofOption () (slice? display 4 checksumIndex)
    .ok (display.set checksumIndex (body.foldl (fun acc x => acc + x) 0))

/-- The length of the user data of a frame, src/mbus_data.rs:1309-1319. -/
def wiredUserDataLen : WiredFrame → Option Nat
  | .longFrame _ _ payload => some payload.length
  | .controlFrame _ _ payload => some payload.length
  | _ => none

/-- `checked_sub`. -/
def checkedSub (a b : Nat) : Option Nat := if b ≤ a then some (a - b) else none

/-- `decrypted_wired_hexview_data`, src/mbus_data.rs:1297-1342; `.err ()` is `None`. -/
def decryptedWired (cfg : Cfg) (aes : AesBlock) (key data : List UInt8) : Res Unit (List UInt8) := do
  let parsed ← (MbusData.tryFromWired cfg data).mapErr (fun _ => ())
  let userData ← Res.ofOption () parsed.userData
  let variableDataLen := userData.variableDataLen
  if variableDataLen = 0 then .err ()
  else
    let r := decryptWithKey aes userData none key (List.replicate 256 0)
    let decryptedLen ← r.1
    let userDataLen ← Res.ofOption () (wiredUserDataLen parsed.frame)
    let d ← Res.ofOption () (checkedSub userDataLen variableDataLen)
    let decrypted ← Res.ofOption () (sliceTo? r.2 decryptedLen)
    let display ← splice data (6 + d) (6 + d + variableDataLen) decrypted
    fixWired display

/-- The L field is set if it fits, src/mbus_data.rs:1374-1380. -/
def fixWireless (display : List UInt8) : List UInt8 :=
  match display with
  | [] => []
  | _ :: rest => if rest.length ≤ 255 then UInt8.ofNat rest.length :: rest else display

/-- The frame without the CRCs of Format A, src/mbus_data.rs:1346-1348. -/
def withoutFormatA (data : List UInt8) : Res Unit (List UInt8) :=
  match stripFormatACrcs data (List.replicate 512 0) with
  | .ok (some stripped, _) => .ok stripped
  | .ok (none, _) => .ok data
  | .err _ => .ok data
  | .panic => .panic

/-- `decrypted_wireless_hexview_data`, src/mbus_data.rs:1345-1383; `.err ()` is `None`. -/
def decryptedWireless (aes : AesBlock) (key data : List UInt8) : Res Unit (List UInt8) := do
  let wireless ← withoutFormatA data
  let parsed ← (MbusData.tryFromWireless wireless).mapErr (fun _ => ())
  let userData ← Res.ofOption () parsed.userData
  let variableDataLen := userData.variableDataLen
  if variableDataLen = 0 then .err ()
  else
    let r := decryptWithKey aes userData (some parsed.frame.manufacturerId) key (List.replicate 256 0)
    let decryptedLen ← r.1
    let appLen := parsed.frame.data.length
    let appStart ← Res.ofOption () (checkedSub wireless.length appLen)
    let d ← Res.ofOption () (checkedSub appLen variableDataLen)
    let decrypted ← Res.ofOption () (sliceTo? r.2 decryptedLen)
    let display ← splice wireless (appStart + d) (appStart + d + variableDataLen) decrypted
    .ok (fixWireless display)

/-- `decrypted_hexview_data`, src/mbus_data.rs:1268-1270. -/
def decryptedHexview (cfg : Cfg) (aes : AesBlock) (key data : List UInt8) : Res Unit (List UInt8) :=
  match decryptedWired cfg aes key data with
  | .ok display => .ok display
  | .panic => .panic
  | .err _ => decryptedWireless aes key data

/-- The records at the place of an encrypted segment; none if the segment is out of range,
src/mbus_data.rs:1273-1294. -/
def recordsAt (cfg : Cfg) (dataText : Data → List Char) (display : List UInt8) (segment : ByteSegment) :
    Res Unit (List ByteSegment) :=
  match slice? display segment.start segment.stop with
  | some data => annotateRecords cfg dataText segment.start data
  | none => .ok []

/-- `replace_encrypted_payload_segments`, src/mbus_data.rs:1273-1294. -/
def replaceEncrypted (cfg : Cfg) (dataText : Data → List Char) (display : List UInt8) :
    List ByteSegment → Res Unit (List ByteSegment)
  | [] => .ok []
  | segment :: rest =>
    if segment.kind = .encryptedPayload then do
      let records ← recordsAt cfg dataText display segment
      let more ← replaceEncrypted cfg dataText display rest
      .ok ((if records.isEmpty then [segment] else records) ++ more)
    else do
      let more ← replaceEncrypted cfg dataText display rest
      .ok (segment :: more)

/-- The fields of the JSON object made by `render_annotated_bytes`; `original` is absent unless the
telegram was decrypted. -/
structure AnnotatedView where
  bytes : List UInt8
  segments : List ByteSegment
  decrypted : Bool
  original : Option (List UInt8 × List ByteSegment)
  deriving Repr

/-- The view of a decrypted telegram, src/mbus_data.rs:1218-1236. -/
def decryptedView (cfg : Cfg) (dataText : Data → List Char) (data : List UInt8)
    (originalSegments : List ByteSegment) (display : List UInt8) : Res FrameError AnnotatedView := do
  let segments ← annotateFrame cfg dataText display
  let segments ← (replaceEncrypted cfg dataText display segments).mapErr
    (fun _ => FrameError.invalidStartByte)
  .ok ⟨display, segments, true, some (data, originalSegments)⟩

/-- `render_annotated_bytes`, src/mbus_data.rs:1204-1256, before serialisation.  The error is the
frame error from which the message is made. -/
def annotatedView (cfg : Cfg) (dataText : Data → List Char) (aes : AesBlock) (data : List UInt8)
    (key : Option (List UInt8)) : Res FrameError AnnotatedView := do
  let originalSegments ← annotateFrame cfg dataText data
  match key with
  | none => .ok ⟨data, originalSegments, false, none⟩
  | some key =>
    match decryptedHexview cfg aes key data with
    | .ok display => decryptedView cfg dataText data originalSegments display
    | .err _ => .ok ⟨data, originalSegments, false, none⟩
    | .panic => .panic

end MBus
