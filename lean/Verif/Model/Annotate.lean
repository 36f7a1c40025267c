import Verif.Model.MbusData
import Verif.Model.Names
/-!
# Model of `src/annotate.rs`

Byte level annotation of telegrams.  Text is `List Char`.  The `Display` text of a record's value,
which only appears in the tooltip of a data payload, is the parameter `dataText`.
-/
namespace MBus

/-- `SegmentKind`, src/annotate.rs:18-56. -/
inductive SegmentKind where
  | startByte | length | cField | aField | checksum | stopByte
  | ciField | identificationNumber | manufacturerCode | version | deviceType | accessNumber | status
  | configurationField | encryptionConfigByte
  | dif | dife | vif | vife | plaintextVif | dataPayload
  | lField | wirelessManufacturerId | crc
  | extendedLinkLayer
  | encryptedPayload | manufacturerSpecific
  | idleFiller | unknown
  deriving DecidableEq, Repr, Inhabited

/-- `Display` of `SegmentKind`, src/annotate.rs:58-92. -/
def SegmentKind.display : SegmentKind → List Char
  | .startByte => "Start Byte".toList
  | .length => "Length".toList
  | .cField => "C Field".toList
  | .aField => "A Field".toList
  | .checksum => "Checksum".toList
  | .stopByte => "Stop Byte".toList
  | .ciField => "CI Field".toList
  | .identificationNumber => "Identification Number".toList
  | .manufacturerCode => "Manufacturer Code".toList
  | .version => "Version".toList
  | .deviceType => "Device Type".toList
  | .accessNumber => "Access Number".toList
  | .status => "Status".toList
  | .configurationField => "Configuration Field".toList
  | .encryptionConfigByte => "Encryption Config Byte".toList
  | .dif => "DIF".toList
  | .dife => "DIFE".toList
  | .vif => "VIF".toList
  | .vife => "VIFE".toList
  | .plaintextVif => "Plaintext VIF".toList
  | .dataPayload => "Data".toList
  | .lField => "L Field".toList
  | .wirelessManufacturerId => "Manufacturer ID".toList
  | .crc => "CRC".toList
  | .extendedLinkLayer => "Extended Link Layer".toList
  | .encryptedPayload => "Encrypted Payload".toList
  | .manufacturerSpecific => "Manufacturer Specific".toList
  | .idleFiller => "Idle Filler".toList
  | .unknown => "Unknown".toList

/-- `Layer`, src/annotate.rs:98-102. -/
inductive Layer where
  | frame | appHeader | recordField
  deriving DecidableEq, Repr, Inhabited

/-- `ByteSegment`, src/annotate.rs:107-120. -/
structure ByteSegment where
  start : Nat
  stop : Nat
  kind : SegmentKind
  detail : List Char
  group : Option Nat
  layer : Layer
  deriving DecidableEq, Repr, Inhabited

/-- `data.get(i).copied().unwrap_or(0)`. -/
def byteOr0 (data : List UInt8) (i : Nat) : UInt8 := data[i]?.getD 0

/-- Segment of the link layer. -/
def frameSeg (start stop : Nat) (kind : SegmentKind) (detail : List Char) : ByteSegment :=
  ⟨start, stop, kind, detail, none, .frame⟩

/-- Segment of the application header. -/
def headerSeg (start stop : Nat) (kind : SegmentKind) (detail : List Char) : ByteSegment :=
  ⟨start, stop, kind, detail, none, .appHeader⟩

/-- Segment of the record area. -/
def recordSeg (start stop : Nat) (kind : SegmentKind) (detail : List Char) (group : Option Nat) :
    ByteSegment :=
  ⟨start, stop, kind, detail, group, .recordField⟩

/-- The number of VIFEs, src/annotate.rs:907-911. -/
def VIB.vifeCount (vib : VIB) : Nat :=
  match vib.vifes with
  | some ext => ext.length
  | none => 0

/-- The segments of one parsed record that starts at `pos`, src/annotate.rs:861-950, without the
data payload, and the number of bytes they cover. -/
def recordHeaderSegs (pos index : Nat) (rest : List UInt8) (r : DataRecord) :
    List ByteSegment × Nat :=
  let dif := byteOr0 rest 0
  let difSegs := [recordSeg pos (pos + 1) .dif ("DIF: 0x".toList ++ hexString [dif]) (some index)]
  let difeCount := r.header.raw.dib.size - 1
  let difeSegs :=
    if difeCount > 0 then
      [recordSeg (pos + 1) (pos + 1 + difeCount) .dife
        ("DIFE: ".toList ++ natDisplay difeCount ++ " byte(s)".toList) (some index)]
    else []
  let offset := 1 + difeCount
  match r.header.raw.vib with
  | none => (difSegs ++ difeSegs, offset)
  | some vib =>
    let vifSegs := [recordSeg (pos + offset) (pos + offset + 1) .vif
      ("VIF: 0x".toList ++ hexString [byteOr0 rest offset]) (some index)]
    let vifeCount := vib.vifeCount
    let vifeSegs :=
      if vifeCount > 0 then
        [recordSeg (pos + offset + 1) (pos + offset + 1 + vifeCount) .vife
          ("VIFE: ".toList ++ natDisplay vifeCount ++ " byte(s)".toList) (some index)]
      else []
    let offset := offset + 1 + vifeCount
    match vib.plaintext with
    | none => (difSegs ++ difeSegs ++ vifSegs ++ vifeSegs, offset)
    | some text =>
      let size := text.length + 1
      (difSegs ++ difeSegs ++ vifSegs ++ vifeSegs ++
        [recordSeg (pos + offset) (pos + offset + size) .plaintextVif
          ("Plaintext VIF: \"".toList ++ text.map (fun b => Char.ofNat b.toNat) ++ ['"']) (some index)],
        offset + size)

/-- The loop of `annotate_data_records`, src/annotate.rs:792-987, over the unread rest
`data[offset..]`; `pos` is `base + offset`.  `panic` is a panic inside `DataRecord::try_from`. -/
def annotateRecordsFrom (cfg : Cfg) (dataText : Data → List Char) (pos index : Nat)
    (rest : List UInt8) : Res Unit (List ByteSegment) :=
  match rest with
  | [] => .ok []
  | dif :: tail =>
    if dif &&& 0x0F = 0x0F then
      if dif = 0x2F then do
        let more ← annotateRecordsFrom cfg dataText (pos + 1) index tail
        .ok (recordSeg pos (pos + 1) .idleFiller "Idle Filler: 0x2F".toList none :: more)
      else if dif = 0x0F ∨ dif = 0x1F then
        .ok [recordSeg pos (pos + (tail.length + 1)) .manufacturerSpecific
          ((if dif = 0x0F then "Manufacturer Specific" else "More Records Follow").toList
            ++ ": 0x".toList ++ hexString [dif] ++ " (".toList ++ natDisplay (tail.length + 1)
            ++ " bytes)".toList) (some index)]
      else do
        let more ← annotateRecordsFrom cfg dataText (pos + 1) index tail
        .ok (recordSeg pos (pos + 1) .unknown ("Special DIF: 0x".toList ++ hexString [dif]) none
          :: more)
    else
      match DataRecord.parse cfg false (dif :: tail) with
      | .panic => .panic
      | .err _ =>
        .ok [recordSeg pos (pos + (tail.length + 1)) .unknown
          "Unparseable data record bytes".toList none]
      | .ok r =>
        let header := recordHeaderSegs pos index (dif :: tail) r
        let dataSize := r.size - r.header.size
        let emitSize := min dataSize ((dif :: tail).length - header.2)
        let payload :=
          if emitSize > 0 then
            [recordSeg (pos + header.2) (pos + header.2 + emitSize) .dataPayload (dataText r.data)
              (some index)]
          else []
        if emitSize < dataSize then .ok (header.1 ++ payload)
        else do
          let more ← annotateRecordsFrom cfg dataText (pos + header.2 + emitSize) (index + 1)
            (tail.drop (header.2 - 1 + emitSize))
          .ok (header.1 ++ payload ++ more)
termination_by rest.length
decreasing_by all_goals simp only [List.length_drop, List.length_cons]; omega

/-- `annotate_data_records`, src/annotate.rs:792-987. -/
def annotateRecords (cfg : Cfg) (dataText : Data → List Char) (base : Nat) (data : List UInt8) :
    Res Unit (List ByteSegment) :=
  annotateRecordsFrom cfg dataText base 0 data

/-- `annotate_long_tpl_header`, src/annotate.rs:680-788. -/
def longTplSegs (base : Nat) (app : List UInt8) : List ByteSegment :=
  let at_ (i : Nat) : List Char := hexString [byteOr0 app i]
  let ci := byteOr0 app 0
  [ headerSeg base (base + 1) .ciField
      ("CI: 0x".toList ++ hexString [ci] ++ " (".toList
        ++ (if ci = 0x72 then "Variable Data, Long TPL" else "Variable Data, Long TPL, LSB").toList
        ++ [')']),
    headerSeg (base + 1) (base + 5) .identificationNumber
      ("ID: ".toList ++ at_ 1 ++ at_ 2 ++ at_ 3 ++ at_ 4),
    headerSeg (base + 5) (base + 7) .manufacturerCode ("Manufacturer: 0x".toList ++ at_ 5 ++ at_ 6),
    headerSeg (base + 7) (base + 8) .version
      ("Version: ".toList ++ natDisplay (byteOr0 app 7).toNat),
    headerSeg (base + 8) (base + 9) .deviceType ("Device Type: 0x".toList ++ at_ 8),
    headerSeg (base + 9) (base + 10) .accessNumber
      ("Access Number: ".toList ++ natDisplay (byteOr0 app 9).toNat),
    headerSeg (base + 10) (base + 11) .status ("Status: 0x".toList ++ at_ 10),
    headerSeg (base + 11) (base + 13) .configurationField
      ("Configuration: 0x".toList ++ at_ 11 ++ at_ 12) ]

/-- `is_long_tpl_encrypted`, src/annotate.rs:1320-1330, and `is_short_tpl_encrypted`, 1333-1345: the
test on the two configuration bytes. -/
def configEncrypted (c0 c1 : UInt8) : Bool :=
  (ConfigurationField.fromBytes c0 c1).securityMode != .noEncryption

/-- `skip_count`, src/annotate.rs:419. -/
def shortTplSkip (ci : UInt8) : Nat := if ci == 0xA0 then 2 else 1

/-- `data_block_offset`, src/annotate.rs:420. -/
def shortTplOffset (ci : UInt8) : Nat := if ci == 0xA0 then 6 else 5

/-- The header segments of a short transport header, src/annotate.rs:430-503. -/
def shortTplSegs (base : Nat) (app : List UInt8) (ci : UInt8) : List ByteSegment :=
  let extra := ci == 0xA0
  let skip := shortTplSkip ci
  let o := base + skip
  [headerSeg base (base + 1) .ciField ("CI: 0x".toList ++ hexString [ci] ++ " (Short TPL)".toList)] ++
  (if extra then
    [headerSeg (base + 1) (base + 2) .encryptionConfigByte
      ("Encryption config: 0x".toList ++ hexString [byteOr0 app 1])] else []) ++
  [ headerSeg o (o + 1) .accessNumber
      ("Access Number: ".toList ++ natDisplay (byteOr0 app skip).toNat),
    headerSeg (o + 1) (o + 2) .status ("Status: 0x".toList ++ hexString [byteOr0 app (skip + 1)]),
    headerSeg (o + 2) (o + 4) .configurationField
      ("Configuration: 0x".toList ++ hexString [byteOr0 app (skip + 2)]
        ++ hexString [byteOr0 app (skip + 3)]) ]

/-- The variable data after a transport header, src/annotate.rs:396-413 and 505-521. -/
def variableDataSegs (cfg : Cfg) (dataText : Data → List Char) (encrypted : Bool) (base : Nat)
    (data : List UInt8) : Res Unit (List ByteSegment) :=
  if encrypted then
    .ok (if data.isEmpty then []
      else [recordSeg base (base + data.length) .encryptedPayload "Encrypted variable data".toList none])
  else annotateRecords cfg dataText base data

/-- The variable data of a telegram without transport header, src/annotate.rs:534-537, 610-614 and
650-654. -/
def recordsIfAny (cfg : Cfg) (dataText : Data → List Char) (base : Nat) (data : List UInt8) :
    Res Unit (List ByteSegment) :=
  if data.isEmpty then .ok [] else annotateRecords cfg dataText base data

/-- The segments of the extended link layers II and III, src/annotate.rs:582-664. -/
def ellSegs (cfg : Cfg) (dataText : Data → List Char) (base : Nat) (app : List UInt8)
    (ellSize : Nat) (name fields : List Char) (ciText : List Char) : Res Unit (List ByteSegment) :=
  let total := 1 + ellSize
  if app.length < total then
    .ok [headerSeg base (base + app.length) .unknown ("Incomplete ".toList ++ name ++ " header".toList)]
  else do
    let records ← recordsIfAny cfg dataText (base + total) (app.drop total)
    .ok ([headerSeg base (base + 1) .ciField ciText,
      headerSeg (base + 1) (base + total) .extendedLinkLayer (name ++ ": ".toList ++ fields)] ++ records)

/-- `annotate_application_layer`, src/annotate.rs:370-678. -/
def annotateApp (cfg : Cfg) (dataText : Data → List Char) (base : Nat) (app : List UInt8) :
    Res Unit (List ByteSegment) :=
  match app with
  | [] => .ok []
  | ci :: tail =>
    if ci = 0x72 ∨ ci = 0x76 then
      if (ci :: tail).length < 13 then
        .ok [headerSeg base (base + (ci :: tail).length) .unknown
          "Incomplete long TPL header".toList]
      else do
        let records ← variableDataSegs cfg dataText
          (configEncrypted (byteOr0 (ci :: tail) 11) (byteOr0 (ci :: tail) 12)) (base + 13)
          ((ci :: tail).drop 13)
        .ok (longTplSegs base (ci :: tail) ++ records)
    else if ci = 0x7A ∨ (0xA0 ≤ ci ∧ ci ≤ 0xAF) then
      if (ci :: tail).length < shortTplOffset ci then
        .ok [headerSeg base (base + (ci :: tail).length) .unknown
          "Incomplete short TPL header".toList]
      else do
        let records ← variableDataSegs cfg dataText
          (configEncrypted (byteOr0 (ci :: tail) (shortTplSkip ci + 2))
            (byteOr0 (ci :: tail) (shortTplSkip ci + 3)))
          (base + shortTplOffset ci) ((ci :: tail).drop (shortTplOffset ci))
        .ok (shortTplSegs base (ci :: tail) ci ++ records)
    else if ci = 0x78 then do
      let records ← recordsIfAny cfg dataText (base + 1) tail
      .ok (headerSeg base (base + 1) .ciField "CI: 0x78 (Application Layer, no TPL header)".toList
        :: records)
    else if ci = 0x8C then
      if (ci :: tail).length < 3 then
        .ok [headerSeg base (base + (ci :: tail).length) .unknown "Incomplete ELL I header".toList]
      else do
        let inner ← annotateApp cfg dataText (base + 3) (tail.drop 2)
        .ok ([headerSeg base (base + 1) .ciField "CI: 0x8C (ELL I)".toList,
          headerSeg (base + 1) (base + 3) .extendedLinkLayer "ELL I: CC + Access Number".toList]
          ++ inner)
    else if ci = 0x8D then
      ellSegs cfg dataText base (ci :: tail) 8 "ELL II".toList "CC + ACC + SN[4] + CRC[2]".toList
        "CI: 0x8D (ELL II)".toList
    else if ci = 0x8E then
      ellSegs cfg dataText base (ci :: tail) 16 "ELL III".toList
        "CC + ACC + MFR[2] + ADDR[6] + SN[4] + CRC[2]".toList "CI: 0x8E (ELL III)".toList
    else
      .ok [headerSeg base (base + (ci :: tail).length) .unknown
        ("Unknown CI: 0x".toList ++ hexString [ci])]
termination_by app.length
decreasing_by simp only [List.length_drop, List.length_cons]; omega

/-- The user data of a long or control frame, src/annotate.rs:321-336. -/
def annotateUserData (cfg : Cfg) (dataText : Data → List Char) (payload : List UInt8)
    (isControl : Bool) : Res Unit (List ByteSegment) :=
  if !isControl && !payload.isEmpty then annotateApp cfg dataText 6 payload
  else if !payload.isEmpty then
    .ok [headerSeg 6 (6 + payload.length) .unknown "Control frame data".toList]
  else .ok []

/-- `annotate_long_or_control_frame`, src/annotate.rs:266-365. -/
def annotateLong (cfg : Cfg) (dataText : Data → List Char) (data : List UInt8) (function : Function)
    (address : Address) (payload : List UInt8) (isControl : Bool) : Res Unit (List ByteSegment) := do
  let l := byteOr0 data 1
  let head :=
    [ frameSeg 0 1 .startByte "Start: 0x68".toList,
      frameSeg 1 3 .length ("Length: ".toList ++ natDisplay l.toNat ++ " (repeated)".toList),
      frameSeg 3 4 .startByte "Start: 0x68 (repeated)".toList,
      frameSeg 4 5 .cField ("C Field: ".toList ++ frameFunctionName function
        ++ (if isControl then " (Control)" else "").toList),
      frameSeg 5 6 .aField ("Address: ".toList ++ address.display) ]
  let userEnd := 6 + payload.length
  let user ← annotateUserData cfg dataText payload isControl
  let checksum :=
    if userEnd < data.length then
      [frameSeg userEnd (userEnd + 1) .checksum
        ("Checksum: 0x".toList ++ hexString [byteOr0 data userEnd])]
    else []
  let stop :=
    if userEnd + 1 < data.length then
      [frameSeg (userEnd + 1) (userEnd + 1 + 1) .stopByte "Stop: 0x16".toList]
    else []
  .ok (head ++ user ++ checksum ++ stop)

/-- `annotate_wired`, src/annotate.rs:157-264.  The error carries no information: the only caller
discards it. -/
def annotateWired (cfg : Cfg) (dataText : Data → List Char) (data : List UInt8) :
    Res Unit (List ByteSegment) := do
  let frame ← (WiredFrame.tryFrom cfg data).mapErr (fun _ => ())
  match frame with
  | .singleCharacter character =>
    .ok [frameSeg 0 1 .startByte ("Single Character: 0x".toList ++ hexString [character])]
  | .shortFrame function address =>
    .ok [ frameSeg 0 1 .startByte "Start: 0x10".toList,
      frameSeg 1 2 .cField ("C Field: ".toList ++ frameFunctionName function),
      frameSeg 2 3 .aField ("Address: ".toList ++ address.display),
      frameSeg 3 4 .checksum ("Checksum: 0x".toList ++ hexString [byteOr0 data 3]),
      frameSeg 4 5 .stopByte "Stop: 0x16".toList ]
  | .longFrame function address payload => annotateLong cfg dataText data function address payload false
  | .controlFrame function address payload => annotateLong cfg dataText data function address payload true

/-- The tooltip of a CRC, src/annotate.rs:1069-1073 and 1225-1229. -/
def crcText (data : List UInt8) (start : Nat) : List Char :=
  "CRC: 0x".toList ++ hexString [byteOr0 data start] ++ hexString [byteOr0 data (start + 1)]

/-- The application layer of a wireless frame, src/annotate.rs:1214-1218; the slice indexing panics
when out of range. -/
def annotateWirelessApp (cfg : Cfg) (dataText : Data → List Char) (data : List UInt8) (appEnd : Nat) :
    Res Unit (List ByteSegment) :=
  if appEnd > 10 then
    match slice? data 10 appEnd with
    | some app => annotateApp cfg dataText 10 app
    | none => .panic
  else .ok []

/-- `annotate_wireless_inner`, src/annotate.rs:1135-1235. -/
def annotateWirelessInner (cfg : Cfg) (dataText : Data → List Char) (data : List UInt8) :
    Res Unit (List ByteSegment) := do
  let at_ (i : Nat) : List Char := hexString [byteOr0 data i]
  let _ ← (WirelessFrame.tryFrom data).mapErr (fun _ => ())
  let head :=
    [ frameSeg 0 1 .lField ("L Field: ".toList ++ natDisplay (byteOr0 data 0).toNat),
      frameSeg 1 2 .cField ("C Field: 0x".toList ++ at_ 1),
      frameSeg 2 4 .manufacturerCode ("Manufacturer: 0x".toList ++ at_ 2 ++ at_ 3),
      frameSeg 4 8 .identificationNumber ("ID: ".toList ++ at_ 4 ++ at_ 5 ++ at_ 6 ++ at_ 7),
      frameSeg 8 9 .version ("Version: ".toList ++ natDisplay (byteOr0 data 8).toNat),
      frameSeg 9 10 .deviceType ("Device Type: 0x".toList ++ at_ 9) ]
  let crcStart := trailingFrameCrcStart data
  let app ← annotateWirelessApp cfg dataText data (crcStart.getD data.length)
  let crc := match crcStart with
    | some start => [frameSeg start data.length .crc (crcText data start)]
    | none => []
  .ok (head ++ app ++ crc)

/-- The loop of `build_format_a_offset_map`, src/annotate.rs:1256-1297, over the unread rest
`original[pos..]`.  The search for the block end, 1268-1287, and the CRC, 1304-1317, are those of
the stripping. -/
def offsetMapLoop (pos : Nat) (rest : List UInt8) : List Nat :=
  if h : 0 < rest.length then
    if rest.length < 3 then (List.range rest.length).map (pos + ·)
    else
      match findBlock rest (min 16 (rest.length - 2)) with
      | some n => (List.range n).map (pos + ·) ++ offsetMapLoop (pos + n + 2) (rest.drop (n + 2))
      | none => (List.range rest.length).map (pos + ·)
  else []
termination_by rest.length
decreasing_by simp; omega

/-- `build_format_a_offset_map`, src/annotate.rs:1243-1301. -/
def offsetMap (original : List UInt8) : List Nat :=
  List.range (min 10 original.length) ++
    if original.length < 12 then [] else offsetMapLoop 12 (original.drop 12)

/-- The loop collecting `crc_positions`, src/annotate.rs:1033-1059, over the unread rest. -/
def crcPositionsLoop (pos : Nat) (rest : List UInt8) : List (Nat × Nat) :=
  if h : 0 < rest.length then
    if rest.length < 3 then []
    else
      match findBlock rest (min 16 (rest.length - 2)) with
      | some n => (pos + n, pos + n + 2) :: crcPositionsLoop (pos + n + 2) (rest.drop (n + 2))
      | none => []
  else []
termination_by rest.length
decreasing_by simp; omega

/-- `crc_positions`, src/annotate.rs:1024-1059. -/
def crcPositions (original : List UInt8) : List (Nat × Nat) :=
  (if original.length ≥ 12 then [(10, 12)] else []) ++ crcPositionsLoop 12 (original.drop 12)

/-- The translation of a segment to original offsets, src/annotate.rs:1007-1030. -/
def mapSegment (map : List Nat) (seg : ByteSegment) : ByteSegment :=
  let last := match map.getLast? with
    | some o => o + 1
    | none => seg.stop
  { seg with
    start := map[seg.start]?.getD seg.start
    stop := if seg.stop ≤ map.length then
        match map[seg.stop]? with
        | some o => o
        | none => last
      else last }

/-- One round of the loop inserting the CRC segments, src/annotate.rs:1062-1124. -/
def insertCrc (original : List UInt8) (segs : List ByteSegment) (range : Nat × Nat) :
    List ByteSegment :=
  let crc := frameSeg range.1 range.2 .crc (crcText original range.1)
  let pos := segs.findIdx (fun s => range.1 ≤ s.start)
  match pos, segs[pos - 1]? with
  | k + 1, some prev =>
    if prev.stop > range.1 then
      segs.take k ++ [{ prev with stop := range.1 }, crc] ++
        (if range.2 < prev.stop then [{ prev with start := range.2 }] else []) ++ segs.drop (k + 1)
    else segs.take (k + 1) ++ [crc] ++ segs.drop (k + 1)
  | p, _ => segs.take p ++ [crc] ++ segs.drop p

/-- `annotate_wireless_format_a`, src/annotate.rs:992-1132. -/
def annotateFormatA (cfg : Cfg) (dataText : Data → List Char) (original stripped : List UInt8) :
    Res Unit (List ByteSegment) := do
  let inner ← annotateWirelessInner cfg dataText stripped
  let mapped := inner.map (mapSegment (offsetMap original))
  let segs := (crcPositions original).foldl (insertCrc original) mapped
  .ok (segs.filter (fun s => s.start < s.stop))

/-- `annotate_frame`, src/annotate.rs:131-153; the error is always
`FrameError::InvalidStartByte`. -/
def annotateFrame (cfg : Cfg) (dataText : Data → List Char) (data : List UInt8) :
    Res FrameError (List ByteSegment) :=
  let inner : Res FrameError (List ByteSegment) :=
    match annotateWirelessInner cfg dataText data with
    | .ok segs => .ok segs
    | .err _ => .err .invalidStartByte
    | .panic => .panic
  match annotateWired cfg dataText data with
  | .ok segs => .ok segs
  | .panic => .panic
  | .err _ =>
    match stripFormatACrcs data (List.replicate 512 0) with
    | .panic => .panic
    | .err _ => inner
    | .ok (none, _) => inner
    | .ok (some stripped, _) =>
      match annotateFormatA cfg dataText data stripped with
      | .ok segs => .ok segs
      | .panic => .panic
      | .err _ => inner

end MBus
