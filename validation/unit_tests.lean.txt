import Verif
open MBus

/-! The assertions of the unit tests in `crates`, `src/annotate.rs`, `wasm`, `python` and `cli` and of
`tests/application_layer_frames.rs`, `tests/test_other_meters.rs` and `tests/test_wireless.rs`, evaluated in the model.
Prints a line for every assertion that is not met. -/

def okD {ε α : Type} [Inhabited α] : Res ε α → α
  | .ok a => a
  | _ => default
def isOk {ε α : Type} : Res ε α → Bool
  | .ok _ => true
  | _ => false
def isErr {ε α : Type} : Res ε α → Bool
  | .err _ => true
  | _ => false
def sub (t p : String) : Bool := (t.splitOn p).length > 1
def count (t p : String) : Nat := (t.splitOn p).length - 1
def num (v : Int) : Option DataType := some (.number (.int v))

def longFrame (c a : UInt8) (user : List UInt8) : List UInt8 :=
  let l := (user.length + 2).toUInt8
  let body := [c, a] ++ user
  [0x68, l, l, 0x68] ++ body ++ [body.foldl (· + ·) 0, 0x16]

def contiguous : Nat → List ByteSegment → Nat → Bool
  | pos, [], total => pos == total
  | pos, s :: rest, total => s.start == pos && s.start < s.stop && contiguous s.stop rest total

def items (rs : List (Res RecordError DataRecord)) : List DataRecord :=
  rs.filterMap fun | .ok r => some r | _ => none

def docAt : Doc → List (String ⊕ Nat) → Option Doc
  | d, [] => some d
  | .obj ms, .inl k :: rest => (ms.find? fun m => m.1 == k.toList).bind fun m => docAt m.2 rest
  | .arr ds, .inr i :: rest => ds[i]?.bind fun d => docAt d rest
  | _, _ => none

def strAt (d : Doc) (p : List (String ⊕ Nat)) : Option String :=
  match docAt d p with
  | some (.str t) => some (String.ofList t)
  | _ => none
def numAt (d : Doc) (p : List (String ⊕ Nat)) : Option String :=
  match docAt d p with
  | some (.num t) => some (String.ofList t)
  | _ => none
def lenAt (d : Doc) (p : List (String ⊕ Nat)) : Option Nat :=
  match docAt d p with
  | some (.arr ds) => some ds.length
  | _ => none
def nullAt (d : Doc) (p : List (String ⊕ Nat)) : Bool :=
  match docAt d p with
  | some .null => true
  | _ => false

def lit (v : F64) : List Char :=
  match v with
  | .int n => (toString n ++ ".0").toList
  | .negZero => "-0.0".toList
  | .real32 b => (toString (Float32.ofBits b).toFloat).toList
def realText (b : UInt32) : List Char := (toString (Float32.ofBits b).toFloat).toList
def text (d : Data) : List Char := d.display realText

def example1 : List UInt8 := [0x68, 0x4D, 0x4D, 0x68, 0x08, 0x01, 0x72, 0x01, 0x00, 0x00, 0x00, 0x96, 0x15, 0x01, 0x00, 0x18, 0x00, 0x00, 0x00, 0x0C, 0x78, 0x56, 0x00, 0x00, 0x00, 0x01, 0xFD, 0x1B, 0x00, 0x02, 0xFC, 0x03, 0x48, 0x52, 0x25, 0x74, 0x44, 0x0D, 0x22, 0xFC, 0x03, 0x48, 0x52, 0x25, 0x74, 0xF1, 0x0C, 0x12, 0xFC, 0x03, 0x48, 0x52, 0x25, 0x74, 0x63, 0x11, 0x02, 0x65, 0xB4, 0x09, 0x22, 0x65, 0x86, 0x09, 0x12, 0x65, 0xB7, 0x09, 0x01, 0x72, 0x00, 0x72, 0x65, 0x00, 0x00, 0xB2, 0x01, 0x65, 0x00, 0x00, 0x1F, 0xB3, 0x16]
def header : List UInt8 := [0x72, 0x01, 0x00, 0x00, 0x00, 0x96, 0x15, 0x01, 0x00, 0x18, 0x00]

def main : IO Unit := do
 let total ← IO.mkRef 0
 for cfg in [(⟨true, true⟩ : Cfg), ⟨true, false⟩, ⟨false, true⟩, ⟨false, false⟩] do
  let ck (n : String) (b : Bool) : IO Unit := do
    total.modify (· + 1)
    unless b do IO.println s!"FAIL {n} {cfg.overflowChecks} {cfg.plaintextFirst}"
  -- data_information.rs
  let di (bs : List UInt8) := (DIB.tryFrom bs).bind DataInfo.tryFrom
  ck "test_data_information" (okD (di [0x13]) == ⟨0, 0, 0, .maximumValue, .integer24, false, 1⟩)
  ck "test_complex_data_information" (okD (di [0xc4, 0x80, 0x40]) == ⟨1, 0, 2, .instantaneousValue, .integer32, false, 3⟩)
  ck "reverse_text_unit" (String.ofList (decodeTextUnit [0x6c, 0x61, 0x67, 0x69]) == "igal")
  ck "latin1 swedish" (String.ofList (decodeTextUnit [0xF6, 0x6D, 0x6C, 0x61, 0x4D]) == "Malmö")
  ck "latin1 superscript" (String.ofList (decodeTextUnit [0x68, 0x2F, 0xB3, 0x6D]) == "m³/h")
  ck "utf8 superscript" (String.ofList (decodeTextUnit [0x68, 0x2F, 0xB3, 0xC2, 0x6D]) == "m³/h")
  ck "test_invalid_data_information" (DIB.tryFrom (List.replicate 14 0xFF) == .err .dataTooLong)
  ck "test_longest" (DIB.tryFrom (List.replicate 10 0xFF ++ [1]) != .err .dataTooLong)
  ck "test_short_data_information" (DIB.tryFrom [0xFF] == .err .dataTooShort)
  ck "test_data_inforamtion1" ((okD (DIB.tryFrom [178, 1])).size == 2)
  ck "bcd unsigned" (bcdToValue [0x54, 0x76, 0x98] 6 1 false == .ok ⟨num 987654, 3⟩)
  ck "bcd invalid" (bcdToValue [0x5A, 0x76, 0x98] 6 1 false == .err (.dataInformation .invalidValueInformation))
  ck "int 127" (integerToValue cfg [0x7F] 1 == .ok ⟨num 127, 1⟩)
  ck "int -1" (integerToValue cfg [0xFF] 1 == .ok ⟨num (-1), 1⟩)
  ck "int 250" (integerToValue cfg [0xFA, 0, 0, 0, 0, 0, 0, 0] 8 == .ok ⟨num 250, 8⟩)
  ck "int64 -1" (integerToValue cfg (List.replicate 8 0xFF) 8 == .ok ⟨num (-1), 8⟩)
  -- value_information.rs
  let vib (bs : List UInt8) := okD (VIB.tryFrom cfg bs)
  let vi (bs : List UInt8) := okD (ValueInfo.tryFrom (vib bs))
  let m3 : MUnit := ⟨.meter, 3⟩
  for p in [((0x13 : UInt8), (-3 : Int)), (0x14, -2), (0x15, -1)] do
    ck "single byte" (vib [p.1] == ⟨p.1, none, none⟩ && (vib [p.1]).size == 1 && vi [p.1] == ⟨0, [.volume], p.2, [m3]⟩)
  ck "16" (vib [0x16] == ⟨0x16, none, none⟩ && (vib [0x16]).size == 1)
  ck "multibyte 1" ((vib [0x96, 0x12]).size == 2 && (vi [0x96, 0x12]).labels == [.volume, .averaged])
  ck "multibyte 2" ((vib [0x96, 0x92, 0x20]).size == 3 &&
    vi [0x96, 0x92, 0x20] == ⟨0, [.volume, .averaged], 0, [m3, ⟨.second, -1⟩]⟩)
  ck "multibyte 3" ((vib [0x96, 0x92, 0xA0, 0x2D]).size == 4 &&
    vi [0x96, 0x92, 0xA0, 0x2D] == ⟨0, [.volume, .averaged], 0, [m3, ⟨.second, -1⟩, ⟨.meter, -3⟩]⟩)
  unless cfg.plaintextFirst do
    let b : List UInt8 := [0xFC, 0x74, 0x03, 0x48, 0x52, 0x25]
    ck "plain text" ((vib b).size == 6 && (vib b).vif == 0xFC && vi b == ⟨0, [.plainText], -2, []⟩)
  ck "short vif with vife" ((vib [253, 27]).size == 2)
  let unit0 (v : ValueInfo) := v.units[0]?.map MUnit.name
  ck "FD 48" (unit0 (vi [0xFD, 0x48]) == some .volt && (vi [0xFD, 0x48]).scale == -1)
  ck "FD 59" (unit0 (vi [0xFD, 0x59]) == some .ampere && (vi [0xFD, 0x59]).scale == -3)
  ck "FB 20" ((vi [0xFB, 0x20]).units[0]? == some ⟨.feet, 3⟩ && (vi [0xFB, 0x20]).scale == 0 && (vi [0xFB, 0x20]).labels.contains .volume)
  ck "FB 23" (unit0 (vi [0xFB, 0x23]) == some .degree && (vi [0xFB, 0x23]).scale == -1 && (vi [0xFB, 0x23]).labels.contains .phaseItoU)
  ck "FB 70" (unit0 (vi [0xFB, 0x70]) == some .fahrenheit && (vi [0xFB, 0x70]).scale == -3)
  ck "FB 22" ((vi [0xFB, 0x22]).labels.contains .reserved)
  ck "21" ((vi [0x21]).labels.contains .onTime && unit0 (vi [0x21]) == some .minute)
  ck "27" ((vi [0x27]).labels.contains .operatingTime && unit0 (vi [0x27]) == some .day)
  ck "FB 78" ((vi [0xFB, 0x78]).labels.contains .cumulativeMaximumOfActivePower && unit0 (vi [0xFB, 0x78]) == some .watt && (vi [0xFB, 0x78]).scale == -3)
  ck "FB 9B 74" ((vi [0xFB, 0x9B, 0x74]).labels.contains .relativeHumidity && unit0 (vi [0xFB, 0x9B, 0x74]) == some .percent && (vi [0xFB, 0x9B, 0x74]).scale == -2)
  ck "FD D9 FC 01" (unit0 (vi [0xFD, 0xD9, 0xFC, 0x01]) == some .ampere && (vi [0xFD, 0xD9, 0xFC, 0x01]).scale == -3 && (vi [0xFD, 0xD9, 0xFC, 0x01]).labels.contains .atPhaseL1)
  ck "E5 74" ((vi [0xE5, 0x74]).labels.contains .externalTemperature && unit0 (vi [0xE5, 0x74]) == some .celsius && (vi [0xE5, 0x74]).scale == -4)
  ck "FD FD 3E" ((vi [0xFD, 0xFD, 0x3E]).labels.contains .moistureLevel && unit0 (vi [0xFD, 0xFD, 0x3E]) == some .percent && (vi [0xFD, 0xFD, 0x3E]).scale == 0)
  ck "layout" (vib [0xFD, 0xD9, 0xFC, 0x01] == ⟨0xFD, some [0xD9, 0xFC, 0x01], none⟩ && vib [0x96, 0x12] == ⟨0x96, some [0x12], none⟩)
  for p in ([(0x40, .lowerLimitValue, none), (0x48, .upperLimitValue, none), (0x41, .numberOfExceedsOfLowerLimitValue, none), (0x49, .numberOfExceedsOfUpperLimitValue, none), (0x42, .dateOfBeginFirstLowerLimitExceed, none), (0x43, .dateOfEndFirstLowerLimitExceed, none), (0x46, .dateOfBeginLastLowerLimitExceed, none), (0x47, .dateOfEndLastLowerLimitExceed, none), (0x4A, .dateOfBeginFirstUpperLimitExceed, none), (0x4B, .dateOfEndFirstUpperLimitExceed, none), (0x4E, .dateOfBeginLastUpperLimitExceed, none), (0x4F, .dateOfEndLastUpperLimitExceed, none), (0x50, .durationOfFirstLowerLimitExceed, some .second), (0x51, .durationOfFirstLowerLimitExceed, some .minute), (0x52, .durationOfFirstLowerLimitExceed, some .hour), (0x53, .durationOfFirstLowerLimitExceed, some .day), (0x54, .durationOfLastLowerLimitExceed, some .second), (0x55, .durationOfLastLowerLimitExceed, some .minute), (0x56, .durationOfLastLowerLimitExceed, some .hour), (0x57, .durationOfLastLowerLimitExceed, some .day), (0x58, .durationOfFirstUpperLimitExceed, some .second), (0x59, .durationOfFirstUpperLimitExceed, some .minute), (0x5A, .durationOfFirstUpperLimitExceed, some .hour), (0x5B, .durationOfFirstUpperLimitExceed, some .day), (0x5C, .durationOfLastUpperLimitExceed, some .second), (0x5D, .durationOfLastUpperLimitExceed, some .minute), (0x5E, .durationOfLastUpperLimitExceed, some .hour), (0x5F, .durationOfLastUpperLimitExceed, some .day)] : List (UInt8 × ValueLabel × Option UnitName)) do
    let v := vi [0x93, p.1]
    ck s!"limit {p.1}" (v.labels.contains p.2.1 && (match p.2.2 with | some u => v.units.any (·.name == u) | none => true))
  for p in ([(0x02, .atPhaseL2), (0x0D, .alternativeNonMetricUnits), (0x0E, .secondarySensorMeasurement), (0x13, .endDate)] : List (UInt8 × ValueLabel)) do
    ck s!"FC {p.1}" ((vi [0x93, 0xFC, p.1]).labels.contains p.2)
  -- application-layer lib.rs
  for p in ([(0x50, .resetAtApplicationLevel), (0x51, .sendData), (0x52, .selectSlave), (0x54, .synchronizeSlave), (0xB8, .setBaudRate300), (0xB9, .setBaudRate600), (0xBA, .setBaudRate1200), (0xBB, .setBaudRate2400), (0xBC, .setBaudRate4800), (0xBD, .setBaudRate9600), (0xBE, .setBaudRate19200), (0xBF, .setBaudRate38400), (0xB1, .outputRamContent), (0xB2, .writeRamContent), (0xB3, .startCalibrationTestMode), (0xB4, .readEeprom), (0xB6, .startSoftwareTest), (0x90, .hashProcedure 0), (0x91, .hashProcedure 1)] : List (UInt8 × ControlInformation)) do
    ck s!"CI {p.1}" (ControlInformation.ofByte p.1 == .ok p.2)
  ck "reset" (UserDataBlock.tryFrom [0x50, 0x10] == .ok (.reset (.all 0x10)))
  ck "no transport" (UserDataBlock.tryFrom [0x78, 0x0B, 0x13, 0x43, 0x65, 0x87] == .ok (.noTpl none [0x0B, 0x13, 0x43, 0x65, 0x87]))
  ck "ell i" (match UserDataBlock.tryFrom [0x8C, 0x20, 0x27, 0x78, 0x0B, 0x13, 0x43, 0x65, 0x87] with
    | .ok (.noTpl (some e) b) => e.communicationControl == 0x20 && e.accessNumber == 0x27 && b == [0x0B, 0x13, 0x43, 0x65, 0x87]
    | _ => false)
  for p in ([(0x00, .other), (0x01, .oilMeter), (0x02, .electricityMeter), (0x03, .gasMeter), (0x04, .heatMeterReturn), (0x05, .steamMeter), (0x06, .warmWaterMeter), (0x07, .waterMeter), (0x08, .heatCostAllocator), (0x09, .compressedAir), (0x0A, .coolingMeterReturn), (0x0B, .coolingMeterFlow), (0x0C, .heatMeterFlow), (0x0D, .combinedHeatCoolingMeter), (0x0E, .busSystemComponent), (0x0F, .unknownDevice), (0x10, .irrigationWaterMeter), (0x11, .waterDataLogger), (0x12, .gasDataLogger), (0x13, .gasConverter), (0x14, .calorificValue), (0x15, .hotWaterMeter), (0x16, .coldWaterMeter), (0x17, .dualRegisterWaterMeter), (0x18, .pressureMeter), (0x19, .adConverter), (0x1A, .smokeDetector), (0x1B, .roomSensor), (0x1C, .gasDetector), (0x20, .electricityBreaker), (0x21, .valve), (0x25, .customerUnit), (0x28, .wasteWaterMeter), (0x29, .garbage), (0x30, .serviceTool), (0x31, .communicationController), (0x32, .unidirectionalRepeater), (0x33, .bidirectionalRepeater), (0x36, .radioConverterSystemSide), (0x37, .radioConverterMeterSide), (0x38, .busConverterMeterSide), (0xFF, .wildcard), (0x1D, .reservedSensor 0x1D), (0x22, .reservedSwitch 0x22), (0x40, .reserved 0x40)] : List (UInt8 × DeviceType)) do
    ck s!"device {p.1}" (DeviceType.fromByte p.1 == p.2 && p.2.toByte == p.1)
  ck "fixed" (UserDataBlock.tryFrom [0x73, 0x78, 0x56, 0x34, 0x12, 0x0A, 0x00, 0xE9, 0x7E, 0x01, 0x00, 0x00, 0x00, 0x35, 0x01, 0x00, 0x00]
    == .ok (.fixed 12345678 0x0A 0 0xE97E 1 135))
  ck "GWF" ((match ManufacturerCode.fromId 0x1ee6 with | .ok m => String.ofList m.display | _ => "") == "GWF")
  for id in ([0x1ee6, 0x0000, 0x0421, 0x1234, 0x7FFF] : List UInt16) do
    ck "id" (match ManufacturerCode.fromId id with | .ok m => m.toId == id | _ => true)
  ck "global readout" ((items (parseDataRecords cfg false [0x7F, 0x01, 0x13, 0x05])).length == 2)
  ck "record values" (match parseDataRecords cfg false [0x03, 0x13, 0x15, 0x31, 0x00] with
    | [.ok r] => r.data.value == num 12565 && r.rawBytes == [0x03, 0x13, 0x15, 0x31, 0x00] &&
      r.header.processed.dataInfo.isSome && r.header.processed.valueInfo.isSome
    | _ => false)
  ck "application layer records" (match UserDataBlock.tryFrom [0x78, 0x03, 0x13, 0x15, 0x31, 0x00] with
    | .ok b => (match b.dataRecords with | some s => (s.collect cfg).length == 1 && (s.collect cfg).all isOk | none => false)
    | _ => false)
  ck "errors" (match parseDataRecords cfg false [0x04] with | [.err _] => true | _ => false)
  -- variable_user_data.rs
  let rs := items (parseDataRecords cfg false [0x0D, 0x06, 0xC1, 0x12, 0x0D, 0x06, 0xD3, 0x12, 0x34, 0x56, 0x0D, 0x06, 0x02, 0x31, 0x32, 0x0D, 0x06, 0xE1, 0xFF, 0x0D, 0x06, 0x00])
  ck "variable length" (rs.map (·.data.value) == [num 12, num (-563412), some (.text [0x31, 0x32]), num (-1), some (.text [])])
  ck "variable coding" (rs.all fun r => (r.header.processed.dataInfo.map (·.coding)) == some .variableLength)
  let raw := parseDataRecords cfg false [0x0D, 0x06, 0xE9, 0xFF, 0xFF, 0xFF, 0xFF, 0xFF, 0xFF, 0xFF, 0xFF, 0xFF, 0x0D, 0x06, 0x00, 0x0D, 0x06, 0xEF, 0xFF, 0xFF, 0xFF, 0xFF, 0xFF, 0xFF, 0xFF, 0xFF, 0xFF, 0xFF, 0xFF, 0xFF, 0xFF, 0xFF, 0xFF, 0x0D, 0x06, 0x00, 0x0D, 0x06, 0xF4, 0xFF, 0xFF, 0xFF, 0xFF, 0xFF, 0xFF, 0xFF, 0xFF, 0xFF, 0xFF, 0xFF, 0xFF, 0xFF, 0xFF, 0xFF, 0xFF, 0xFF, 0xFF, 0xFF, 0xFF, 0xFF, 0xFF, 0xFF, 0xFF, 0xFF, 0xFF, 0xFF, 0xFF, 0xFF, 0xFF, 0xFF, 0xFF, 0x0D, 0x06, 0x00, 0x0D, 0x06, 0xF5, 0xFF, 0xFF, 0xFF, 0xFF, 0xFF, 0xFF, 0xFF, 0xFF, 0xFF, 0xFF, 0xFF, 0xFF, 0xFF, 0xFF, 0xFF, 0xFF, 0xFF, 0xFF, 0xFF, 0xFF, 0xFF, 0xFF, 0xFF, 0xFF, 0xFF, 0xFF, 0xFF, 0xFF, 0xFF, 0xFF, 0xFF, 0xFF, 0xFF, 0xFF, 0xFF, 0xFF, 0xFF, 0xFF, 0xFF, 0xFF, 0xFF, 0xFF, 0xFF, 0xFF, 0xFF, 0xFF, 0xFF, 0xFF, 0x0D, 0x06, 0x00, 0x0D, 0x06, 0xF6, 0xFF, 0xFF, 0xFF, 0xFF, 0xFF, 0xFF, 0xFF, 0xFF, 0xFF, 0xFF, 0xFF, 0xFF, 0xFF, 0xFF, 0xFF, 0xFF, 0xFF, 0xFF, 0xFF, 0xFF, 0xFF, 0xFF, 0xFF, 0xFF, 0xFF, 0xFF, 0xFF, 0xFF, 0xFF, 0xFF, 0xFF, 0xFF, 0xFF, 0xFF, 0xFF, 0xFF, 0xFF, 0xFF, 0xFF, 0xFF, 0xFF, 0xFF, 0xFF, 0xFF, 0xFF, 0xFF, 0xFF, 0xFF, 0xFF, 0xFF, 0xFF, 0xFF, 0xFF, 0xFF, 0xFF, 0xFF, 0xFF, 0xFF, 0xFF, 0xFF, 0xFF, 0xFF, 0xFF, 0xFF, 0x0D, 0x06, 0x00]
  let lossy : Option DataType := some (.lossyNumber (.int (-1)))
  let none' : Option DataType := some (.text [])
  ck "lossy" ((items raw).map (·.data.value) == [lossy, none', lossy, none', lossy, none', lossy, none', lossy, none'])
  -- annotate.rs
  let ann (d : List UInt8) := okD (annotateFrame cfg text d)
  let frames : List (List UInt8) := [example1, [0x10, 0x5B, 0x01, 0x5C, 0x16], [0xE5],
    longFrame 8 1 (header ++ [0, 0, 4, 7, 0, 0, 0, 0]), longFrame 8 1 (header ++ [0, 5, 0xAA, 0xBB, 0xCC, 0xDD, 0xEE, 0xFF, 0x11, 0x22]),
    longFrame 8 1 (header ++ [0, 0, 0x0F, 0x60, 0x00]), longFrame 8 1 (header ++ [0, 0, 0x2F, 0x2F, 0x2F, 0x2F]),
    [0x19, 0x44, 0xAE, 0x4C, 0x44, 0x55, 0x22, 0x33, 0x68, 0x07, 0x7A, 0x55, 0, 0, 0, 0, 0x04, 0x13, 0x89, 0xE2, 0x01, 0, 0x02, 0x3B, 0, 0],
    [0x12, 0x44, 0xAE, 0x0C, 0x78, 0x56, 0x34, 0x12, 0x01, 0x07, 0x8C, 0x20, 0x27, 0x78, 0x0B, 0x13, 0x43, 0x65, 0x87]]
  for d in frames do
    ck "contiguous" (isOk (annotateFrame cfg text d) && contiguous 0 (ann d) d.length)
  let kinds (i : Nat) := (ann (frames[i]?.getD [])).map (·.kind)
  let seg (i : Nat) (k : SegmentKind) := (ann (frames[i]?.getD [])).find? (·.kind == k)
  ck "long" ((kinds 0).take 6 == [.startByte, .length, .startByte, .cField, .aField, .ciField] &&
    ((ann example1).take 6).map (fun s => (s.start, s.stop)) == [(0, 1), (1, 3), (3, 4), (4, 5), (5, 6), (6, 7)])
  ck "long end" ((kinds 0).reverse.take 2 == [.stopByte, .checksum])
  ck "short" (kinds 1 == [.startByte, .cField, .aField, .checksum, .stopByte])
  ck "single" (kinds 2 == [.startByte])
  ck "record" ((seg 3 .dif).map (fun s => (s.group, s.start)) == some (some 0, 19) &&
    (seg 3 .vif).map (fun s => (s.group, s.start)) == some (some 0, 20) &&
    (seg 3 .dataPayload).map (fun s => (s.group, s.start, s.stop)) == some (some 0, 21, 25))
  ck "encrypted" ((seg 4 .encryptedPayload).map (fun s => (s.start, s.stop)) == some (19, 27) && !(kinds 4).contains .dif)
  ck "manufacturer" ((seg 5 .manufacturerSpecific).map (fun s => (s.start, s.stop)) == some (19, 22))
  ck "filler" ((kinds 6).count .idleFiller == 4)
  if cfg.plaintextFirst then ck "plaintext vif" ((kinds 0).contains .plaintextVif)
  ck "wireless" ((kinds 7).take 6 == [.lField, .cField, .manufacturerCode, .identificationNumber, .version, .deviceType])
  ck "ell" ((ann (frames[8]?.getD [])).any (fun s => s.kind == .ciField && s.start == 13 && sub (String.ofList s.detail) "Application Layer, no TPL header") &&
    !(kinds 8).contains .unknown)
  -- test_wireless.rs
  let crcFrame : List UInt8 := [0x14, 0x44, 0xAE, 0x0C, 0x78, 0x56, 0x34, 0x12, 0x01, 0x07, 0x8C, 0x20, 0x27, 0x78, 0x0B, 0x13, 0x43, 0x65, 0x87, 0x7A, 0xC5]
  let crcAnn := ann crcFrame
  ck "crc ci" (crcAnn.any fun s => s.kind == .ciField && s.start == 13 && sub (String.ofList s.detail) "0x78")
  ck "crc data" (crcAnn.any fun s => s.kind == .dataPayload && s.start == 16 && s.stop == 19 && String.ofList s.detail == "876543")
  ck "crc last" ((crcAnn.getLast?.map fun s => (s.kind, s.start, s.stop)) == some (.crc, 19, 21))
  ck "crc unknown" (!crcAnn.any fun s => s.kind == .unknown || sub (String.ofList s.detail) "Unparseable data record bytes")
  for d in [frames[8]?.getD [], crcFrame] do
    ck "ci 78" (match MbusData.tryFromWireless d with
      | .ok m => (match m.userData, m.dataRecords with
        | some (.noTpl (some e) b), some s => e.communicationControl == 0x20 && e.accessNumber == 0x27 &&
          b == [0x0B, 0x13, 0x43, 0x65, 0x87] && (items (s.collect cfg)).length == 1
        | _, _ => false)
      | _ => false)
  -- wireless link layer
  ck "crc start" (trailingFrameCrcStart crcFrame == some 19)
  ck "crc payload" (match WirelessFrame.tryFrom crcFrame with | .ok f => f.data == [0x8C, 0x20, 0x27, 0x78, 0x0B, 0x13, 0x43, 0x65, 0x87] | _ => false)
  let wl (c : UInt8) : List UInt8 := [0x18, c, 0xAE, 0x4C, 0x44, 0x55, 0x22, 0x33, 0x68, 0x07, 0x7A, 0x55, 0, 0, 0, 0, 0x04, 0x13, 0x89, 0xE2, 0x01, 0, 0x02, 0x3B, 0]
  ck "c field" (match WirelessFrame.tryFrom (wl 0x44) with | .ok f => f.controlField == 0x44 && f.function == some .sndNr | _ => false)
  ck "unknown c field" (match WirelessFrame.tryFrom (wl 0x45) with | .ok f => f.controlField == 0x45 && f.function == none | _ => false)
  -- wired link layer
  ck "single character" (WiredFrame.tryFrom cfg [0xE5] == .ok (.singleCharacter 0xE5))
  ck "short frame" (WiredFrame.tryFrom cfg [0x10, 0x7B, 0x8b, 0x06, 0x16] == .ok (.shortFrame (.reqUd2 true) (Address.ofByte 0x8B)))
  ck "control frame" (WiredFrame.tryFrom cfg [0x68, 0x03, 0x03, 0x68, 0x53, 0x01, 0x51, 0xA5, 0x16] == .ok (.controlFrame (.sndUd false) (.primary 1) [0x51]))
  ck "long frame" (WiredFrame.tryFrom cfg example1 == .ok (.longFrame (.rspUd false false) (.primary 1) ((example1.drop 6).take 75)))
  -- decryption.rs
  let ctx : KeyContext := ⟨okD (ManufacturerCode.fromId 0x6A49), 14639203, 0, .waterMeter, .aesCbc128IvNonZero, 0x50⟩
  ck "iv" (deriveIv ctx == [0x49, 0x6A, 0x03, 0x92, 0x63, 0x14, 0x00, 0x07] ++ List.replicate 8 0x50)
  ck "iv2" (deriveIv ⟨okD (ManufacturerCode.fromId 0x1ee6), 12345678, 0x42, .waterMeter, .aesCbc128IvNonZero, 0x50⟩ ==
    [0xe6, 0x1e, 0x78, 0x56, 0x34, 0x12, 0x42, 0x07] ++ List.replicate 8 0x50)
  let p := ((StaticKeyProvider.new 1).addKey 0x6A49 14639203 [0xF8, 0xB2, 0x4F, 0x12, 0xF9, 0xD1, 0x13, 0xF6, 0x80, 0xBE, 0xE7, 0x65, 0xFD, 0xE6, 0x7E, 0xC0]).2
  let r := decryptInto Spec.Aes.aes128 p.getKey ctx [0x98, 0xA7, 0x8E, 0x0D, 0x71, 0xAA, 0x63, 0x58, 0xEE, 0xBD, 0x0B, 0x20, 0xBF, 0xDF, 0x99, 0xED, 0xA2, 0xD2, 0x2F, 0xA2, 0x53, 0x14, 0xF3, 0xF1, 0xB8, 0x44, 0x70, 0x89, 0x8E, 0x49, 0x53, 0x03, 0x92, 0x37, 0x70, 0xBA, 0x8D, 0xDA, 0x97, 0xC9, 0x64, 0xF0, 0xEA, 0x6C, 0xE2, 0x4F, 0x56, 0x50, 0xC0, 0xA6, 0xCD, 0xF3, 0xDE, 0x37, 0xDE, 0x33, 0xFB, 0xFB, 0xEB, 0xAC, 0xE4, 0x00, 0x9B, 0xB0, 0xD8, 0xEB, 0xA2, 0xCB, 0xE8, 0x04, 0x33, 0xFF, 0x13, 0x13, 0x28, 0x20, 0x60, 0x20, 0xB1, 0xBF] (List.replicate 80 0)
  ck "mode 5" (r.1 == .ok 80 && r.2 == [0x2F, 0x2F, 0x0C, 0x13, 0x29, 0x73, 0x06, 0x00, 0x02, 0x6C, 0x94, 0x21, 0x82, 0x04, 0x6C, 0x81, 0x21, 0x8C, 0x04, 0x13, 0x75, 0x44, 0x06, 0x00, 0x8D, 0x04, 0x93, 0x13, 0x2C, 0xFB, 0xFE, 0x12, 0x44, 0x00, 0x51, 0x41, 0x00, 0x70, 0x35, 0x00, 0x77, 0x33, 0x00, 0x75, 0x49, 0x00, 0x16, 0x36, 0x00, 0x73, 0x56, 0x00, 0x91, 0x55, 0x00, 0x95, 0x57, 0x00, 0x31, 0x57, 0x00, 0x28, 0x42, 0x00, 0x18, 0x47, 0x00, 0x61, 0x39, 0x00, 0x56, 0x42, 0x00, 0x02, 0xFD, 0x17, 0x00, 0x00, 0x2F, 0x2F])
  ck "cbc" ((decryptAesCbcInto Spec.Aes.aes128 [0x66, 0xe9, 0x4b, 0xd4, 0xef, 0x8a, 0x2c, 0x3b, 0x88, 0x4c, 0xfa, 0x59, 0xca, 0x34, 0x2b, 0x2e]
    (List.replicate 16 0) (List.replicate 16 0) (List.replicate 16 0)).1 == .ok 16)
  -- highlight.rs
  let src := "a,b\n\"one,two\",\"<tag>\"\n\"line\nbreak\",x"
  let html := String.ofList (highlightCsv src.toList)
  ck "highlight" (count html "\n" == count src "\n" && count html "syn-csv-delimiter" == 3 && sub html "&quot;one,two&quot;" &&
    sub html "&lt;tag&gt;" && !sub html "<tag>")
  let html := String.ofList (highlightCsv "meter_id,record_count\n02205100,10".toList)
  ck "highlight columns" (count html "\n" == 1 && sub html "syn-csv-column-0" && sub html "syn-csv-column-1" && !sub html "syn-text syn-plain")
  -- front ends
  ck "js key" (isErr (jsKey (some "123".toList)) && isErr (jsKey (some "00".toList)) && isOk (jsKey (some "00112233445566778899AABBCCDDEEFF".toList)))
  ck "cli key" (isOk (cliKey "00112233445566778899AABBCCDDEEFF".toList) && isErr (cliKey "0011".toList) &&
    isErr (cliKey "00112233445566778899AABBCCDDEEFG".toList))
  ck "hex" (decodeHexBytes "0x68: 3d-0X16".toList == .ok [0x68, 0x3D, 0x16] && isErr (decodeHexBytes "68,3D".toList) &&
    isErr (decodeHexBytes "123".toList))
  ck "formats" (formatNamed "yml".toList == .ok .yaml && formatNamed "xml".toList == .ok .xml && isErr (formatNamed "not-a-format".toList))
  -- application_layer_frames.rs
  let recs (d : List UInt8) : Option (LongTplHeader × List (Res RecordError DataRecord)) := match WiredFrame.tryFrom cfg d with
    | .ok (.longFrame _ _ b) => (match UserDataBlock.tryFrom b with
      | .ok (.long _ h v) => some (h, parseDataRecords cfg h.lsbOrder v) | _ => none)
    | _ => none
  for q in ([([0x68, 0x64, 0x64, 0x68, 0x8, 0x7f, 0x76, 0x9, 0x67, 0x1, 0x6, 0x0, 0x0, 0x51, 0x4, 0x50, 0x0, 0x0, 0x0, 0x2, 0x6c, 0x38, 0x1c, 0xc, 0xf, 0x0, 0x80, 0x87, 0x32, 0x8c, 0x20, 0xf, 0x0, 0x0, 0x0, 0x0, 0xc, 0x14, 0x13, 0x32, 0x82, 0x58, 0xbc, 0x10, 0x15, 0x0, 0x25, 0x81, 0x25, 0x8c, 0x20, 0x13, 0x0, 0x0, 0x0, 0x0, 0x8c, 0x30, 0x13, 0x0, 0x0, 0x1, 0x61, 0x8c, 0x40, 0x13, 0x0, 0x0, 0x16, 0x88, 0xa, 0x3c, 0x1, 0x10, 0xa, 0x2d, 0x0, 0x80, 0xa, 0x5a, 0x7, 0x18, 0xa, 0x5e, 0x6, 0x53, 0xc, 0x22, 0x0, 0x16, 0x7, 0x26, 0x3c, 0x22, 0x0, 0x0, 0x33, 0x81, 0x4, 0x7e, 0x0, 0x0, 0x67, 0xc, 0xc, 0x16], 9670106, 808732), ([0x68, 0xc7, 0xc7, 0x68, 0x8, 0x38, 0x72, 0x56, 0x73, 0x23, 0x72, 0x2d, 0x2c, 0x34, 0x4, 0x87, 0x0, 0x0, 0x0, 0x4, 0xf, 0x7f, 0x1c, 0x1, 0x0, 0x4, 0xff, 0x7, 0x8a, 0xad, 0x8, 0x0, 0x4, 0xff, 0x8, 0x6, 0xfe, 0x5, 0x0, 0x4, 0x14, 0x4e, 0x55, 0xb, 0x0, 0x84, 0x40, 0x14, 0x0, 0x0, 0x0, 0x0, 0x84, 0x80, 0x40, 0x14, 0x0, 0x0, 0x0, 0x0, 0x4, 0x22, 0x76, 0x7f, 0x0, 0x0, 0x34, 0x22, 0x8b, 0x2c, 0x0, 0x0, 0x2, 0x59, 0x61, 0x1b, 0x2, 0x5d, 0x5f, 0x10, 0x2, 0x61, 0x2, 0xb, 0x4, 0x2d, 0x55, 0x0, 0x0, 0x0, 0x14, 0x2d, 0x83, 0x0, 0x0, 0x0, 0x4, 0x3b, 0x6, 0x1, 0x0, 0x0, 0x14, 0x3b, 0xaa, 0x1, 0x0, 0x0, 0x4, 0xff, 0x22, 0x0, 0x0, 0x0, 0x0, 0x4, 0x6d, 0x6, 0x2c, 0x1f, 0x3a, 0x44, 0xf, 0xcf, 0x11, 0x1, 0x0, 0x44, 0xff, 0x7, 0xb, 0x69, 0x8, 0x0, 0x44, 0xff, 0x8, 0x54, 0xd3, 0x5, 0x0, 0x44, 0x14, 0x11, 0xf3, 0xa, 0x0, 0xc4, 0x40, 0x14, 0x0, 0x0, 0x0, 0x0, 0xc4, 0x80, 0x40, 0x14, 0x0, 0x0, 0x0, 0x0, 0x54, 0x2d, 0x3a, 0x0, 0x0, 0x0, 0x54, 0x3b, 0x28, 0x1, 0x0, 0x0, 0x42, 0x6c, 0x1, 0x3a, 0x2, 0xff, 0x1a, 0x1, 0x1a, 0xc, 0x78, 0x56, 0x73, 0x23, 0x72, 0x4, 0xff, 0x16, 0xe6, 0x84, 0x1e, 0x0, 0x4, 0xff, 0x17, 0xc1, 0xd5, 0xb4, 0x0, 0x12, 0x16], 72237356, 568714)] : List (List UInt8 × Nat × Int)) do
    ck "lsb" (match recs q.1 with
      | some (h, rs) => h.identificationNumber == q.2.1 && rs.all isOk && ((items rs)[1]?.bind (·.data.value)) == num q.2.2
      | none => false)
  ck "manufacturer specific" (match recs [0x68, 0x55, 0x55, 0x68, 0x8, 0x1e, 0x72, 0x34, 0x35, 0x58, 0x12, 0x92, 0x26, 0x18, 0x4, 0x14, 0x0, 0x0, 0x0, 0xc, 0x78, 0x34, 0x35, 0x58, 0x12, 0x4, 0xe, 0x57, 0x64, 0x3, 0x0, 0xc, 0x14, 0x73, 0x58, 0x44, 0x0, 0xb, 0x2d, 0x6, 0x0, 0x0, 0xb, 0x3b, 0x55, 0x0, 0x0, 0xa, 0x5a, 0x87, 0x6, 0xa, 0x5e, 0x77, 0x5, 0xb, 0x61, 0x1, 0x11, 0x0, 0x4, 0x6d, 0x10, 0x2, 0x4, 0x3c, 0x2, 0x27, 0x79, 0x11, 0x9, 0xfd, 0xe, 0x6, 0x9, 0xfd, 0xf, 0x6, 0x8c, 0xc0, 0x0, 0x15, 0x71, 0x25, 0x0, 0x0, 0xf, 0x0, 0x0, 0x86, 0x16] with
    | some (_, rs) => rs.all isOk && rs.length == 14 && ((items rs).reverse.map (·.data.value)).take 2 == [some (.manufacturerSpecific [0, 0]), num 2571]
    | none => false)
  ck "real" (match recs [0x68, 0xa7, 0xa7, 0x68, 0x8, 0x4d, 0x72, 0x82, 0x4, 0x75, 0x30, 0xee, 0x4d, 0x19, 0x4, 0xc2, 0x0, 0x0, 0x0, 0x4, 0xe, 0x1b, 0xe, 0x0, 0x0, 0x84, 0xa, 0xe, 0x4c, 0x6, 0x0, 0x0, 0x4, 0x13, 0x7, 0x81, 0x0, 0x0, 0x84, 0xa, 0x13, 0x9d, 0x37, 0x0, 0x0, 0xb, 0xfd, 0xf, 0x0, 0x7, 0x1, 0xa, 0xfd, 0xd, 0x0, 0x11, 0x8c, 0x40, 0x79, 0x1, 0x0, 0x0, 0x0, 0x84, 0x40, 0x14, 0x31, 0x5, 0x0, 0x0, 0x84, 0x4a, 0x14, 0xfd, 0x4, 0x0, 0x0, 0x8c, 0x80, 0x40, 0x79, 0x2, 0x0, 0x0, 0x0, 0x84, 0x80, 0x40, 0x14, 0x27, 0x50, 0x0, 0x0, 0x84, 0x8a, 0x40, 0x14, 0x8, 0x31, 0x0, 0x0, 0x5, 0xff, 0x1, 0xdf, 0xa3, 0xb1, 0x3e, 0x5, 0xff, 0x2, 0xa8, 0x59, 0x6b, 0x3f, 0xc, 0x78, 0x82, 0x4, 0x75, 0x30, 0x4, 0x6d, 0x5, 0xb, 0x2f, 0x31, 0x82, 0xa, 0x6c, 0xe1, 0xf1, 0x5, 0x5b, 0x40, 0x7a, 0x63, 0x42, 0x5, 0x5f, 0x80, 0xc3, 0x25, 0x42, 0x5, 0x3e, 0x0, 0x0, 0x0, 0x0, 0x5, 0x2b, 0x0, 0x0, 0x0, 0x0, 0x1, 0xff, 0x2b, 0x0, 0x3, 0x22, 0x17, 0x3b, 0x0, 0x2, 0xff, 0x2c, 0x0, 0x0, 0x1f, 0xa4, 0x16] with
    | some (_, rs) => rs.all isOk && rs.length == 25 && (items rs).all fun r => match r.header.processed.valueInfo, r.data.value with
      | some v, some (.number (.real32 b)) =>
        (!v.labels.contains .returnTemperature || (Float32.ofBits b).toFloat == 41.44091796875) &&
        (!v.labels.contains .flowTemperature || (Float32.ofBits b).toFloat == 56.869384765625)
      | some v, _ => !v.labels.contains .returnTemperature && !v.labels.contains .flowTemperature
      | none, _ => true
    | none => false)
  -- test_other_meters.rs
  let bytes := cleanAndConvert "68 65 65 68 08 00 72 78 56 34 12 74 52 C7 02 2A 00 00 00 04 05 73 00 00 00 04 FB 82 75 00 00 00 00 04 2A 8F 00 00 00 04 FB 97 72 AF FF FF FF 04 FB B7 72 A5 00 00 00 02 FD BA 73 64 03 84 80 80 40 FD 48 00 00 00 00 04 FD 48 F7 02 00 00 84 40 FD 59 77 00 00 00 84 80 40 FD 59 00 00 00 00 84 C0 40 FD 59 00 00 00 00 1F F9 16".toList
  match parseFrameOutput cfg realText Spec.Aes.aes128 bytes none with
  | .ok o =>
    let d := olderDocument cfg lit bytes o
    let h : List (String ⊕ Nat) := [.inl "user_data", .inl "VariableDataStructureWithLongTplHeader", .inl "long_tpl_header"]
    ck "electricity header" (strAt d (h ++ [.inl "device_type"]) == some "ElectricityMeter" &&
      numAt d (h ++ [.inl "identification_number", .inl "number"]) == some "12345678" &&
      numAt d (h ++ [.inl "version"]) == some "199" &&
      (List.range 3).map (fun i => strAt d (h ++ [.inl "manufacturer", .inl "Ok", .inl "code", .inr i])) == [some "T", some "S", some "T"] &&
      numAt d (h ++ [.inl "short_tpl_header", .inl "access_number"]) == some "42")
    ck "electricity records" (lenAt d [.inl "data_records"] == some 12)
    let expected : List (String × List (String × Int) × Int × Int × Nat) := [
      ("Energy", [("Watt", 1), ("Hour", 1)], 2, 115, 0), ("ReactiveEnergy", [("ReactiveWatt", 1), ("Hour", 1)], 2, 0, 0),
      ("Power", [("Watt", 1)], -1, 143, 0), ("ReactivePower", [("ReactiveWatt", 1)], -1, -81, 0),
      ("ApparentPower", [("ApparentWatt", 1)], -1, 165, 0), ("Dimensionless", [], -3, 868, 0),
      ("Voltage", [("Volt", 1)], -1, 0, 4), ("Voltage", [("Volt", 1)], -1, 759, 0), ("Current", [("Ampere", 1)], -3, 119, 1),
      ("Current", [("Ampere", 1)], -3, 0, 2), ("Current", [("Ampere", 1)], -3, 0, 3)]
    for (e, i) in expected.zipIdx do
      let rec' : List (String ⊕ Nat) := [.inl "data_records", .inr i]
      let hd := rec' ++ [.inl "data_record_header", .inl "processed_data_record_header"]
      let v := hd ++ [.inl "value_information"]
      let f := hd ++ [.inl "data_information"]
      ck s!"electricity {i}" (strAt d (v ++ [.inl "labels", .inr 0]) == some e.1 &&
        numAt d (v ++ [.inl "decimal_scale_exponent"]) == some (toString e.2.2.1) &&
        numAt d (rec' ++ [.inl "data", .inl "value", .inl "Number"]) == some (toString e.2.2.2.1 ++ ".0") &&
        strAt d (f ++ [.inl "function_field"]) == some "InstantaneousValue" &&
        numAt d (f ++ [.inl "storage_number"]) == some "0" && numAt d (f ++ [.inl "tariff"]) == some "0" &&
        numAt d (f ++ [.inl "device"]) == some (toString e.2.2.2.2) && lenAt d (v ++ [.inl "units"]) == some e.2.1.length)
      for (u, j) in e.2.1.zipIdx do
        ck s!"electricity {i} unit {j}" (strAt d (v ++ [.inl "units", .inr j, .inl "name"]) == some u.1 &&
          numAt d (v ++ [.inl "units", .inr j, .inl "exponent"]) == some (toString u.2))
    let last : List (String ⊕ Nat) := [.inl "data_records", .inr 11]
    ck "electricity last" (strAt d (last ++ [.inl "data_record_header", .inl "processed_data_record_header", .inl "data_information", .inl "data_field_coding", .inl "SpecialFunctions"]) == some "MoreRecordsFollow" &&
      nullAt d (last ++ [.inl "data_record_header", .inl "processed_data_record_header", .inl "value_information"]) &&
      numAt d (last ++ [.inl "data_record_header", .inl "raw_data_record_header", .inl "data_information_block", .inl "data_information_field", .inl "data"]) == some "31" &&
      strAt d (last ++ [.inl "data", .inl "value", .inl "ManufacturerSpecific"]) == some "")
  | _ => ck "electricity" false
 IO.println s!"{← total.get} assertions evaluated"
