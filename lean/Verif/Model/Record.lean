import Verif.Model.ValueInfo
/-!
# Model of `crates/m-bus-application-layer/src/data_record.rs` and of the record iterator in
`crates/m-bus-application-layer/src/lib.rs`
-/
namespace MBus

/-- `RawDataRecordHeader`, data_record.rs:10-13. -/
structure RawHeader where
  dib : DIB
  vib : Option VIB
  deriving DecidableEq, Repr, Inhabited

/-- `ProcessedDataRecordHeader`, data_record.rs:17-20. -/
structure ProcessedHeader where
  dataInfo : Option DataInfo
  valueInfo : Option ValueInfo
  deriving DecidableEq, Repr, Inhabited

/-- `DataRecordHeader`, data_record.rs:149-152. -/
structure RecordHeader where
  raw : RawHeader
  processed : ProcessedHeader
  deriving DecidableEq, Repr, Inhabited

/-- `DataRecord`, data_record.rs:24-33. -/
structure DataRecord where
  header : RecordHeader
  data : Data
  rawBytes : List UInt8
  deriving DecidableEq, Repr, Inhabited

/-- `DataRecordHeader::get_size`, data_record.rs:154-167. -/
def RecordHeader.size (h : RecordHeader) : Nat :=
  match h.raw.vib with
  | some v => h.raw.dib.size + v.size
  | none => h.raw.dib.size

/-- `DataRecord::get_size`, data_record.rs:66-69. -/
def DataRecord.size (r : DataRecord) : Nat := r.rawBytes.length

/-- `RawDataRecordHeader::try_from(&[u8])`, data_record.rs:169-189. -/
def RawHeader.tryFrom (cfg : Cfg) (data : List UInt8) : Res RecordError RawHeader := do
  let dib ← (DIB.tryFrom data).mapErr .dataInformation
  let offset := dib.size
  if !isSpecialFunction dib.dif then
    let rest ← Res.ofOption .insufficientData (sliceFrom? data offset)
    let vib ← (VIB.tryFrom cfg rest).mapErr .dataInformation
    .ok ⟨dib, some vib⟩
  else .ok ⟨dib, none⟩

/-- The date/time override of the data field coding, data_record.rs:202-219. -/
def dateCoding (labels : List ValueLabel) (c : Coding) : Coding :=
  if .date ∈ labels then .dateTypeG
  else if .dateTime ∈ labels then
    if c = .integer48 then .dateTimeTypeI else .dateTimeTypeF
  else if .time ∈ labels then .dateTimeTypeJ
  else if .dateTimeWithSeconds ∈ labels then .dateTimeTypeI
  else c

/-- `ProcessedDataRecordHeader::try_from(&RawDataRecordHeader)`, data_record.rs:191-238. -/
def ProcessedHeader.tryFrom (raw : RawHeader) : Res RecordError ProcessedHeader :=
  match raw.vib with
  | some x => do
    let v ← (ValueInfo.tryFrom x).mapErr .dataInformation
    let d ← (DataInfo.tryFrom raw.dib).mapErr .dataInformation
    .ok ⟨some { d with coding := dateCoding v.labels d.coding }, some v⟩
  | none =>
    if isSpecialFunction raw.dib.dif then do
      let d ← (DataInfo.tryFrom raw.dib).mapErr .dataInformation
      .ok ⟨some d, none⟩
    else .ok ⟨none, none⟩

/-- `DataRecordHeader::try_from(&[u8])`, data_record.rs:240-251. -/
def RecordHeader.tryFrom (cfg : Cfg) (data : List UInt8) : Res RecordError RecordHeader := do
  let raw ← RawHeader.tryFrom cfg data
  let processed ← ProcessedHeader.tryFrom raw
  .ok ⟨raw, processed⟩

/-- `DataRecord::parse`, data_record.rs:101-143, and the two `DataRecord::try_from` that call it,
data_record.rs:253-267.  Of the optional transport header only the byte order flag is used. -/
def DataRecord.parse (cfg : Cfg) (lsb : Bool) (data : List UInt8) : Res RecordError DataRecord := do
  let header ← RecordHeader.tryFrom cfg data
  let headerSize := header.size
  if data.length < headerSize then .err .insufficientData
  else
    let rest ← Res.ofOption .insufficientData (sliceFrom? data headerSize)
    let dataOut ← match header.processed.dataInfo with
      | some di => di.coding.parse cfg lsb rest
      | none => .ok ⟨some (.manufacturerSpecific rest), data.length - headerSize⟩
    let recordSize := min (headerSize + dataOut.size) data.length
    let rawBytes ← Res.ofOption .insufficientData (sliceTo? data recordSize)
    .ok ⟨header, dataOut, rawBytes⟩

/-- `data_record_header_hex` and `data_hex` print these two parts of the record's raw bytes,
data_record.rs:73-98. -/
def DataRecord.headerBytes (r : DataRecord) : List UInt8 :=
  (slice? r.rawBytes 0 r.header.size).getD []
def DataRecord.dataBytes (r : DataRecord) : List UInt8 :=
  (slice? r.rawBytes r.header.size r.size).getD []

/-- `DataRecords`, application-layer lib.rs:80-84; `lsb` is the byte order flag of the optional
transport header. -/
structure DataRecords where
  offset : Nat
  data : List UInt8
  lsb : Bool
  deriving DecidableEq, Repr, Inhabited

/-- `DataRecords::new`, application-layer lib.rs:155-161. -/
def DataRecords.new (data : List UInt8) (lsb : Bool) : DataRecords := ⟨0, data, lsb⟩

/-- `DataRecords::next`, application-layer lib.rs:97-150: the item (`none` at the end of the
iteration) and the iterator's new state.  A panic inside `DataRecord::try_from` is the item
`some .panic`. -/
def DataRecords.next (cfg : Cfg) (s : DataRecords) :
    Option (Res RecordError DataRecord) × DataRecords :=
  if h : s.offset < s.data.length then
    let dif := s.data[s.offset]
    if isSpecialFunction dif then
      match specialFunction dif with
      | .idleFiller => DataRecords.next cfg { s with offset := s.offset + 1 }
      | .manufacturerSpecific | .moreRecordsFollow =>
        (some (DataRecord.parse cfg s.lsb (s.data.drop s.offset)),
          { s with offset := s.data.length })
      | .globalReadoutRequest =>
        (some (DataRecord.parse cfg s.lsb (s.data.drop s.offset)), { s with offset := s.offset + 1 })
      | .reserved => DataRecords.next cfg { s with offset := s.offset + 1 }
    else
      match DataRecord.parse cfg s.lsb (s.data.drop s.offset) with
      | .ok r => (some (.ok r), { s with offset := s.offset + r.size })
      | .err e => (some (.err e), { s with offset := s.data.length })
      | .panic => (some .panic, s)
  else (none, s)
termination_by s.data.length - s.offset

/-- The results of calling `next` `n` times on the iterator, whatever it returns; a panic unwinds
the caller, so no call follows it. -/
def DataRecords.calls (cfg : Cfg) : Nat → DataRecords → List (Option (Res RecordError DataRecord))
  | 0, _ => []
  | n + 1, s =>
    match s.next cfg with
    | (some .panic, _) => [some .panic]
    | (x, s') => x :: DataRecords.calls cfg n s'

/-- All items, as a `for` loop or `collect` sees them: the results of `next` up to the first `None`.
Theorem `C27_calls` shows that `data.length + 1` calls suffice. -/
def DataRecords.collect (cfg : Cfg) (s : DataRecords) : List (Res RecordError DataRecord) :=
  (DataRecords.calls cfg (s.data.length + 1) s).takeWhile Option.isSome |>.filterMap id

/-- `parse_data_records`, application-layer lib.rs:58-60, and `parse_data_records_with_header`,
lib.rs:67-72, followed by a loop over the iterator. -/
def parseDataRecords (cfg : Cfg) (lsb : Bool) (data : List UInt8) : List (Res RecordError DataRecord) :=
  (DataRecords.new data lsb).collect cfg

/-- `From<DataRecords> for Vec<DataRecord>`, application-layer lib.rs:86-92: the records, or the
empty vector if any item is an error.  `none` stands for a panic. -/
def DataRecords.toVec (cfg : Cfg) (s : DataRecords) : Option (List DataRecord) :=
  let items := s.collect cfg
  if .panic ∈ items then none
  else if items.all (fun x => x.toOption.isSome) then some (items.filterMap Res.toOption)
  else some []

end MBus
