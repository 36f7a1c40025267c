import Verif.Model.F64
/-!
# Model of `crates/m-bus-application-layer/src/data_information.rs`
-/
namespace MBus

/-- `DataInformationError`, data_information.rs:171-177. -/
inductive DataInfoError where
  | noData
  | dataTooLong
  | dataTooShort
  | invalidValueInformation
  | unimplemented (feature : String)
  deriving DecidableEq, Repr, Inhabited

/-- `DataRecordError`, variable_user_data.rs:8-11. -/
inductive RecordError where
  | dataInformation (e : DataInfoError)
  | insufficientData
  deriving DecidableEq, Repr, Inhabited

/-- `DataInformationBlock`, data_information.rs:8-11: the DIF and the DIFE bytes, if any. -/
structure DIB where
  dif : UInt8
  difes : Option (List UInt8)
  deriving DecidableEq, Repr, Inhabited

/-- `DataInformationBlock::get_size`, data_information.rs:13-21. -/
def DIB.size (b : DIB) : Nat :=
  match b.difes with
  | some d => 1 + d.length
  | none => 1

/-- The extension bit of a DIF, DIFE, VIF or VIFE: `has_extension`, data_information.rs:120-122,
value_information.rs:169-179. -/
def hasExt (b : UInt8) : Bool := b &&& 0x80 != 0

/-- `MAXIMUM_DATA_INFORMATION_SIZE`, data_information.rs:161. -/
def maxDataInformationSize : Nat := 11

/-- `DataInformationBlock::try_from(&[u8])`, data_information.rs:82-117. -/
def DIB.tryFrom (data : List UInt8) : Res DataInfoError DIB :=
  match data with
  | [] => .err .noData
  | dif :: rest =>
    let length := (rest.takeWhile (fun b => hasExt b)).length
    let offset := length + 1
    if hasExt dif ∧ offset > maxDataInformationSize then .err .dataTooLong
    else if hasExt dif ∧ offset > rest.length then .err .dataTooShort
    else if hasExt dif then do
      let d ← Res.ofOption .dataTooShort (sliceTo? rest offset)
      .ok ⟨dif, some d⟩
    else .ok ⟨dif, none⟩

/-- `is_special_function`, data_information.rs:124-126. -/
def isSpecialFunction (dif : UInt8) : Bool := dif &&& 0x0F == 0x0F

/-- `SpecialFunctions`, data_information.rs:911-917. -/
inductive SpecialFunction where
  | manufacturerSpecific | moreRecordsFollow | idleFiller | reserved | globalReadoutRequest
  deriving DecidableEq, Repr, Inhabited

/-- `special_function`, data_information.rs:128-136. -/
def specialFunction (dif : UInt8) : SpecialFunction :=
  if dif = 0x0F then .manufacturerSpecific
  else if dif = 0x1F then .moreRecordsFollow
  else if dif = 0x2F then .idleFiller
  else if dif = 0x7F then .globalReadoutRequest
  else .reserved

/-- `FunctionField`, data_information.rs:889-894. -/
inductive FunctionField where
  | instantaneousValue | maximumValue | minimumValue | valueDuringErrorState
  deriving DecidableEq, Repr, Inhabited

/-- `DataFieldCoding`, data_information.rs:929-950. -/
inductive Coding where
  | noData | integer8 | integer16 | integer24 | integer32 | real32 | integer48 | integer64
  | selectionForReadout | bcd2 | bcd4 | bcd6 | bcd8 | variableLength | bcd12
  | specialFunctions (f : SpecialFunction)
  | dateTypeG | dateTimeTypeF | dateTimeTypeJ | dateTimeTypeI
  deriving DecidableEq, Repr, Inhabited

/-- `DataInformation`, data_information.rs:140-148.  The `u64` numbers are natural numbers here;
theorem `C18_fields_fit_in_u64` shows that the Rust arithmetic never overflows.
`data_information_extension` (an empty marker struct) is a Boolean. -/
structure DataInfo where
  storageNumber : Nat
  tariff : Nat
  device : Nat
  functionField : FunctionField
  coding : Coding
  extension : Bool
  size : Nat
  deriving DecidableEq, Repr, Inhabited

/-- Loop state of `DataInformation::try_from`, data_information.rs:201-227. -/
structure DifeState where
  storage : Nat
  tariff : Nat
  device : Nat
  ext : Bool
  extIndex : Nat
  tariffIndex : Nat
  deviceIndex : Nat
  deriving Repr

/-- The loop over the DIFEs, data_information.rs:212-226. -/
def difeLoop : List UInt8 → DifeState → Res DataInfoError DifeState
  | [], s => .ok s
  | dife :: rest, s =>
    if s.extIndex > maxDataInformationSize then .err .dataTooLong
    else difeLoop rest
      { storage := s.storage + ((dife &&& 0x0f).toNat <<< (s.extIndex * 4 + 1))
        tariff := s.tariff ||| (((dife &&& 0x30) >>> 4).toNat <<< s.tariffIndex)
        device := s.device ||| (((dife &&& 0x40) >>> 6).toNat <<< s.deviceIndex)
        ext := dife &&& 0x80 != 0
        extIndex := s.extIndex + 1
        tariffIndex := s.tariffIndex + 2
        deviceIndex := s.deviceIndex + 1 }

/-- The function field of a DIF, data_information.rs:229-234. -/
def functionFieldOf (dif : UInt8) : FunctionField :=
  let f := (dif &&& 0x30) >>> 4
  if f = 0 then .instantaneousValue
  else if f = 1 then .maximumValue
  else if f = 2 then .minimumValue
  else .valueDuringErrorState

/-- The data field coding of a DIF, data_information.rs:235-257. -/
def codingOf (dif : UInt8) : Coding :=
  let n := dif &&& 0x0F
  if n = 0x0 then .noData
  else if n = 0x1 then .integer8
  else if n = 0x2 then .integer16
  else if n = 0x3 then .integer24
  else if n = 0x4 then .integer32
  else if n = 0x5 then .real32
  else if n = 0x6 then .integer48
  else if n = 0x7 then .integer64
  else if n = 0x8 then .selectionForReadout
  else if n = 0x9 then .bcd2
  else if n = 0xA then .bcd4
  else if n = 0xB then .bcd6
  else if n = 0xC then .bcd8
  else if n = 0xD then .variableLength
  else if n = 0xE then .bcd12
  else .specialFunctions (specialFunction dif)

/-- `DataInformation::try_from(&DataInformationBlock)`, data_information.rs:195-273. -/
def DataInfo.tryFrom (b : DIB) : Res DataInfoError DataInfo := do
  let dif := b.dif
  let s0 : DifeState :=
    { storage := ((dif &&& 0x40) >>> 6).toNat, tariff := 0, device := 0
      ext := dif &&& 0x80 != 0, extIndex := 1, tariffIndex := 0, deviceIndex := 0 }
  let s ← match b.difes with
    | some d => difeLoop d s0
    | none => .ok s0
  .ok { storageNumber := s.storage, tariff := s.tariff, device := s.device
        functionField := functionFieldOf dif, coding := codingOf dif
        extension := s.ext, size := s.extIndex }

/-! ## Data values -/

/-- `Month`, data_information.rs:319-332. -/
inductive Month where
  | january | february | march | april | may | june | july | august | september | october
  | november | december
  deriving DecidableEq, Repr, Inhabited

/-- `SingleEveryOrInvalid<T>`, data_information.rs:364-368. -/
inductive SEI (α : Type) where
  | single (a : α)
  | every
  | invalid
  deriving DecidableEq, Repr, Inhabited

/-- `DataType`, data_information.rs:374-410.  `Text` keeps the raw bytes of its `TextUnit`.
Equality on this type is structural; Rust's `PartialEq` differs only on `NaN` and on the sign of
zero. -/
inductive DataType where
  | text (bytes : List UInt8)
  | number (v : F64)
  | lossyNumber (v : F64)
  | date (day : SEI UInt8) (month : SEI Month) (year : SEI UInt16)
  | time (second minute hour : SEI UInt8)
  | dateTime (day : SEI UInt8) (month : SEI Month) (year : SEI UInt16) (hour minute : SEI UInt8)
  | dateTimeWithSeconds (day : SEI UInt8) (month : SEI Month) (year : SEI UInt16)
      (hour minute second : SEI UInt8)
  | manufacturerSpecific (bytes : List UInt8)
  deriving DecidableEq, Repr, Inhabited

/-- `Data`, data_information.rs:414-417. -/
structure Data where
  value : Option DataType
  size : Nat
  deriving DecidableEq, Repr, Inhabited

/-- Macro `parse_single_or_every!` with shift 0 (the only shift used),
data_information.rs:471-479. -/
def parseSingleOrEvery (input mask all : UInt8) : SEI UInt8 :=
  if input &&& mask = all then .every else .single (input &&& mask)

/-- Macro `parse_month!`, data_information.rs:481-499. -/
def parseMonth (input : UInt8) : SEI Month :=
  let m := input &&& 0xF
  if m = 0x1 then .single .january
  else if m = 0x2 then .single .february
  else if m = 0x3 then .single .march
  else if m = 0x4 then .single .april
  else if m = 0x5 then .single .may
  else if m = 0x6 then .single .june
  else if m = 0x7 then .single .july
  else if m = 0x8 then .single .august
  else if m = 0x9 then .single .september
  else if m = 0xA then .single .october
  else if m = 0xB then .single .november
  else if m = 0xC then .single .december
  else .invalid

/-- Macro `parse_year!(input, 0xF0, 0xE0, 0x7F)` (the only arguments used),
data_information.rs:501-512: the year is taken from bytes 0 and 1 of the whole data field. -/
def parseYear (input : List UInt8) : SEI UInt16 :=
  let byte1 : UInt16 := ((input[1]?.getD 0) &&& 0xF0).toUInt16
  let byte2 : UInt16 := ((input[0]?.getD 0) &&& 0xE0).toUInt16
  let year : UInt16 := (byte1 >>> 1) ||| (byte2 >>> 5)
  if year = 0x7F then .every else .single year

/-- The digit loop of `bcd_to_value_internal`, data_information.rs:526-548; `rem` digits are left,
the next one is number `i`. -/
def bcdDigitLoop (data : List UInt8) (numDigits : Nat) (lsb : Bool) :
    (rem i : Nat) → (value weight : Int) → Res RecordError Int
  | 0, _, value, _ => .ok value
  | rem + 1, i, value, weight => do
    let index := if lsb then (numDigits - i - 1) / 2 else i / 2
    let byte ← Res.ofOption .insufficientData data[index]?
    let digit := if i % 2 = 0 then byte &&& 0x0F else (byte >>> 4) &&& 0x0F
    if digit > 9 then .err (.dataInformation .invalidValueInformation)
    else
      let value' := roundF64 (value + roundF64 (digit.toNat * weight))
      bcdDigitLoop data numDigits lsb rem (i + 1) value' (roundF64 (weight * 10))

/-- `bcd_to_value_internal`, data_information.rs:513-556. -/
def bcdToValue (data : List UInt8) (numDigits : Nat) (sign : Int) (lsb : Bool) :
    Res RecordError Data :=
  if data.length < (numDigits + 1) / 2 then .err .insufficientData
  else do
    let v ← bcdDigitLoop data numDigits lsb numDigits 0 0 1
    .ok ⟨some (.number (F64.withSign v sign)), (numDigits + 1) / 2⟩

/-- The accumulation loop of `integer_to_value_internal`, data_information.rs:559-564.  The `i64`
accumulator is represented by its 64-bit pattern. -/
def leLoop : List UInt8 → (value shift : Nat) → Nat × Nat
  | [], value, shift => (value, shift)
  | b :: rest, value, shift => leLoop rest (value ||| (b.toNat <<< shift)) (shift + 8)

/-- A 64-bit pattern read as `i64`. -/
def i64OfPattern (n : Nat) : Int := if n < 2 ^ 63 then (n : Int) else (n : Int) - 2 ^ 64

/-- `integer_to_value_internal`, data_information.rs:558-582.  `shift - 1` underflows for a
zero-byte integer: a panic with overflow checks; without them the wrapped shift amount is masked to
63. -/
def integerToValue (cfg : Cfg) (data : List UInt8) (byteSize : Nat) : Res RecordError Data :=
  let (value, shift) := leLoop (data.take (if byteSize > 8 then 8 else byteSize)) 0 0
  if shift = 0 ∧ cfg.overflowChecks then .panic
  else
    let msb := (value >>> (if shift = 0 then 63 else shift - 1)) &&& 1
    let signed : Int :=
      if byteSize < 8 ∧ msb = 1 then -(((value ^^^ (2 ^ shift - 1)) + 1 : Nat) : Int)
      else i64OfPattern value
    let f := F64.ofInt signed
    .ok ⟨some (if byteSize > 8 then .lossyNumber f else .number f), byteSize⟩

/-- Macro `integer_to_value!`, data_information.rs:602-609. -/
def integerChecked (cfg : Cfg) (data : List UInt8) (byteSize : Nat) : Res RecordError Data :=
  if data.length < byteSize then .err .insufficientData else integerToValue cfg data byteSize

/-- The `size + 1` wrapper used by every numeric variable-length case,
data_information.rs:668-673 and following. -/
def addLvarByte (r : Res RecordError Data) : Res RecordError Data := do
  let d ← r
  .ok { d with size := d.size + 1 }

/-- The variable-length case of `DataFieldCoding::parse`, data_information.rs:652-745. -/
def parseVariableLength (cfg : Cfg) (lsb : Bool) (input : List UInt8) : Res RecordError Data := do
  let lvar ← Res.ofOption .insufficientData input.head?
  let n := lvar.toNat
  if n ≤ 0xBF then
    let bytes ← Res.ofOption .insufficientData (slice? input 1 (1 + n))
    .ok ⟨some (.text bytes), n + 1⟩
  else if n ≤ 0xC9 then
    let len := n - 0xC0
    let bytes ← Res.ofOption .insufficientData (slice? input 1 (1 + len))
    addLvarByte (bcdToValue bytes (2 * len) 1 lsb)
  else if 0xD0 ≤ n ∧ n ≤ 0xD9 then
    let len := n - 0xD0
    let bytes ← Res.ofOption .insufficientData (slice? input 1 (1 + len))
    addLvarByte (bcdToValue bytes (2 * len) (-1) lsb)
  else if 0xE0 ≤ n ∧ n ≤ 0xEF then
    let len := n - 0xE0
    let bytes ← Res.ofOption .insufficientData (slice? input 1 (1 + len))
    addLvarByte (integerChecked cfg bytes len)
  else if 0xF0 ≤ n ∧ n ≤ 0xF4 then
    let len := n - 0xEC
    let bytes ← Res.ofOption .insufficientData (slice? input 1 (1 + 4 * len))
    addLvarByte (integerChecked cfg bytes (4 * len))
  else if n = 0xF5 then
    let bytes ← Res.ofOption .insufficientData (slice? input 1 (1 + 48))
    addLvarByte (integerChecked cfg bytes 48)
  else if n = 0xF6 then
    let bytes ← Res.ofOption .insufficientData (slice? input 1 (1 + 64))
    addLvarByte (integerChecked cfg bytes 64)
  else
    .err (.dataInformation
      (.unimplemented "Variable length parsing for reserved length values"))

/-- `input.get(i).ok_or(InsufficientData)?` -/
def byteAt (input : List UInt8) (i : Nat) : Res RecordError UInt8 :=
  Res.ofOption .insufficientData input[i]?

/-- `DataFieldCoding::parse`, data_information.rs:585-876.  The transport header is only used for
its byte order flag (`fixed_data_header.map(|x| x.lsb_order).unwrap_or(false)`). -/
def Coding.parse (cfg : Cfg) (c : Coding) (lsb : Bool) (input : List UInt8) :
    Res RecordError Data :=
  match c with
  | .noData => .ok ⟨none, 0⟩
  | .integer8 => integerChecked cfg input 1
  | .integer16 => integerChecked cfg input 2
  | .integer24 => integerChecked cfg input 3
  | .integer32 => integerChecked cfg input 4
  | .integer48 => integerChecked cfg input 6
  | .integer64 => integerChecked cfg input 8
  | .real32 => do
    let b0 ← byteAt input 0
    let b1 ← byteAt input 1
    let b2 ← byteAt input 2
    let b3 ← byteAt input 3
    .ok ⟨some (.number (.real32
      (b0.toUInt32 ||| (b1.toUInt32 <<< 8) ||| (b2.toUInt32 <<< 16) ||| (b3.toUInt32 <<< 24)))), 4⟩
  | .selectionForReadout => .ok ⟨none, 0⟩
  | .bcd2 => bcdToValue input 2 1 lsb
  | .bcd4 => bcdToValue input 4 1 lsb
  | .bcd6 => bcdToValue input 6 1 lsb
  | .bcd8 => bcdToValue input 8 1 lsb
  | .bcd12 => bcdToValue input 12 1 lsb
  | .variableLength => parseVariableLength cfg lsb input
  | .specialFunctions .manufacturerSpecific =>
    .ok ⟨some (.manufacturerSpecific input), input.length⟩
  | .specialFunctions .moreRecordsFollow =>
    .ok ⟨some (.manufacturerSpecific input), input.length⟩
  | .specialFunctions .idleFiller => .ok ⟨none, 0⟩
  | .specialFunctions .globalReadoutRequest => .ok ⟨none, 0⟩
  | .specialFunctions .reserved => .err (.dataInformation .invalidValueInformation)
  | .dateTypeG => do
    let b0 ← byteAt input 0
    let day := parseSingleOrEvery b0 0x1F 0
    let b1 ← byteAt input 1
    .ok ⟨some (.date day (parseMonth b1) (parseYear input)), 2⟩
  | .dateTimeTypeF => do
    let b0 ← byteAt input 0
    let minutes := parseSingleOrEvery b0 0x3F 0x3F
    let b1 ← byteAt input 1
    let hour := parseSingleOrEvery b1 0x1F 0x1F
    let b2 ← byteAt input 2
    let day := parseSingleOrEvery b2 0x1F 0x1F
    let b3 ← byteAt input 3
    .ok ⟨some (.dateTime day (parseMonth b3) (parseYear input) hour minutes), 4⟩
  | .dateTimeTypeJ => do
    let b0 ← byteAt input 0
    let seconds := parseSingleOrEvery b0 0x3F 0x3F
    let b1 ← byteAt input 1
    let minutes := parseSingleOrEvery b1 0x3F 0x3F
    let b2 ← byteAt input 2
    let hours := parseSingleOrEvery b2 0x1F 0x1F
    .ok ⟨some (.time seconds minutes hours), 4⟩
  | .dateTimeTypeI => do
    let b0 ← byteAt input 0
    let seconds := parseSingleOrEvery b0 0x3F 0x3F
    let b1 ← byteAt input 1
    let minutes := parseSingleOrEvery b1 0x3F 0x3F
    let b2 ← byteAt input 2
    let hours := parseSingleOrEvery b2 0x1F 0x1F
    let b3 ← byteAt input 3
    let days := parseSingleOrEvery b3 0x1F 0x1F
    let b4 ← byteAt input 4
    .ok ⟨some (.dateTimeWithSeconds days (parseMonth b4) (parseYear input) hours minutes seconds), 6⟩

end MBus
