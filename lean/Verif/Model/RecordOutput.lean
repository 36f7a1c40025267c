import Verif.Model.Decimal
import Verif.Model.Record
/-!
# Model of the record part of `src/output.rs`: values, temporal values, error offsets

`serde_json::Value` is `Json`; text is `List Char`.
-/
namespace MBus

/-- `to_string` and `{}` of a natural number. -/
def natText (n : Nat) : List Char := Nat.toDigits 10 n

/-- The JSON values the structured output uses for record values; `real` is a widened 32-bit real. -/
inductive Json where
  | str (text : List Char)
  | nat (n : Nat)
  | real (bits : UInt32)
  | obj (members : List (List Char × Json))
  deriving Repr, Inhabited

/-- `ValueOutput`, src/output.rs:342-351. -/
structure ValueOutput where
  kind : List Char
  value : Option Json
  deriving Repr, Inhabited

/-- `format!("{parsed:.0}")` of an integer-valued float: Rust prints the exact decimal value, with a
`-` for negative zero.  32-bit reals never get here (theorem `number_real32`). -/
def formatF64 : F64 → List Char
  | .int v => if v < 0 then '-' :: Nat.toDigits 10 v.natAbs else Nat.toDigits 10 v.natAbs
  | .negZero => ['-', '0']
  | .real32 _ => []

/-- `exact_variable_significand`, src/output.rs:1665-1681. -/
def exactVariableSignificand (data : List UInt8) (parsed : F64) : Option (List Char) := do
  let marker ← data.head?
  let n := marker.toNat
  if (0xC0 ≤ n ∧ n ≤ 0xC9) ∨ (0xD0 ≤ n ∧ n ≤ 0xD9) then some (formatF64 parsed)
  else if 0xE0 ≤ n ∧ n ≤ 0xEF then
    let bytes ← slice? data 1 (1 + (n - 0xE0))
    signedLeDecimal bytes
  else if 0xF0 ≤ n ∧ n ≤ 0xF4 then
    let bytes ← slice? data 1 (1 + (n - 0xEC) * 4)
    signedLeDecimal bytes
  else if n = 0xF5 then
    let bytes ← slice? data 1 (1 + 48)
    signedLeDecimal bytes
  else if n = 0xF6 then
    let bytes ← slice? data 1 (1 + 64)
    signedLeDecimal bytes
  else none

/-- `exact_significand`, src/output.rs:1644-1663. -/
def exactSignificand (r : DataRecord) (parsed : F64) : Option (List Char) := do
  let information ← r.header.processed.dataInfo
  let data ← sliceFrom? r.rawBytes r.header.size
  match information.coding with
  | .integer8 => signedLeDecimal (← sliceTo? data 1)
  | .integer16 => signedLeDecimal (← sliceTo? data 2)
  | .integer24 => signedLeDecimal (← sliceTo? data 3)
  | .integer32 => signedLeDecimal (← sliceTo? data 4)
  | .integer48 => signedLeDecimal (← sliceTo? data 6)
  | .integer64 => signedLeDecimal (← sliceTo? data 8)
  | .bcd2 | .bcd4 | .bcd6 | .bcd8 | .bcd12 => some (formatF64 parsed)
  | .variableLength => exactVariableSignificand data parsed
  | _ => none

/-- `record_offset_power10`, src/output.rs:1730-1747: from the last VIFE whose code is 78 to 7B. -/
def recordOffsetPower10 (r : DataRecord) : Option Int := do
  let block ← r.header.raw.vib
  let vifes ← block.vifes
  (vifes.filterMap (fun b =>
    let code := b &&& 0x7F
    if 0x78 ≤ code ∧ code ≤ 0x7B then some ((b &&& 0x03).toNat - 3 : Int) else none)).getLast?

/-- `month_number`, src/output.rs:1613-1630. -/
def monthNumber : Month → Nat
  | .january => 1 | .february => 2 | .march => 3 | .april => 4 | .may => 5 | .june => 6
  | .july => 7 | .august => 8 | .september => 9 | .october => 10 | .november => 11 | .december => 12

/-- `single`, src/output.rs:1606-1611. -/
def SEI.toSingle {α : Type} : SEI α → Option α
  | .single a => some a
  | _ => none

/-- `{:0width}` of a natural number. -/
def padNat (width n : Nat) : List Char :=
  List.replicate (width - (Nat.toDigits 10 n).length) '0' ++ Nat.toDigits 10 n

/-- `temporal_iso`, src/output.rs:1577-1604; `kind` is one of `date`, `time`, `datetime`. -/
def temporalIso (day : SEI UInt8) (month : SEI Month) (year : SEI UInt16)
    (hour minute second : Option (SEI UInt8)) (kind : List Char) : Option (List Char) := do
  let hour := hour.bind SEI.toSingle
  let minute := minute.bind SEI.toSingle
  let second := second.bind SEI.toSingle
  let date : Option (List Char) := do
    let y ← year.toSingle
    let m ← month.toSingle
    let d ← day.toSingle
    some (padNat 4 y.toNat ++ '-' :: (padNat 2 (monthNumber m) ++ '-' :: padNat 2 d.toNat))
  if kind = "date".toList then date
  else if kind = "time".toList then do
    let h ← hour
    let m ← minute
    let s ← second
    some (padNat 2 h.toNat ++ ':' :: (padNat 2 m.toNat ++ ':' :: padNat 2 s.toNat))
  else match second with
    | some s => do
      let d ← date
      let h ← hour
      let m ← minute
      some (d ++ 'T' :: (padNat 2 h.toNat ++ ':' :: (padNat 2 m.toNat ++ ':' :: padNat 2 s.toNat)))
    | none => do
      let d ← date
      let h ← hour
      let m ← minute
      some (d ++ 'T' :: (padNat 2 h.toNat ++ ':' :: (padNat 2 m.toNat ++ ":00".toList)))

/-- The serialised name of a month (`#[derive(Serialize)]` on a unit variant). -/
def monthName : Month → List Char
  | .january => "January".toList | .february => "February".toList | .march => "March".toList
  | .april => "April".toList | .may => "May".toList | .june => "June".toList | .july => "July".toList
  | .august => "August".toList | .september => "September".toList | .october => "October".toList
  | .november => "November".toList | .december => "December".toList

/-- `component_json`, src/output.rs:1563-1575. -/
def componentJson {α : Type} (f : α → Json) : SEI α → Json
  | .single a => f a
  | .every => .str "every".toList
  | .invalid => .str "invalid".toList

/-- `temporal_value`, src/output.rs:1529-1561.  `serde_json::Map` is an association list in insertion
order (its order is not observable through lookups). -/
def temporalValue (kind : List Char) (day : SEI UInt8) (month : SEI Month) (year : SEI UInt16)
    (hour minute second : Option (SEI UInt8)) : ValueOutput :=
  let u8 (x : UInt8) : Json := .nat x.toNat
  let components :=
    (if kind ≠ "time".toList then
      [("day".toList, componentJson u8 day),
       ("month".toList, componentJson (fun m => .str (monthName m)) month),
       ("year".toList, componentJson (fun y : UInt16 => .nat y.toNat) year)] else [])
    ++ (hour.map (fun v => ("hour".toList, componentJson u8 v))).toList
    ++ (minute.map (fun v => ("minute".toList, componentJson u8 v))).toList
    ++ (second.map (fun v => ("second".toList, componentJson u8 v))).toList
  ⟨kind, some (match temporalIso day month year hour minute second kind with
    | some text => .str text
    | none => .obj components)⟩

/-- `String::from_utf8`: the characters whose UTF-8 encoding the bytes are, if any.  This is the
standard library's contract, given by Lean's own UTF-8 decoder. -/
def fromUtf8 (bytes : List UInt8) : Option (List Char) :=
  bytes.toByteArray.utf8Decode?.map Array.toList

/-- `decode_text_unit`, data_information.rs:306-313. -/
def decodeTextUnit (input : List UInt8) : List Char :=
  let bytes := input.reverse
  match fromUtf8 bytes with
  | some text => text
  | none => bytes.map (fun b => Char.ofNat b.toNat)

/-- `finite_number` and the JSON value made of its result, src/output.rs:1632-1642 and 1461-1472, for a
widened 32-bit real: widening keeps NaN, infinities and finite numbers apart. -/
def floatJson (bits : UInt32) : Json :=
  if bits &&& 0x7FFFFFFF > 0x7F800000 then .str "nan".toList
  else if bits = 0x7F800000 then .str "positive_infinity".toList
  else if bits = 0xFF800000 then .str "negative_infinity".toList
  else .real bits

/-- `value_output`, src/output.rs:1453-1526. -/
def valueOutput (r : DataRecord) : ValueOutput :=
  let information := r.header.processed.dataInfo
  let scale := r.header.processed.valueInfo.map ValueInfo.scale
  let offset := recordOffsetPower10 r
  let number (v : F64) : ValueOutput :=
    if information.any (fun i => i.coding = .real32) then
      ⟨"float".toList, match v with
        | .real32 bits => some (floatJson bits)
        | .int _ | .negZero => none⟩
    else
      let significand := (exactSignificand r v).getD (formatF64 v)
      ⟨"decimal".toList, some (.str (scaledDecimal significand (scale.getD 0) offset))⟩
  match r.data.value with
  | some (.number v) => number v
  | some (.lossyNumber v) => number v
  | some (.text bytes) => ⟨"text".toList, some (.str (decodeTextUnit bytes))⟩
  | some (.date day month year) => temporalValue "date".toList day month year none none none
  | some (.time second minute hour) =>
    temporalValue "time".toList .invalid .invalid .invalid (some hour) (some minute) (some second)
  | some (.dateTime day month year hour minute) =>
    temporalValue "datetime".toList day month year (some hour) (some minute) none
  | some (.dateTimeWithSeconds day month year hour minute second) =>
    temporalValue "datetime".toList day month year (some hour) (some minute) (some second)
  | some (.manufacturerSpecific _) => ⟨"manufacturer_specific".toList, none⟩
  | none => ⟨"none".toList, none⟩

/-- The loop of `collect_records`, src/output.rs:1258-1269, over the items of the iterator: the records
decoded before the first error, and the error with the sum of the sizes of these records.  A panic of
the iterator is `none`. -/
def collectItems : List (Res RecordError DataRecord) → (output : List DataRecord) → (offset : Nat) →
    Option (List DataRecord × Option (Nat × RecordError))
  | [], output, _ => some (output, none)
  | .ok r :: rest, output, offset => collectItems rest (output ++ [r]) (offset + r.rawBytes.length)
  | .err e :: _, output, offset => some (output, some (offset, e))
  | .panic :: _, _, _ => none

/-- `collect_records`, src/output.rs:1252-1271 (the records themselves instead of their
`record_output`, which is a function of each). -/
def collectRecords (cfg : Cfg) (records : Option DataRecords) :
    Option (List DataRecord × Option (Nat × RecordError)) :=
  match records with
  | none => some ([], none)
  | some s => collectItems (s.collect cfg) [] 0

end MBus
