import Verif.Spec.Record
import Verif.Spec.RecordOutput
import Verif.Spec.Output
import Verif.Spec.Ucum
import Verif.Spec.Xml
/-!
# What a meter sends

An encoder for the variable data of a telegram, written from the side of the meter (EN 13757-3), and what a
reader expects to see of it.
-/
namespace MBus.Spec

/-- What is in the data field of a record. -/
inductive Content where
  | number (value : Int)
  | text (text : List Char)
  /-- A 32-bit real (IEEE 754), by its bit pattern. -/
  | real (bits : Nat)
  /-- A date with the two-digit year that dates of type G have. -/
  | date (day month year : Nat)
  /-- A date with a time, of type F, or of type I if it has seconds. -/
  | dateTime (day month year hour minute : Nat) (second : Option Nat)
  /-- A field without data. -/
  | nothing
  deriving DecidableEq, Repr

/-- A reading of a meter: what kind of value it is, where it belongs, the codes of its quantity (the VIF and the
VIFEs, without extension bits) and the value in the unit of the codes. -/
structure MeterReading where
  function : Nat
  storage : Nat
  tariff : Nat
  subunit : Nat
  codes : List Nat
  content : Content
  deriving DecidableEq, Repr

/-- The data field codes of binary numbers, with their numbers of bytes. -/
def binaryFields : List (Nat × Nat) := [(1, 1), (2, 2), (3, 3), (4, 4), (6, 6), (7, 8)]

/-- The data field codes of BCD numbers, with their numbers of bytes. -/
def bcdFields : List (Nat × Nat) := [(9, 1), (10, 2), (11, 3), (12, 4), (14, 6)]

/-- A data field of some code with some content.  The contents of fields of variable length (code D) begin with a
byte for kind and length; BCD numbers in them have up to nine bytes in EN 13757-3, `bcdBytes` is the number allowed
here. -/
inductive Field (bcdBytes : Nat) : Nat → Content → List UInt8 → Prop
  | binary (code n : Nat) (v : Int) : (code, n) ∈ binaryFields → -(256 ^ n : Int) ≤ 2 * v → 2 * v < 256 ^ n →
      Field bcdBytes code (.number v) (encodeLe n v)
  | bcd (code n v : Nat) : (code, n) ∈ bcdFields → v < 100 ^ n →
      Field bcdBytes code (.number v) (encodeBcd n v)
  | variableBinary (n : Nat) (v : Int) : 1 ≤ n → n ≤ 15 → -(256 ^ n : Int) ≤ 2 * v → 2 * v < 256 ^ n →
      Field bcdBytes 13 (.number v) (UInt8.ofNat (0xE0 + n) :: encodeLe n v)
  | variableBcd (n v : Nat) : n ≤ bcdBytes → v < 100 ^ n →
      Field bcdBytes 13 (.number v) (UInt8.ofNat (0xC0 + n) :: encodeBcd n v)
  | variableNegative (n v : Nat) : n ≤ bcdBytes → v < 100 ^ n →
      Field bcdBytes 13 (.number (-(v : Int))) (UInt8.ofNat (0xD0 + n) :: encodeBcd n v)
  | text (t : List Char) : (utf8 t).length < 0xC0 →
      Field bcdBytes 13 (.text t) (UInt8.ofNat (utf8 t).length :: (utf8 t).reverse)
  | real (bits : Nat) : bits < 2 ^ 32 → Field bcdBytes 5 (.real bits) (encodeLe 4 bits)
  | date (day month year : Nat) : 1 ≤ day ∧ day ≤ 31 → 1 ≤ month ∧ month ≤ 12 → year ≤ 99 →
      Field bcdBytes 2 (.date day month year) (encodeDateG day month year)
  | dateTime (day month year hour minute : Nat) : 1 ≤ day ∧ day ≤ 31 → 1 ≤ month ∧ month ≤ 12 → year ≤ 99 →
      hour ≤ 23 → minute ≤ 59 →
      Field bcdBytes 4 (.dateTime day month year hour minute none) (Xml.encodeDateF false year month day hour minute)
  | dateTimeSeconds (day month year hour minute second : Nat) (week : UInt8) : 1 ≤ day ∧ day ≤ 31 →
      1 ≤ month ∧ month ≤ 12 → year ≤ 99 → hour ≤ 23 → minute ≤ 59 → second ≤ 59 →
      Field bcdBytes 6 (.dateTime day month year hour minute (some second))
        (Xml.encodeDateI false year month day hour minute second week)
  | nothing : Field bcdBytes 0 .nothing []
  | selection : Field bcdBytes 8 .nothing []

/-- `n` DIFEs: four bits of the storage number, two of the tariff and one of the subunit each. -/
def difeBytes : Nat → Nat → Nat → Nat → List UInt8
  | 0, _, _, _ => []
  | n + 1, storage, tariff, subunit =>
    UInt8.ofNat ((if n = 0 then 0 else 128) + 64 * (subunit % 2) + 16 * (tariff % 4) + storage % 16) ::
      difeBytes n (storage / 16) (tariff / 4) (subunit / 2)

/-- Codes as bytes with extension bits. -/
def codeBytes : List Nat → List UInt8
  | [] => []
  | [c] => [UInt8.ofNat c]
  | c :: d :: rest => UInt8.ofNat (c + 128) :: codeBytes (d :: rest)

/-- The record of a reading, with some number of DIFEs that has room for its numbers. -/
inductive Sent (bcdBytes : Nat) : MeterReading → List UInt8 → Prop
  | record (r : MeterReading) (n code : Nat) (field : List UInt8) : r.function < 4 → n ≤ 10 →
      r.storage < 2 * 16 ^ n → r.tariff < 4 ^ n → r.subunit < 2 ^ n → r.codes ≠ [] → (∀ c ∈ r.codes, c < 128) →
      Field bcdBytes code r.content field →
      Sent bcdBytes r (UInt8.ofNat (code + 16 * r.function + 64 * (r.storage % 2) + (if n = 0 then 0 else 128)) ::
        (difeBytes n (r.storage / 2) r.tariff r.subunit ++ codeBytes r.codes ++ field))

/-- Readings as variable data, with idle fillers before, between and after the records. -/
inductive Message (bcdBytes : Nat) : List MeterReading → List UInt8 → Prop
  | nil : Message bcdBytes [] []
  | filler (readings : List MeterReading) (data : List UInt8) : Message bcdBytes readings data →
      Message bcdBytes readings (0x2F :: data)
  | reading (r : MeterReading) (record : List UInt8) (readings : List MeterReading) (data : List UInt8) :
      Sent bcdBytes r record →
      Message bcdBytes readings data → Message bcdBytes (r :: readings) (record ++ data)

/-- What combinable codes mean.  Code 7F makes the codes after it manufacturer specific. -/
def combinableMeanings (codes : List Nat) : Option (List Effect) :=
  codes.mapM (fun c => if c = 0x7F then none else meaning orthogonalRows c)

/-- What the codes of a quantity mean: the first by the primary table or, after FB and FD, the second by an
extension table; the others are combinable codes. -/
def codeMeanings : List Nat → Option (List Effect)
  | 0x7B :: c :: rest => do
    let e ← meaning alternateRows c
    let es ← combinableMeanings rest
    some (e :: es)
  | 0x7D :: c :: rest => do
    let e ← meaning mainRows c
    let es ← combinableMeanings rest
    some (e :: es)
  | c :: rest => do
    let e ← meaning primaryRows c
    let es ← combinableMeanings rest
    some (e :: es)
  | [] => none

/-- The value of a finite 32-bit real by sign, exponent and mantissa. -/
def realValue (bits : Nat) : ℚ :=
  (-1) ^ (bits / 2 ^ 31 % 2) *
    if bits / 2 ^ 23 % 256 = 0 then ((bits % 2 ^ 23 : Nat) : ℚ) * 2 ^ (-149 : Int)
    else ((2 ^ 23 + bits % 2 ^ 23 : Nat) : ℚ) * 2 ^ ((bits / 2 ^ 23 % 256 : Nat) - 150 : Int)

/-- The value of a reading in the base units of its codes.  The year of a date is shown as it is sent, without a century
(C72). -/
def ShownValue (scale : Int) : Content → ValueOutput → Prop
  | .number v, o => ∃ text, o = ⟨"decimal".toList, some (.str text)⟩ ∧ Denotes text ((v : ℚ) * 10 ^ scale) ∧ Canonical text
  | .text t, o => o = ⟨"text".toList, some (.str t)⟩
  | .real bits, o =>
    if bits / 2 ^ 23 % 256 = 255 then
      o = ⟨"float".toList, some (.str (if bits % 2 ^ 23 ≠ 0 then "nan" else
        if bits < 2 ^ 31 then "positive_infinity" else "negative_infinity").toList)⟩
    else ∃ b : UInt32, o = ⟨"float".toList, some (.real b)⟩ ∧ b.toNat / 2 ^ 23 % 256 < 255 ∧
      realValue b.toNat = realValue bits * 10 ^ scale
  | .date day month year, o => o = ⟨"date".toList, some (.str (isoDate year month day))⟩
  | .dateTime day month year hour minute second, o =>
    o = ⟨"datetime".toList, some (.str (isoDate year month day ++ ['T'] ++ isoTime hour minute (second.getD 0)))⟩
  | .nothing, o => o = ⟨"none".toList, none⟩

/-- A record of the structured output shows a reading. -/
def Shown (r : MeterReading) (o : RecordOutput) : Prop :=
  (["Instantaneous value", "Maximum value", "Minimum value", "Value during error state"].map
    String.toList)[r.function]? = some o.function ∧
  o.storageNumber = r.storage ∧ o.tariff = r.tariff ∧ o.subunit = r.subunit ∧
  ∃ es, codeMeanings r.codes = some es ∧
    ShownValue (total es).scale r.content o.value ∧
    o.quantities = (total es).labels.map (fun l => (quantityText l).toList) ∧
    ((total es).units = [] → o.unit = none) ∧
    ((total es).units ≠ [] → ∃ text, o.unit = some text ∧
      ((∀ u ∈ (total es).units, (ucumOf u.name).isSome) →
        UcumTerm text ((total es).units.map (fun u => ((ucumOf u.name).getD "", u.exponent)))))

/-- Codes the library gets wrong (C22, C59, C60, C61), and the codes of dates with a time, whose year is shown wrong
(C26). -/
def misread : List Nat → Bool
  | 0x7B :: c :: rest => c ∈ [0x00, 0x01, 0x78, 0x79, 0x7A, 0x7B] || rest.any (· ∈ [0x2C, 0x6B, 0x6E, 0x6F])
  | 0x7D :: c :: rest => (0x2C ≤ c && c ≤ 0x39) || (0x3B ≤ c && c ≤ 0x3F) || c ∈ [0x6F, 0x70] ||
      rest.any (· ∈ [0x2C, 0x6B, 0x6E, 0x6F])
  | c :: rest => c = 0x6D || (0x70 ≤ c && c ≤ 0x77) || rest.any (· ∈ [0x2C, 0x6B, 0x6E, 0x6F])
  | [] => false

/-- Code 6C is the code of dates, 6D and FD 70 are codes of dates with a time; reals are in the base units of their codes. -/
def suits (r : MeterReading) : Bool :=
  match r.content with
  | .date .. => r.codes.head? = some 0x6C
  | .dateTime .. => r.codes.head? = some 0x6D ∨ r.codes.take 2 = [0x7D, 0x70]
  | .real _ => r.codes.head? ≠ some 0x6C ∧ (codeMeanings r.codes).all (fun es => (total es).scale = 0)
  | _ => r.codes.head? ≠ some 0x6C

/-- The readings that are shown as they were sent: the codes have a meaning which the library gets right, there are up to
five of them, the storage number is 0 or 1 (C17) and the content suits the codes. -/
abbrev Readable (r : MeterReading) : Prop :=
  (codeMeanings r.codes).isSome ∧ misread r.codes = false ∧ r.codes.length ≤ 5 ∧ r.storage ≤ 1 ∧ suits r = true

end MBus.Spec
