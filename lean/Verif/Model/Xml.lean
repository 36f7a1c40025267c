import Verif.Model.RecordOutput
import Verif.Model.Hex
import Verif.Model.Security
import Verif.Model.XmlProduct
/-!
# Model of `src/rscada_xml.rs`: the libmbus XML output

Text is `List Char`.  Two things are parameters of the model (structure `XmlEnv`): the fixed six-digit
formatting of a float (`format!("{:.6}")`) and `String::from_utf8_lossy`.  The product names are in
`Verif.Model.XmlProduct`.
-/
namespace MBus.Xml

/-- A factor of the normalisation table: the `f64` written `mantissa`·10^`exponent` in the source. -/
structure Factor where
  mantissa : Nat
  exponent : Int
  deriving DecidableEq, Repr, Inhabited

/-- What the first VIFE of a primary VIF does to the value, src/rscada_xml.rs:732-744. -/
inductive Correction where
  | none
  | times (exponent : Int)
  | plus (exponent : Int)
  deriving DecidableEq, Repr, Inhabited

/-- The number shown in a record: the decoded number, to be multiplied by the factor of the table and
then corrected.  The float multiplications themselves are not carried out in the model. -/
structure XmlReal where
  raw : F64
  factor : Factor
  correction : Correction
  deriving DecidableEq, Repr, Inhabited

/-- `DecodedValue`, src/rscada_xml.rs:373-376, before normalisation (`α = F64`) and after
(`α = XmlReal`). -/
inductive DecodedValue (α : Type) where
  | real (v : α)
  | str (text : List Char)
  deriving DecidableEq, Repr, Inhabited

/-- The standard library functions that are parameters of the model. -/
structure XmlEnv where
  /-- `format!("{:.6}", value)`. -/
  fmt6 : XmlReal → List Char
  /-- `String::from_utf8_lossy(bytes)`. -/
  lossy : List UInt8 → List Char

/-- `char::is_ascii_control`. -/
def isAsciiControl (c : Char) : Bool := c.toNat < 32 || c.toNat == 127

/-- `xml_encode`, src/rscada_xml.rs:1131-1148. -/
def xmlEncode (text : List Char) : List Char :=
  text.flatMap fun c =>
    if isAsciiControl c then [' ']
    else if c = '&' then ['&', 'a', 'm', 'p', ';']
    else if c = '<' then ['&', 'l', 't', ';']
    else if c = '>' then ['&', 'g', 't', ';']
    else if c = '"' then ['&', 'q', 'u', 'o', 't', ';']
    else [c]

/-- `NormalizedRecord`, src/rscada_xml.rs:378-386. -/
structure NormalizedRecord where
  function : List Char
  storageNumber : Nat
  tariff : Option Nat
  device : Nat
  unit : List Char
  quantity : List Char
  value : DecodedValue XmlReal
  deriving DecidableEq, Repr, Inhabited

/-- `function_string`, src/rscada_xml.rs:505-513. -/
def functionString (dif : UInt8) : String :=
  if dif &&& 0x30 = 0x00 then "Instantaneous value"
  else if dif &&& 0x30 = 0x10 then "Maximum value"
  else if dif &&& 0x30 = 0x20 then "Minimum value"
  else if dif &&& 0x30 = 0x30 then "Value during error state"
  else "unknown"

/-- The loop of `storage_number`, src/rscada_xml.rs:518-521. -/
def storageLoop : List UInt8 → (result bitIndex : Nat) → Nat
  | [], result, _ => result
  | dife :: rest, result, i => storageLoop rest (result ||| ((dife &&& 0x0F).toNat <<< i)) (i + 4)

/-- `storage_number`, src/rscada_xml.rs:515-523.  A record has at most 11 DIFEs, so the `u64` shifts
lose nothing. -/
def storageNumber (dif : UInt8) (difes : List UInt8) : Nat :=
  storageLoop difes ((dif &&& 0x40) >>> 6).toNat 1

/-- The loop of `tariff`, src/rscada_xml.rs:528-531. -/
def tariffLoop : List UInt8 → (result bitIndex : Nat) → Nat
  | [], result, _ => result
  | dife :: rest, result, i =>
    tariffLoop rest (result ||| (((dife &&& 0x30) >>> 4).toNat <<< i)) (i + 2)

/-- `tariff`, src/rscada_xml.rs:525-533. -/
def tariff (difes : List UInt8) : Nat := tariffLoop difes 0 0

/-- The loop of `device`, src/rscada_xml.rs:537-539. -/
def deviceLoop : List UInt8 → (result bitIndex : Nat) → Nat
  | [], result, _ => result
  | dife :: rest, result, i =>
    deviceLoop rest (result ||| (((dife &&& 0x40) >>> 6).toNat <<< i)) (i + 1)

/-- `device`, src/rscada_xml.rs:535-541. -/
def device (difes : List UInt8) : Nat := deviceLoop difes 0 0

/-- The loop of `int_decode` over the reversed bytes, src/rscada_xml.rs:617-620, on `i64`. -/
def intLoop (neg : Bool) : List UInt8 → Int → Int
  | [], value => value
  | byte :: rest, value =>
    let byte := if neg then byte ^^^ 0xFF else byte
    intLoop neg rest (Int.bmod (Int.bmod (value * 256) (2 ^ 64) + byte.toNat) (2 ^ 64))

/-- `int_decode`, src/rscada_xml.rs:614-625.  At most 8 bytes are passed, so the accumulator stays
non-negative and the negation cannot overflow (theorem `intDecode_eq`). -/
def intDecode (bytes : List UInt8) : F64 :=
  let neg := bytes.getLast?.any (fun byte : UInt8 => byte &&& 0x80 != 0)
  let value := intLoop neg bytes.reverse 0
  F64.ofInt (if neg then -value - 1 else value)

/-- The loop of `bcd_decode` over the reversed bytes, src/rscada_xml.rs:631-637.  At most 6 bytes are
passed, so nothing overflows. -/
def bcdLoop : List UInt8 → Int → Int
  | [], value => value
  | byte :: rest, value =>
    let value := value * 10
    let value := if byte >>> 4 < 0xA then value + (byte >>> 4).toNat else value
    bcdLoop rest (value * 10 + (byte &&& 0x0F).toNat)

/-- `bcd_decode`, src/rscada_xml.rs:629-642. -/
def bcdDecode (bytes : List UInt8) : F64 :=
  let value := bcdLoop bytes.reverse 0
  F64.ofInt (if bytes.getLast?.any (fun byte : UInt8 => byte >>> 4 == 0xF) then -value else value)

/-- `str_decode`, src/rscada_xml.rs:645-648. -/
def strDecode (env : XmlEnv) (bytes : List UInt8) : List Char := env.lossy bytes.reverse

/-- `format!("{:02X}", byte)`. -/
def hex2 (b : UInt8) : List Char := hexString [b]

/-- `bin_decode`, src/rscada_xml.rs:654-660. -/
def binDecode (bytes : List UInt8) : List Char := [' '].intercalate (bytes.map hex2)

/-- `date_g_decode`, src/rscada_xml.rs:664-669. -/
def dateGDecode (b0 b1 : UInt8) : List Char :=
  let day := b0 &&& 0x1F
  let month := b1 &&& 0x0F
  let year := 2000 + (((b0 &&& 0xE0) >>> 5) ||| ((b1 &&& 0xF0) >>> 1)).toNat
  padNat 4 year ++ ['-'] ++ padNat 2 month.toNat ++ ['-'] ++ padNat 2 day.toNat

/-- The text for a date marked invalid, src/rscada_xml.rs:675 and 693. -/
def invalidDate : List Char := "1900-01-00T00:00:00Z".toList

/-- `date_f_decode`, src/rscada_xml.rs:672-688. -/
def dateFDecode (b0 b1 b2 b3 : UInt8) : List Char :=
  if b0 &&& 0x80 != 0 then invalidDate
  else
    let minute := b0 &&& 0x3F
    let hour := b1 &&& 0x1F
    let day := b2 &&& 0x1F
    let month := b3 &&& 0x0F
    let year := 2000 + (((b2 &&& 0xE0) >>> 5) ||| ((b3 &&& 0xF0) >>> 1)).toNat
    padNat 4 year ++ ['-'] ++ padNat 2 month.toNat ++ ['-'] ++ padNat 2 day.toNat ++ ['T']
      ++ padNat 2 hour.toNat ++ [':'] ++ padNat 2 minute.toNat ++ [':', '0', '0', 'Z']

/-- `date_i_decode`, src/rscada_xml.rs:691-705; the sixth byte is not used. -/
def dateIDecode (b0 b1 b2 b3 b4 : UInt8) : List Char :=
  if b1 &&& 0x80 != 0 then invalidDate
  else
    let second := b0 &&& 0x3F
    let minute := b1 &&& 0x3F
    let hour := b2 &&& 0x1F
    let day := b3 &&& 0x1F
    let month := b4 &&& 0x0F
    let year := 2000 + (((b3 &&& 0xE0) >>> 5) ||| ((b4 &&& 0xF0) >>> 1)).toNat
    padNat 4 year ++ ['-'] ++ padNat 2 month.toNat ++ ['-'] ++ padNat 2 day.toNat ++ ['T']
      ++ padNat 2 hour.toNat ++ [':'] ++ padNat 2 minute.toNat ++ [':'] ++ padNat 2 second.toNat
      ++ ['Z']

/-- `variable_value_decode`, src/rscada_xml.rs:543-611; `none` stands for `Err(())`. -/
def variableValueDecode (env : XmlEnv) (dif vifRaw : UInt8) (vife0 : Option UInt8)
    (data : List UInt8) : Option (DecodedValue F64) :=
  let vif := vifRaw &&& 0x7F
  let vife := vife0.map (· &&& 0x7F)
  let isDatetime := vif = 0x6D ∨ (vifRaw = 0xFD ∧ vife = some 0x30) ∨ (vifRaw = 0xFD ∧ vife = some 0x70)
  let int (n : Nat) : Option (DecodedValue F64) := (sliceTo? data n).map (fun b => .real (intDecode b))
  let bcd (n : Nat) : Option (DecodedValue F64) := (sliceTo? data n).map (fun b => .real (bcdDecode b))
  let n := dif &&& 0x0F
  if n = 0x00 then some (.str [])
  else if n = 0x01 then int 1
  else if n = 0x02 then
    if vif = 0x6C then
      match sliceTo? data 2 with
      | some [b0, b1] => some (.str (dateGDecode b0 b1))
      | _ => none
    else int 2
  else if n = 0x03 then int 3
  else if n = 0x04 then
    if isDatetime then
      match sliceTo? data 4 with
      | some [b0, b1, b2, b3] => some (.str (dateFDecode b0 b1 b2 b3))
      | _ => none
    else int 4
  else if n = 0x05 then
    match sliceTo? data 4 with
    | some [b0, b1, b2, b3] =>
      some (.real (.real32 (b0.toUInt32 ||| (b1.toUInt32 <<< 8) ||| (b2.toUInt32 <<< 16)
        ||| (b3.toUInt32 <<< 24))))
    | _ => none
  else if n = 0x06 then
    if isDatetime then
      match sliceTo? data 6 with
      | some [b0, b1, b2, b3, b4, _] => some (.str (dateIDecode b0 b1 b2 b3 b4))
      | _ => none
    else int 6
  else if n = 0x07 then int 8
  else if n = 0x09 then bcd 1
  else if n = 0x0A then bcd 2
  else if n = 0x0B then bcd 3
  else if n = 0x0C then bcd 4
  else if n = 0x0D then
    match data with
    | [] => none
    | lvar :: tail =>
      if lvar ≤ 0xBF then some (.str (strDecode env tail)) else some (.str (binDecode tail))
  else if n = 0x0E then bcd 6
  else if n = 0x0F then some (.str (binDecode data))
  else none

/-- `VIF_TABLE`, src/rscada_xml.rs:1152-1536, generated from the source text. -/
def vifTable : List (Nat × Factor × String × String) :=
  [
    (0x00, { mantissa := 1, exponent := -3 }, "Wh", "Energy"),
    (0x01, { mantissa := 1, exponent := -2 }, "Wh", "Energy"),
    (0x02, { mantissa := 1, exponent := -1 }, "Wh", "Energy"),
    (0x03, { mantissa := 1, exponent := 0 }, "Wh", "Energy"),
    (0x04, { mantissa := 1, exponent := 1 }, "Wh", "Energy"),
    (0x05, { mantissa := 1, exponent := 2 }, "Wh", "Energy"),
    (0x06, { mantissa := 1, exponent := 3 }, "Wh", "Energy"),
    (0x07, { mantissa := 1, exponent := 4 }, "Wh", "Energy"),
    (0x08, { mantissa := 1, exponent := 0 }, "J", "Energy"),
    (0x09, { mantissa := 1, exponent := 1 }, "J", "Energy"),
    (0x0A, { mantissa := 1, exponent := 2 }, "J", "Energy"),
    (0x0B, { mantissa := 1, exponent := 3 }, "J", "Energy"),
    (0x0C, { mantissa := 1, exponent := 4 }, "J", "Energy"),
    (0x0D, { mantissa := 1, exponent := 5 }, "J", "Energy"),
    (0x0E, { mantissa := 1, exponent := 6 }, "J", "Energy"),
    (0x0F, { mantissa := 1, exponent := 7 }, "J", "Energy"),
    (0x10, { mantissa := 1, exponent := -6 }, "m^3", "Volume"),
    (0x11, { mantissa := 1, exponent := -5 }, "m^3", "Volume"),
    (0x12, { mantissa := 1, exponent := -4 }, "m^3", "Volume"),
    (0x13, { mantissa := 1, exponent := -3 }, "m^3", "Volume"),
    (0x14, { mantissa := 1, exponent := -2 }, "m^3", "Volume"),
    (0x15, { mantissa := 1, exponent := -1 }, "m^3", "Volume"),
    (0x16, { mantissa := 1, exponent := 0 }, "m^3", "Volume"),
    (0x17, { mantissa := 1, exponent := 1 }, "m^3", "Volume"),
    (0x18, { mantissa := 1, exponent := -3 }, "kg", "Mass"),
    (0x19, { mantissa := 1, exponent := -2 }, "kg", "Mass"),
    (0x1A, { mantissa := 1, exponent := -1 }, "kg", "Mass"),
    (0x1B, { mantissa := 1, exponent := 0 }, "kg", "Mass"),
    (0x1C, { mantissa := 1, exponent := 1 }, "kg", "Mass"),
    (0x1D, { mantissa := 1, exponent := 2 }, "kg", "Mass"),
    (0x1E, { mantissa := 1, exponent := 3 }, "kg", "Mass"),
    (0x1F, { mantissa := 1, exponent := 4 }, "kg", "Mass"),
    (0x20, { mantissa := 1, exponent := 0 }, "s", "On time"),
    (0x21, { mantissa := 60, exponent := 0 }, "s", "On time"),
    (0x22, { mantissa := 3600, exponent := 0 }, "s", "On time"),
    (0x23, { mantissa := 86400, exponent := 0 }, "s", "On time"),
    (0x24, { mantissa := 1, exponent := 0 }, "s", "Operating time"),
    (0x25, { mantissa := 60, exponent := 0 }, "s", "Operating time"),
    (0x26, { mantissa := 3600, exponent := 0 }, "s", "Operating time"),
    (0x27, { mantissa := 86400, exponent := 0 }, "s", "Operating time"),
    (0x28, { mantissa := 1, exponent := -3 }, "W", "Power"),
    (0x29, { mantissa := 1, exponent := -2 }, "W", "Power"),
    (0x2A, { mantissa := 1, exponent := -1 }, "W", "Power"),
    (0x2B, { mantissa := 1, exponent := 0 }, "W", "Power"),
    (0x2C, { mantissa := 1, exponent := 1 }, "W", "Power"),
    (0x2D, { mantissa := 1, exponent := 2 }, "W", "Power"),
    (0x2E, { mantissa := 1, exponent := 3 }, "W", "Power"),
    (0x2F, { mantissa := 1, exponent := 4 }, "W", "Power"),
    (0x30, { mantissa := 1, exponent := 0 }, "J/h", "Power"),
    (0x31, { mantissa := 1, exponent := 1 }, "J/h", "Power"),
    (0x32, { mantissa := 1, exponent := 2 }, "J/h", "Power"),
    (0x33, { mantissa := 1, exponent := 3 }, "J/h", "Power"),
    (0x34, { mantissa := 1, exponent := 4 }, "J/h", "Power"),
    (0x35, { mantissa := 1, exponent := 5 }, "J/h", "Power"),
    (0x36, { mantissa := 1, exponent := 6 }, "J/h", "Power"),
    (0x37, { mantissa := 1, exponent := 7 }, "J/h", "Power"),
    (0x38, { mantissa := 1, exponent := -6 }, "m^3/h", "Volume flow"),
    (0x39, { mantissa := 1, exponent := -5 }, "m^3/h", "Volume flow"),
    (0x3A, { mantissa := 1, exponent := -4 }, "m^3/h", "Volume flow"),
    (0x3B, { mantissa := 1, exponent := -3 }, "m^3/h", "Volume flow"),
    (0x3C, { mantissa := 1, exponent := -2 }, "m^3/h", "Volume flow"),
    (0x3D, { mantissa := 1, exponent := -1 }, "m^3/h", "Volume flow"),
    (0x3E, { mantissa := 1, exponent := 0 }, "m^3/h", "Volume flow"),
    (0x3F, { mantissa := 1, exponent := 1 }, "m^3/h", "Volume flow"),
    (0x40, { mantissa := 1, exponent := -7 }, "m^3/min", "Volume flow"),
    (0x41, { mantissa := 1, exponent := -6 }, "m^3/min", "Volume flow"),
    (0x42, { mantissa := 1, exponent := -5 }, "m^3/min", "Volume flow"),
    (0x43, { mantissa := 1, exponent := -4 }, "m^3/min", "Volume flow"),
    (0x44, { mantissa := 1, exponent := -3 }, "m^3/min", "Volume flow"),
    (0x45, { mantissa := 1, exponent := -2 }, "m^3/min", "Volume flow"),
    (0x46, { mantissa := 1, exponent := -1 }, "m^3/min", "Volume flow"),
    (0x47, { mantissa := 1, exponent := 0 }, "m^3/min", "Volume flow"),
    (0x48, { mantissa := 1, exponent := -9 }, "m^3/s", "Volume flow"),
    (0x49, { mantissa := 1, exponent := -8 }, "m^3/s", "Volume flow"),
    (0x4A, { mantissa := 1, exponent := -7 }, "m^3/s", "Volume flow"),
    (0x4B, { mantissa := 1, exponent := -6 }, "m^3/s", "Volume flow"),
    (0x4C, { mantissa := 1, exponent := -5 }, "m^3/s", "Volume flow"),
    (0x4D, { mantissa := 1, exponent := -4 }, "m^3/s", "Volume flow"),
    (0x4E, { mantissa := 1, exponent := -3 }, "m^3/s", "Volume flow"),
    (0x4F, { mantissa := 1, exponent := -2 }, "m^3/s", "Volume flow"),
    (0x50, { mantissa := 1, exponent := -3 }, "kg/h", "Mass flow"),
    (0x51, { mantissa := 1, exponent := -2 }, "kg/h", "Mass flow"),
    (0x52, { mantissa := 1, exponent := -1 }, "kg/h", "Mass flow"),
    (0x53, { mantissa := 1, exponent := 0 }, "kg/h", "Mass flow"),
    (0x54, { mantissa := 1, exponent := 1 }, "kg/h", "Mass flow"),
    (0x55, { mantissa := 1, exponent := 2 }, "kg/h", "Mass flow"),
    (0x56, { mantissa := 1, exponent := 3 }, "kg/h", "Mass flow"),
    (0x57, { mantissa := 1, exponent := 4 }, "kg/h", "Mass flow"),
    (0x58, { mantissa := 1, exponent := -3 }, "°C", "Flow temperature"),
    (0x59, { mantissa := 1, exponent := -2 }, "°C", "Flow temperature"),
    (0x5A, { mantissa := 1, exponent := -1 }, "°C", "Flow temperature"),
    (0x5B, { mantissa := 1, exponent := 0 }, "°C", "Flow temperature"),
    (0x5C, { mantissa := 1, exponent := -3 }, "°C", "Return temperature"),
    (0x5D, { mantissa := 1, exponent := -2 }, "°C", "Return temperature"),
    (0x5E, { mantissa := 1, exponent := -1 }, "°C", "Return temperature"),
    (0x5F, { mantissa := 1, exponent := 0 }, "°C", "Return temperature"),
    (0x60, { mantissa := 1, exponent := -3 }, "K", "Temperature difference"),
    (0x61, { mantissa := 1, exponent := -2 }, "K", "Temperature difference"),
    (0x62, { mantissa := 1, exponent := -1 }, "K", "Temperature difference"),
    (0x63, { mantissa := 1, exponent := 0 }, "K", "Temperature difference"),
    (0x64, { mantissa := 1, exponent := -3 }, "°C", "External temperature"),
    (0x65, { mantissa := 1, exponent := -2 }, "°C", "External temperature"),
    (0x66, { mantissa := 1, exponent := -1 }, "°C", "External temperature"),
    (0x67, { mantissa := 1, exponent := 0 }, "°C", "External temperature"),
    (0x68, { mantissa := 1, exponent := -3 }, "bar", "Pressure"),
    (0x69, { mantissa := 1, exponent := -2 }, "bar", "Pressure"),
    (0x6A, { mantissa := 1, exponent := -1 }, "bar", "Pressure"),
    (0x6B, { mantissa := 1, exponent := 0 }, "bar", "Pressure"),
    (0x6C, { mantissa := 1, exponent := 0 }, "-", "Time point (date)"),
    (0x6D, { mantissa := 1, exponent := 0 }, "-", "Time point (date & time)"),
    (0x6E, { mantissa := 1, exponent := 0 }, "Units for H.C.A.", "H.C.A."),
    (0x6F, { mantissa := 0, exponent := 0 }, "Reserved", "Reserved"),
    (0x70, { mantissa := 1, exponent := 0 }, "s", "Averaging Duration"),
    (0x71, { mantissa := 60, exponent := 0 }, "s", "Averaging Duration"),
    (0x72, { mantissa := 3600, exponent := 0 }, "s", "Averaging Duration"),
    (0x73, { mantissa := 86400, exponent := 0 }, "s", "Averaging Duration"),
    (0x74, { mantissa := 1, exponent := 0 }, "s", "Actuality Duration"),
    (0x75, { mantissa := 60, exponent := 0 }, "s", "Actuality Duration"),
    (0x76, { mantissa := 3600, exponent := 0 }, "s", "Actuality Duration"),
    (0x77, { mantissa := 86400, exponent := 0 }, "s", "Actuality Duration"),
    (0x78, { mantissa := 1, exponent := 0 }, "", "Fabrication No"),
    (0x79, { mantissa := 1, exponent := 0 }, "", "(Enhanced) Identification"),
    (0x7A, { mantissa := 1, exponent := 0 }, "", "Bus Address"),
    (0x7E, { mantissa := 1, exponent := 0 }, "", "Any VIF"),
    (0x7F, { mantissa := 1, exponent := 0 }, "", "Manufacturer specific"),
    (0xFE, { mantissa := 1, exponent := 0 }, "", "Any VIF"),
    (0xFF, { mantissa := 1, exponent := 0 }, "", "Manufacturer specific"),
    (0x100, { mantissa := 1, exponent := -3 }, "Currency units", "Credit"),
    (0x101, { mantissa := 1, exponent := -2 }, "Currency units", "Credit"),
    (0x102, { mantissa := 1, exponent := -1 }, "Currency units", "Credit"),
    (0x103, { mantissa := 1, exponent := 0 }, "Currency units", "Credit"),
    (0x104, { mantissa := 1, exponent := -3 }, "Currency units", "Debit"),
    (0x105, { mantissa := 1, exponent := -2 }, "Currency units", "Debit"),
    (0x106, { mantissa := 1, exponent := -1 }, "Currency units", "Debit"),
    (0x107, { mantissa := 1, exponent := 0 }, "Currency units", "Debit"),
    (0x108, { mantissa := 1, exponent := 0 }, "", "Access Number (transmission count)"),
    (0x109, { mantissa := 1, exponent := 0 }, "", "Medium"),
    (0x10A, { mantissa := 1, exponent := 0 }, "", "Manufacturer"),
    (0x10B, { mantissa := 1, exponent := 0 }, "", "Parameter set identification"),
    (0x10C, { mantissa := 1, exponent := 0 }, "", "Model / Version"),
    (0x10D, { mantissa := 1, exponent := 0 }, "", "Hardware version"),
    (0x10E, { mantissa := 1, exponent := 0 }, "", "Firmware version"),
    (0x10F, { mantissa := 1, exponent := 0 }, "", "Software version"),
    (0x110, { mantissa := 1, exponent := 0 }, "", "Customer location"),
    (0x111, { mantissa := 1, exponent := 0 }, "", "Customer"),
    (0x112, { mantissa := 1, exponent := 0 }, "", "Access Code User"),
    (0x113, { mantissa := 1, exponent := 0 }, "", "Access Code Operator"),
    (0x114, { mantissa := 1, exponent := 0 }, "", "Access Code System Operator"),
    (0x115, { mantissa := 1, exponent := 0 }, "", "Access Code Developer"),
    (0x116, { mantissa := 1, exponent := 0 }, "", "Password"),
    (0x117, { mantissa := 1, exponent := 0 }, "", "Error flags"),
    (0x118, { mantissa := 1, exponent := 0 }, "", "Error mask"),
    (0x119, { mantissa := 1, exponent := 0 }, "Reserved", "Reserved"),
    (0x11A, { mantissa := 1, exponent := 0 }, "", "Digital Output"),
    (0x11B, { mantissa := 1, exponent := 0 }, "", "Digital Input"),
    (0x11C, { mantissa := 1, exponent := 0 }, "Baud", "Baudrate"),
    (0x11D, { mantissa := 1, exponent := 0 }, "Bittimes", "Response delay time"),
    (0x11E, { mantissa := 1, exponent := 0 }, "", "Retry"),
    (0x11F, { mantissa := 1, exponent := 0 }, "Reserved", "Reserved"),
    (0x120, { mantissa := 1, exponent := 0 }, "", "First storage # for cyclic storage"),
    (0x121, { mantissa := 1, exponent := 0 }, "", "Last storage # for cyclic storage"),
    (0x122, { mantissa := 1, exponent := 0 }, "", "Size of storage block"),
    (0x123, { mantissa := 1, exponent := 0 }, "Reserved", "Reserved"),
    (0x124, { mantissa := 1, exponent := 0 }, "s", "Storage interval"),
    (0x125, { mantissa := 60, exponent := 0 }, "s", "Storage interval"),
    (0x126, { mantissa := 3600, exponent := 0 }, "s", "Storage interval"),
    (0x127, { mantissa := 86400, exponent := 0 }, "s", "Storage interval"),
    (0x128, { mantissa := 262974383, exponent := -2 }, "s", "Storage interval"),
    (0x129, { mantissa := 31556926, exponent := 0 }, "s", "Storage interval"),
    (0x12A, { mantissa := 1, exponent := 0 }, "Reserved", "Reserved"),
    (0x12B, { mantissa := 1, exponent := 0 }, "Reserved", "Reserved"),
    (0x12C, { mantissa := 1, exponent := 0 }, "s", "Duration since last readout"),
    (0x12D, { mantissa := 60, exponent := 0 }, "s", "Duration since last readout"),
    (0x12E, { mantissa := 3600, exponent := 0 }, "s", "Duration since last readout"),
    (0x12F, { mantissa := 86400, exponent := 0 }, "s", "Duration since last readout"),
    (0x130, { mantissa := 1, exponent := 0 }, "Reserved", "Reserved"),
    (0x131, { mantissa := 60, exponent := 0 }, "s", "Duration of tariff"),
    (0x132, { mantissa := 3600, exponent := 0 }, "s", "Duration of tariff"),
    (0x133, { mantissa := 86400, exponent := 0 }, "s", "Duration of tariff"),
    (0x134, { mantissa := 1, exponent := 0 }, "s", "Period of tariff"),
    (0x135, { mantissa := 60, exponent := 0 }, "s", "Period of tariff"),
    (0x136, { mantissa := 3600, exponent := 0 }, "s", "Period of tariff"),
    (0x137, { mantissa := 86400, exponent := 0 }, "s", "Period of tariff"),
    (0x138, { mantissa := 262974383, exponent := -2 }, "s", "Period of tariff"),
    (0x139, { mantissa := 31556926, exponent := 0 }, "s", "Period of tariff"),
    (0x13A, { mantissa := 1, exponent := 0 }, "", "Dimensionless"),
    (0x13B, { mantissa := 1, exponent := 0 }, "Reserved", "Reserved"),
    (0x13C, { mantissa := 1, exponent := 0 }, "Reserved", "Reserved"),
    (0x13D, { mantissa := 1, exponent := 0 }, "Reserved", "Reserved"),
    (0x13E, { mantissa := 1, exponent := 0 }, "Reserved", "Reserved"),
    (0x13F, { mantissa := 1, exponent := 0 }, "Reserved", "Reserved"),
    (0x140, { mantissa := 1, exponent := -9 }, "V", "Voltage"),
    (0x141, { mantissa := 1, exponent := -8 }, "V", "Voltage"),
    (0x142, { mantissa := 1, exponent := -7 }, "V", "Voltage"),
    (0x143, { mantissa := 1, exponent := -6 }, "V", "Voltage"),
    (0x144, { mantissa := 1, exponent := -5 }, "V", "Voltage"),
    (0x145, { mantissa := 1, exponent := -4 }, "V", "Voltage"),
    (0x146, { mantissa := 1, exponent := -3 }, "V", "Voltage"),
    (0x147, { mantissa := 1, exponent := -2 }, "V", "Voltage"),
    (0x148, { mantissa := 1, exponent := -1 }, "V", "Voltage"),
    (0x149, { mantissa := 1, exponent := 0 }, "V", "Voltage"),
    (0x14A, { mantissa := 1, exponent := 1 }, "V", "Voltage"),
    (0x14B, { mantissa := 1, exponent := 2 }, "V", "Voltage"),
    (0x14C, { mantissa := 1, exponent := 3 }, "V", "Voltage"),
    (0x14D, { mantissa := 1, exponent := 4 }, "V", "Voltage"),
    (0x14E, { mantissa := 1, exponent := 5 }, "V", "Voltage"),
    (0x14F, { mantissa := 1, exponent := 6 }, "V", "Voltage"),
    (0x150, { mantissa := 1, exponent := -12 }, "A", "Current"),
    (0x151, { mantissa := 1, exponent := -11 }, "A", "Current"),
    (0x152, { mantissa := 1, exponent := -10 }, "A", "Current"),
    (0x153, { mantissa := 1, exponent := -9 }, "A", "Current"),
    (0x154, { mantissa := 1, exponent := -8 }, "A", "Current"),
    (0x155, { mantissa := 1, exponent := -7 }, "A", "Current"),
    (0x156, { mantissa := 1, exponent := -6 }, "A", "Current"),
    (0x157, { mantissa := 1, exponent := -5 }, "A", "Current"),
    (0x158, { mantissa := 1, exponent := -4 }, "A", "Current"),
    (0x159, { mantissa := 1, exponent := -3 }, "A", "Current"),
    (0x15A, { mantissa := 1, exponent := -2 }, "A", "Current"),
    (0x15B, { mantissa := 1, exponent := -1 }, "A", "Current"),
    (0x15C, { mantissa := 1, exponent := 0 }, "A", "Current"),
    (0x15D, { mantissa := 1, exponent := 1 }, "A", "Current"),
    (0x15E, { mantissa := 1, exponent := 2 }, "A", "Current"),
    (0x15F, { mantissa := 1, exponent := 3 }, "A", "Current"),
    (0x160, { mantissa := 1, exponent := 0 }, "", "Reset counter"),
    (0x161, { mantissa := 1, exponent := 0 }, "", "Cumulation counter"),
    (0x162, { mantissa := 1, exponent := 0 }, "", "Control signal"),
    (0x163, { mantissa := 1, exponent := 0 }, "", "Day of week"),
    (0x164, { mantissa := 1, exponent := 0 }, "", "Week number"),
    (0x165, { mantissa := 1, exponent := 0 }, "", "Time point of day change"),
    (0x166, { mantissa := 1, exponent := 0 }, "", "State of parameter activation"),
    (0x167, { mantissa := 1, exponent := 0 }, "", "Special supplier information"),
    (0x168, { mantissa := 3600, exponent := 0 }, "s", "Duration since last cumulation"),
    (0x169, { mantissa := 86400, exponent := 0 }, "s", "Duration since last cumulation"),
    (0x16A, { mantissa := 262974383, exponent := -2 }, "s", "Duration since last cumulation"),
    (0x16B, { mantissa := 31556926, exponent := 0 }, "s", "Duration since last cumulation"),
    (0x16C, { mantissa := 3600, exponent := 0 }, "s", "Operating time battery"),
    (0x16D, { mantissa := 86400, exponent := 0 }, "s", "Operating time battery"),
    (0x16E, { mantissa := 262974383, exponent := -2 }, "s", "Operating time battery"),
    (0x16F, { mantissa := 31556926, exponent := 0 }, "s", "Operating time battery"),
    (0x170, { mantissa := 1, exponent := 0 }, "", "Date and time of battery change"),
    (0x171, { mantissa := 1, exponent := 0 }, "Reserved", "Reserved"),
    (0x172, { mantissa := 1, exponent := 0 }, "Reserved", "Reserved"),
    (0x173, { mantissa := 1, exponent := 0 }, "Reserved", "Reserved"),
    (0x174, { mantissa := 1, exponent := 0 }, "Reserved", "Reserved"),
    (0x175, { mantissa := 1, exponent := 0 }, "Reserved", "Reserved"),
    (0x176, { mantissa := 1, exponent := 0 }, "Reserved", "Reserved"),
    (0x177, { mantissa := 1, exponent := 0 }, "Reserved", "Reserved"),
    (0x178, { mantissa := 1, exponent := 0 }, "Reserved", "Reserved"),
    (0x179, { mantissa := 1, exponent := 0 }, "Reserved", "Reserved"),
    (0x17A, { mantissa := 1, exponent := 0 }, "Reserved", "Reserved"),
    (0x17B, { mantissa := 1, exponent := 0 }, "Reserved", "Reserved"),
    (0x17C, { mantissa := 1, exponent := 0 }, "Reserved", "Reserved"),
    (0x17D, { mantissa := 1, exponent := 0 }, "Reserved", "Reserved"),
    (0x17E, { mantissa := 1, exponent := 0 }, "Reserved", "Reserved"),
    (0x17F, { mantissa := 1, exponent := 0 }, "Reserved", "Reserved"),
    (0x200, { mantissa := 1, exponent := 5 }, "Wh", "Energy"),
    (0x201, { mantissa := 1, exponent := 6 }, "Wh", "Energy"),
    (0x202, { mantissa := 1, exponent := 0 }, "Reserved", "Reserved"),
    (0x203, { mantissa := 1, exponent := 0 }, "Reserved", "Reserved"),
    (0x204, { mantissa := 1, exponent := 0 }, "Reserved", "Reserved"),
    (0x205, { mantissa := 1, exponent := 0 }, "Reserved", "Reserved"),
    (0x206, { mantissa := 1, exponent := 0 }, "Reserved", "Reserved"),
    (0x207, { mantissa := 1, exponent := 0 }, "Reserved", "Reserved"),
    (0x208, { mantissa := 1, exponent := 8 }, "Reserved", "Energy"),
    (0x209, { mantissa := 1, exponent := 9 }, "Reserved", "Energy"),
    (0x20A, { mantissa := 1, exponent := 0 }, "Reserved", "Reserved"),
    (0x20B, { mantissa := 1, exponent := 0 }, "Reserved", "Reserved"),
    (0x20C, { mantissa := 1, exponent := 0 }, "Reserved", "Reserved"),
    (0x20D, { mantissa := 1, exponent := 0 }, "Reserved", "Reserved"),
    (0x20E, { mantissa := 1, exponent := 0 }, "Reserved", "Reserved"),
    (0x20F, { mantissa := 1, exponent := 0 }, "Reserved", "Reserved"),
    (0x210, { mantissa := 1, exponent := 2 }, "m^3", "Volume"),
    (0x211, { mantissa := 1, exponent := 3 }, "m^3", "Volume"),
    (0x212, { mantissa := 1, exponent := 0 }, "Reserved", "Reserved"),
    (0x213, { mantissa := 1, exponent := 0 }, "Reserved", "Reserved"),
    (0x214, { mantissa := 1, exponent := 0 }, "Reserved", "Reserved"),
    (0x215, { mantissa := 1, exponent := 0 }, "Reserved", "Reserved"),
    (0x216, { mantissa := 1, exponent := 0 }, "Reserved", "Reserved"),
    (0x217, { mantissa := 1, exponent := 0 }, "Reserved", "Reserved"),
    (0x218, { mantissa := 1, exponent := 5 }, "kg", "Mass"),
    (0x219, { mantissa := 1, exponent := 6 }, "kg", "Mass"),
    (0x21A, { mantissa := 1, exponent := 0 }, "Reserved", "Reserved"),
    (0x21B, { mantissa := 1, exponent := 0 }, "Reserved", "Reserved"),
    (0x21C, { mantissa := 1, exponent := 0 }, "Reserved", "Reserved"),
    (0x21D, { mantissa := 1, exponent := 0 }, "Reserved", "Reserved"),
    (0x21E, { mantissa := 1, exponent := 0 }, "Reserved", "Reserved"),
    (0x21F, { mantissa := 1, exponent := 0 }, "Reserved", "Reserved"),
    (0x220, { mantissa := 1, exponent := 0 }, "Reserved", "Reserved"),
    (0x221, { mantissa := 1, exponent := -1 }, "feet^3", "Volume"),
    (0x222, { mantissa := 1, exponent := -1 }, "American gallon", "Volume"),
    (0x223, { mantissa := 1, exponent := 0 }, "American gallon", "Volume"),
    (0x224, { mantissa := 1, exponent := -3 }, "American gallon/min", "Volume flow"),
    (0x225, { mantissa := 1, exponent := 0 }, "American gallon/min", "Volume flow"),
    (0x226, { mantissa := 1, exponent := 0 }, "American gallon/h", "Volume flow"),
    (0x227, { mantissa := 1, exponent := 0 }, "Reserved", "Reserved"),
    (0x228, { mantissa := 1, exponent := 5 }, "W", "Power"),
    (0x229, { mantissa := 1, exponent := 6 }, "W", "Power"),
    (0x22A, { mantissa := 1, exponent := 0 }, "Reserved", "Reserved"),
    (0x22B, { mantissa := 1, exponent := 0 }, "Reserved", "Reserved"),
    (0x22C, { mantissa := 1, exponent := 0 }, "Reserved", "Reserved"),
    (0x22D, { mantissa := 1, exponent := 0 }, "Reserved", "Reserved"),
    (0x22E, { mantissa := 1, exponent := 0 }, "Reserved", "Reserved"),
    (0x22F, { mantissa := 1, exponent := 0 }, "Reserved", "Reserved"),
    (0x230, { mantissa := 1, exponent := 8 }, "J", "Power"),
    (0x231, { mantissa := 1, exponent := 9 }, "J", "Power"),
    (0x232, { mantissa := 1, exponent := 0 }, "Reserved", "Reserved"),
    (0x233, { mantissa := 1, exponent := 0 }, "Reserved", "Reserved"),
    (0x234, { mantissa := 1, exponent := 0 }, "Reserved", "Reserved"),
    (0x235, { mantissa := 1, exponent := 0 }, "Reserved", "Reserved"),
    (0x236, { mantissa := 1, exponent := 0 }, "Reserved", "Reserved"),
    (0x237, { mantissa := 1, exponent := 0 }, "Reserved", "Reserved"),
    (0x238, { mantissa := 1, exponent := 0 }, "Reserved", "Reserved"),
    (0x239, { mantissa := 1, exponent := 0 }, "Reserved", "Reserved"),
    (0x23A, { mantissa := 1, exponent := 0 }, "Reserved", "Reserved"),
    (0x23B, { mantissa := 1, exponent := 0 }, "Reserved", "Reserved"),
    (0x23C, { mantissa := 1, exponent := 0 }, "Reserved", "Reserved"),
    (0x23D, { mantissa := 1, exponent := 0 }, "Reserved", "Reserved"),
    (0x23E, { mantissa := 1, exponent := 0 }, "Reserved", "Reserved"),
    (0x23F, { mantissa := 1, exponent := 0 }, "Reserved", "Reserved"),
    (0x240, { mantissa := 1, exponent := 0 }, "Reserved", "Reserved"),
    (0x241, { mantissa := 1, exponent := 0 }, "Reserved", "Reserved"),
    (0x242, { mantissa := 1, exponent := 0 }, "Reserved", "Reserved"),
    (0x243, { mantissa := 1, exponent := 0 }, "Reserved", "Reserved"),
    (0x244, { mantissa := 1, exponent := 0 }, "Reserved", "Reserved"),
    (0x245, { mantissa := 1, exponent := 0 }, "Reserved", "Reserved"),
    (0x246, { mantissa := 1, exponent := 0 }, "Reserved", "Reserved"),
    (0x247, { mantissa := 1, exponent := 0 }, "Reserved", "Reserved"),
    (0x248, { mantissa := 1, exponent := 0 }, "Reserved", "Reserved"),
    (0x249, { mantissa := 1, exponent := 0 }, "Reserved", "Reserved"),
    (0x24A, { mantissa := 1, exponent := 0 }, "Reserved", "Reserved"),
    (0x24B, { mantissa := 1, exponent := 0 }, "Reserved", "Reserved"),
    (0x24C, { mantissa := 1, exponent := 0 }, "Reserved", "Reserved"),
    (0x24D, { mantissa := 1, exponent := 0 }, "Reserved", "Reserved"),
    (0x24E, { mantissa := 1, exponent := 0 }, "Reserved", "Reserved"),
    (0x24F, { mantissa := 1, exponent := 0 }, "Reserved", "Reserved"),
    (0x250, { mantissa := 1, exponent := 0 }, "Reserved", "Reserved"),
    (0x251, { mantissa := 1, exponent := 0 }, "Reserved", "Reserved"),
    (0x252, { mantissa := 1, exponent := 0 }, "Reserved", "Reserved"),
    (0x253, { mantissa := 1, exponent := 0 }, "Reserved", "Reserved"),
    (0x254, { mantissa := 1, exponent := 0 }, "Reserved", "Reserved"),
    (0x255, { mantissa := 1, exponent := 0 }, "Reserved", "Reserved"),
    (0x256, { mantissa := 1, exponent := 0 }, "Reserved", "Reserved"),
    (0x257, { mantissa := 1, exponent := 0 }, "Reserved", "Reserved"),
    (0x258, { mantissa := 1, exponent := -3 }, "°F", "Flow temperature"),
    (0x259, { mantissa := 1, exponent := -2 }, "°F", "Flow temperature"),
    (0x25A, { mantissa := 1, exponent := -1 }, "°F", "Flow temperature"),
    (0x25B, { mantissa := 1, exponent := 0 }, "°F", "Flow temperature"),
    (0x25C, { mantissa := 1, exponent := -3 }, "°F", "Return temperature"),
    (0x25D, { mantissa := 1, exponent := -2 }, "°F", "Return temperature"),
    (0x25E, { mantissa := 1, exponent := -1 }, "°F", "Return temperature"),
    (0x25F, { mantissa := 1, exponent := 0 }, "°F", "Return temperature"),
    (0x260, { mantissa := 1, exponent := -3 }, "°F", "Temperature difference"),
    (0x261, { mantissa := 1, exponent := -2 }, "°F", "Temperature difference"),
    (0x262, { mantissa := 1, exponent := -1 }, "°F", "Temperature difference"),
    (0x263, { mantissa := 1, exponent := 0 }, "°F", "Temperature difference"),
    (0x264, { mantissa := 1, exponent := -3 }, "°F", "External temperature"),
    (0x265, { mantissa := 1, exponent := -2 }, "°F", "External temperature"),
    (0x266, { mantissa := 1, exponent := -1 }, "°F", "External temperature"),
    (0x267, { mantissa := 1, exponent := 0 }, "°F", "External temperature"),
    (0x268, { mantissa := 1, exponent := 0 }, "Reserved", "Reserved"),
    (0x269, { mantissa := 1, exponent := 0 }, "Reserved", "Reserved"),
    (0x26A, { mantissa := 1, exponent := 0 }, "Reserved", "Reserved"),
    (0x26B, { mantissa := 1, exponent := 0 }, "Reserved", "Reserved"),
    (0x26C, { mantissa := 1, exponent := 0 }, "Reserved", "Reserved"),
    (0x26D, { mantissa := 1, exponent := 0 }, "Reserved", "Reserved"),
    (0x26E, { mantissa := 1, exponent := 0 }, "Reserved", "Reserved"),
    (0x26F, { mantissa := 1, exponent := 0 }, "Reserved", "Reserved"),
    (0x270, { mantissa := 1, exponent := -3 }, "°F", "Cold / Warm Temperature Limit"),
    (0x271, { mantissa := 1, exponent := -2 }, "°F", "Cold / Warm Temperature Limit"),
    (0x272, { mantissa := 1, exponent := -1 }, "°F", "Cold / Warm Temperature Limit"),
    (0x273, { mantissa := 1, exponent := 0 }, "°F", "Cold / Warm Temperature Limit"),
    (0x274, { mantissa := 1, exponent := -3 }, "°C", "Cold / Warm Temperature Limit"),
    (0x275, { mantissa := 1, exponent := -2 }, "°C", "Cold / Warm Temperature Limit"),
    (0x276, { mantissa := 1, exponent := -1 }, "°C", "Cold / Warm Temperature Limit"),
    (0x277, { mantissa := 1, exponent := 0 }, "°C", "Cold / Warm Temperature Limit"),
    (0x278, { mantissa := 1, exponent := -3 }, "W", "Cumul count max power"),
    (0x279, { mantissa := 1, exponent := -3 }, "W", "Cumul count max power"),
    (0x27A, { mantissa := 1, exponent := -1 }, "W", "Cumul count max power"),
    (0x27B, { mantissa := 1, exponent := 0 }, "W", "Cumul count max power"),
    (0x27C, { mantissa := 1, exponent := 1 }, "W", "Cumul count max power"),
    (0x27D, { mantissa := 1, exponent := 2 }, "W", "Cumul count max power"),
    (0x27E, { mantissa := 1, exponent := 3 }, "W", "Cumul count max power"),
    (0x27F, { mantissa := 1, exponent := 4 }, "W", "Cumul count max power")
  ]

/-- `vif_unit_normalize`, src/rscada_xml.rs:750-762: unit, factor and quantity of the first table entry
with that code. -/
def vifUnitNormalize (code : Nat) : Option (List Char × Factor × List Char) :=
  (vifTable.lookup (code &&& 0xF7F)).map (fun (factor, unit, quantity) =>
    (unit.toList, factor, quantity.toList))

/-- The first part of `vib_unit_normalize`, src/rscada_xml.rs:713-727: unit, factor and quantity.  The
plain text VIF keeps the value, which is multiplying by 1. -/
def vibUnit (vif : UInt8) (vifes : List UInt8) (customVif : Option (List Char)) :
    Option (List Char × Factor × List Char) :=
  if vif = 0xFD then
    match vifes with
    | [] => none
    | vife :: _ => vifUnitNormalize ((vife &&& 0x7F).toNat ||| 0x100)
  else if vif = 0xFB then
    match vifes with
    | [] => none
    | vife :: _ => vifUnitNormalize ((vife &&& 0x7F).toNat ||| 0x200)
  else if vif = 0x7C ∨ vif = 0xFC then some (['-'], ⟨1, 0⟩, customVif.getD [])
  else vifUnitNormalize (vif &&& 0x7F).toNat

/-- The second part of `vib_unit_normalize`, src/rscada_xml.rs:729-745: what the first VIFE does to the
normalized value (multiply by 10^`n`, or add 10^`n`). -/
def vifeCorrection (vif : UInt8) (vifes : List UInt8) : Correction :=
  if vif &&& 0x80 != 0 ∧ vif ≠ 0xFD ∧ vif ≠ 0xFB then
    match vifes with
    | [] => .none
    | vife :: _ =>
      let n := vife &&& 0x7F
      if 0x70 ≤ n ∧ n ≤ 0x77 then .times ((vife &&& 0x07).toNat - 6)
      else if 0x78 ≤ n ∧ n ≤ 0x7B then .plus ((vife &&& 0x03).toNat - 3)
      else if n = 0x7D then .times 3
      else .none
  else .none

/-- `normalize_record`, src/rscada_xml.rs:424-503. -/
def normalizeRecord (env : XmlEnv) (r : DataRecord) : Option NormalizedRecord :=
  let dif := r.header.raw.dib.dif
  let difes := r.header.raw.dib.difes.getD []
  let data := (sliceFrom? r.rawBytes r.header.size).getD []
  let storage := storageNumber dif difes
  let tariff := if difes.isEmpty then none else some (tariff difes)
  let device := device difes
  if dif = 0x0F ∨ dif = 0x1F then
    some ⟨(if dif = 0x1F then "More records follow" else "Manufacturer specific").toList, storage, tariff,
      device, [], [], .str (binDecode data)⟩
  else do
    let vib ← r.header.raw.vib
    let vifes := vib.vifes.getD []
    let customVif := vib.plaintext.map (fun chars => chars.reverse.map (fun b => Char.ofNat b.toNat))
    let value ← variableValueDecode env dif vib.vif vifes.head? data
    let (unit, factor, quantity) ← vibUnit vib.vif vifes customVif
    some ⟨(functionString dif).toList, storage, tariff, device, unit, quantity,
      match value with
      | .real raw => .real ⟨raw, factor, vifeCorrection vib.vif vifes⟩
      | .str text => .str text⟩

/-- The tariff and device lines of a record, src/rscada_xml.rs:400-403. -/
def renderTariff (tariff : Option Nat) (device : Nat) : List Char :=
  match tariff with
  | none => []
  | some t =>
    "        <Tariff>".toList ++ natText t ++ "</Tariff>\n".toList
    ++ "        <Device>".toList ++ natText device ++ "</Device>\n".toList

/-- The text of a value, src/rscada_xml.rs:410-417. -/
def renderValue (env : XmlEnv) (value : DecodedValue XmlReal) : List Char :=
  match value with
  | .real v => env.fmt6 v
  | .str text => xmlEncode text

/-- The lines inside a record, src/rscada_xml.rs:391-418. -/
def renderNormalized (env : XmlEnv) (record : Option NormalizedRecord) : List Char :=
  match record with
  | none => []
  | some n =>
    "        <Function>".toList ++ xmlEncode n.function ++ "</Function>\n".toList
    ++ "        <StorageNumber>".toList ++ natText n.storageNumber ++ "</StorageNumber>\n".toList
    ++ renderTariff n.tariff n.device
    ++ "        <Unit>".toList ++ xmlEncode n.unit ++ "</Unit>\n".toList
    ++ "        <Quantity>".toList ++ xmlEncode n.quantity ++ "</Quantity>\n".toList
    ++ "        <Value>".toList ++ renderValue env n.value ++ "</Value>\n".toList

/-- `render_variable_record`, src/rscada_xml.rs:388-422. -/
def renderVariableRecord (env : XmlEnv) (index : Nat) (r : DataRecord) : List Char :=
  "    <DataRecord id=\"".toList ++ natText index ++ "\">\n".toList
  ++ renderNormalized env (normalizeRecord env r)
  ++ "    </DataRecord>\n\n".toList

/-- `XML_PROCESSING_INSTRUCTION`, src/rscada_xml.rs:12. -/
def processingInstruction : List Char := "<?xml version=\"1.0\" encoding=\"ISO-8859-1\"?>\n".toList

/-- The manufacturer code as text. -/
def manufacturerText (c : ManufacturerCode) : List Char :=
  [c.c0, c.c1, c.c2].map (fun b => Char.ofNat b.toNat)

/-- `medium_lookup`, src/rscada_xml.rs:905-949; the arm `_` prints the code in lower case hexadecimal. -/
def mediumLookup (medium : UInt8) : List Char :=
  let table : List (Nat × String) :=
    [(0x00, "Other"), (0x01, "Oil"), (0x02, "Electricity"), (0x03, "Gas"), (0x04, "Heat: Outlet"),
     (0x05, "Steam"), (0x06, "Warm water (30-90°C)"), (0x07, "Water"), (0x08, "Heat Cost Allocator"),
     (0x09, "Compressed Air"), (0x0A, "Cooling load meter: Outlet"),
     (0x0B, "Cooling load meter: Inlet"), (0x0C, "Heat: Inlet"), (0x0D, "Heat / Cooling load meter"),
     (0x0E, "Bus/System"), (0x0F, "Unknown Medium"), (0x10, "Irrigation Water"),
     (0x11, "Water Logger"), (0x12, "Gas Logger"), (0x13, "Gas Converter"), (0x14, "Calorific value"),
     (0x15, "Hot water (>90°C)"), (0x16, "Cold water"), (0x17, "Dual water"), (0x18, "Pressure"),
     (0x19, "A/D Converter"), (0x1A, "Smoke Detector"), (0x1B, "Ambient Sensor"),
     (0x1C, "Gas Detector"), (0x20, "Breaker: Electricity"), (0x21, "Valve: Gas or Water"),
     (0x25, "Customer Unit: Display Device"), (0x28, "Waste Water"), (0x29, "Garbage"),
     (0x30, "Service Unit"), (0x36, "Radio Converter: System"), (0x37, "Radio Converter: Meter")]
  let n := medium.toNat
  match table.lookup n with
  | some text => text.toList
  | none =>
    if (0x22 ≤ n ∧ n ≤ 0x24) ∨ n = 0x26 ∨ n = 0x27 ∨ (0x2A ≤ n ∧ n ≤ 0x2F) ∨ (0x31 ≤ n ∧ n ≤ 0x34)
      ∨ (0x38 ≤ n ∧ n ≤ 0x3F) then "Reserved".toList
    else "Unknown medium (0x".toList ++ (hex2 medium).map Char.toLower ++ [')']

/-- `records.clone().flatten().enumerate()`, src/rscada_xml.rs:297 and 315: the records that could be
parsed, numbered; `flatten` drops the errors.  Panics are dealt with in `rendered`. -/
def renderRecords (cfg : Cfg) (env : XmlEnv) (records : Option DataRecords) : List Char :=
  match records with
  | none => []
  | some s =>
    (((s.collect cfg).filterMap Res.toOption).zipIdx.map
      (fun (r, i) => renderVariableRecord env i r)).flatten

/-- `<Id>` to `<Medium>`, the same in `render_wireless_variable` (src/rscada_xml.rs:253-278) and
`render_variable_header` (src/rscada_xml.rs:331-354). -/
def renderIdentity (id : Nat) (manufacturer : List Char) (version medium : UInt8) :
    List Char :=
  "    <SlaveInformation>\n".toList
  ++ "        <Id>".toList ++ natText id ++ "</Id>\n".toList
  ++ "        <Manufacturer>".toList ++ manufacturer ++ "</Manufacturer>\n".toList
  ++ "        <Version>".toList ++ natText version.toNat ++ "</Version>\n".toList
  ++ "        <ProductName>".toList ++ xmlEncode (productName manufacturer version medium id)
  ++ "</ProductName>\n".toList
  ++ "        <Medium>".toList ++ xmlEncode (mediumLookup medium) ++ "</Medium>\n".toList

/-- `format!("{:02X}{:02X}", high, low)` of a signature, src/rscada_xml.rs:288-294 and 363-368. -/
def signatureText (signature : UInt16) : List Char :=
  hex2 (signature >>> 8).toUInt8 ++ hex2 (signature &&& 0xFF).toUInt8

/-- A line that is only there if its value is. -/
def optionalLine (start stop : String) (text : Option (List Char)) : List Char :=
  match text with
  | none => []
  | some t => start.toList ++ t ++ stop.toList

/-- `render_wireless_variable`, src/rscada_xml.rs:241-303. -/
def renderWirelessVariable (cfg : Cfg) (env : XmlEnv) (identity : ManufacturerId)
    (access status : Option UInt8) (signature : Option UInt16) (records : Option DataRecords) :
    List Char :=
  processingInstruction ++ "<MBusData>\n\n".toList
  ++ renderIdentity identity.identificationNumber (manufacturerText identity.manufacturerCode)
      identity.version identity.deviceType.toByte
  ++ optionalLine "        <AccessNumber>" "</AccessNumber>\n" (access.map (fun a => natText a.toNat))
  ++ optionalLine "        <Status>" "</Status>\n" (status.map hex2)
  ++ optionalLine "        <Signature>" "</Signature>\n" (signature.map signatureText)
  ++ "    </SlaveInformation>\n\n".toList
  ++ renderRecords cfg env records
  ++ "</MBusData>\n".toList

/-- `render_variable_header`, src/rscada_xml.rs:324-371. -/
def renderVariableHeader (env : XmlEnv) (header : LongTplHeader) : List Char :=
  let manufacturer := match header.manufacturer with
    | .ok code => manufacturerText code
    | _ => []
  renderIdentity header.identificationNumber manufacturer header.version header.deviceType.toByte
  ++ "        <AccessNumber>".toList ++ natText header.short.accessNumber.toNat
  ++ "</AccessNumber>\n".toList
  ++ "        <Status>".toList ++ hex2 header.short.status ++ "</Status>\n".toList
  ++ "        <Signature>".toList ++ signatureText header.short.configurationField.raw
  ++ "</Signature>\n".toList
  ++ "    </SlaveInformation>\n\n".toList

/-- `render_variable`, src/rscada_xml.rs:305-322. -/
def renderVariable (cfg : Cfg) (env : XmlEnv) (header : LongTplHeader) (records : Option DataRecords) :
    List Char :=
  processingInstruction ++ "<MBusData>\n\n".toList
  ++ renderVariableHeader env header
  ++ renderRecords cfg env records
  ++ "</MBusData>\n".toList

/-- `fixed_medium`, src/rscada_xml.rs:817-836. -/
def fixedMedium (cnt1Type cnt2Type : UInt8) : String :=
  match (((cnt1Type &&& 0xC0) >>> 6) ||| ((cnt2Type &&& 0xC0) >>> 4)).toNat with
  | 0x00 => "Other" | 0x01 => "Oil" | 0x02 => "Electricity" | 0x03 => "Gas" | 0x04 => "Heat"
  | 0x05 => "Steam" | 0x06 => "Hot Water" | 0x07 => "Water" | 0x08 => "H.C.A." | 0x09 => "Reserved"
  | 0x0F => "Reserved" | 0x0A => "Gas Mode 2" | 0x0B => "Heat Mode 2" | 0x0C => "Hot Water Mode 2"
  | 0x0D => "Water Mode 2" | 0x0E => "H.C.A. Mode 2" | _ => "unknown"

/-- `fixed_unit`, src/rscada_xml.rs:838-903. -/
def fixedUnit (mediumUnitByte : UInt8) : String :=
  match (mediumUnitByte &&& 0x3F).toNat with
  | 0x00 => "h,m,s" | 0x01 => "D,M,Y" | 0x02 => "Wh" | 0x03 => "10 Wh" | 0x04 => "100 Wh"
  | 0x05 => "kWh" | 0x06 => "10 kWh" | 0x07 => "100 kWh" | 0x08 => "MWh" | 0x09 => "10 MWh"
  | 0x0A => "100 MWh" | 0x0B => "kJ" | 0x0C => "10 kJ" | 0x0E => "100 kJ" | 0x0D => "MJ"
  | 0x0F => "10 MJ" | 0x10 => "100 MJ" | 0x11 => "GJ" | 0x12 => "10 GJ" | 0x13 => "100 GJ"
  | 0x14 => "W" | 0x15 => "10 W" | 0x16 => "100 W" | 0x17 => "kW" | 0x18 => "10 kW"
  | 0x19 => "100 kW" | 0x1A => "MW" | 0x1B => "10 MW" | 0x1C => "100 MW" | 0x1D => "kJ/h"
  | 0x1E => "10 kJ/h" | 0x1F => "100 kJ/h" | 0x20 => "MJ/h" | 0x21 => "10 MJ/h"
  | 0x22 => "100 MJ/h" | 0x23 => "GJ/h" | 0x24 => "10 GJ/h" | 0x25 => "100 GJ/h" | 0x26 => "ml"
  | 0x27 => "10 ml" | 0x28 => "100 ml" | 0x29 => "l" | 0x2A => "10 l" | 0x2B => "100 l"
  | 0x2C => "m^3" | 0x2D => "10 m^3" | 0x2E => "100 m^3" | 0x2F => "ml/h" | 0x30 => "10 ml/h"
  | 0x31 => "100 ml/h" | 0x32 => "l/h" | 0x33 => "10 l/h" | 0x34 => "100 l/h" | 0x35 => "m^3/h"
  | 0x36 => "10 m^3/h" | 0x37 => "100 m^3/h" | 0x38 => "1e-3 °C" | 0x39 => "units for HCA"
  | 0x3A => "reserved" | 0x3B => "reserved" | 0x3C => "reserved" | 0x3D => "reserved"
  | 0x3E => "reserved but historic" | 0x3F => "without units" | _ => "unknown"

/-- One counter of `render_fixed`, src/rscada_xml.rs:796-811.  A `Counter` is its number; printing it
and parsing the text back gives that number (`Counter`'s `Display` is `{:08}`). -/
def renderFixedCounter (function : List Char) (index : Nat) (cntType : UInt8) (counter : Nat) :
    List Char :=
  "    <DataRecord id=\"".toList ++ natText index ++ "\">\n".toList
  ++ "        <Function>".toList ++ function ++ "</Function>\n".toList
  ++ "        <Unit>".toList ++ xmlEncode (fixedUnit cntType).toList ++ "</Unit>\n".toList
  ++ "        <Value>".toList ++ natText counter ++ "</Value>\n".toList
  ++ "    </DataRecord>\n\n".toList

/-- `render_fixed`, src/rscada_xml.rs:764-815. -/
def renderFixed (id : Nat) (accessNumber status : UInt8) (deviceTypeAndUnit : UInt16)
    (counter1 counter2 : Nat) : List Char :=
  let cnt1Type := (deviceTypeAndUnit >>> 8).toUInt8
  let cnt2Type := (deviceTypeAndUnit &&& 0xFF).toUInt8
  let function := (if status &&& 0x40 != 0 then "Stored value" else "Actual value").toList
  processingInstruction ++ "<MBusData>\n\n".toList
  ++ "    <SlaveInformation>\n".toList
  ++ "        <Id>".toList ++ natText id ++ "</Id>\n".toList
  ++ "        <Medium>".toList ++ xmlEncode (fixedMedium cnt1Type cnt2Type).toList ++ "</Medium>\n".toList
  ++ "        <AccessNumber>".toList ++ natText accessNumber.toNat ++ "</AccessNumber>\n".toList
  ++ "        <Status>".toList ++ hex2 status ++ "</Status>\n".toList
  ++ "    </SlaveInformation>\n\n".toList
  ++ renderFixedCounter function 0 cnt1Type counter1
  ++ renderFixedCounter function 1 cnt2Type counter2
  ++ "</MBusData>\n".toList

/-- The `Err(String)` of `render_from_bytes`; only the cause is kept. -/
inductive XmlError where
  | unsupportedWired
  | notAFrame (e : WirelessFrameError)
  | decryption (e : DecryptionError)
  | invalidLength
  deriving DecidableEq, Repr, Inhabited

/-- The document made of `records`, unless parsing one of them panics. -/
def rendered (cfg : Cfg) (records : Option DataRecords) (text : List Char) : Res XmlError (List Char) :=
  if records.any (fun s => decide (.panic ∈ s.collect cfg)) then .panic else .ok text

/-- The decrypting part shared by `render_with_optional_decryption` (src/rscada_xml.rs:151-162) and
`render_wireless_with_optional_decryption` (src/rscada_xml.rs:208-233): decrypt into a fresh buffer of
512 bytes and render the records found there. -/
def withDecrypted (aes : AesBlock) (block : UserDataBlock) (wirelessId : Option ManufacturerId)
    (key : List UInt8) (render : List UInt8 → Res XmlError (List Char)) : Res XmlError (List Char) :=
  match decryptUserData aes block wirelessId key (List.replicate 512 0) with
  | (.ok len, buffer) =>
    match sliceTo? buffer len with
    | some data => render data
    | none => .err .invalidLength
  | (.err e, _) => .err (.decryption e)
  | (.panic, _) => .panic

/-- `render_with_optional_decryption`, src/rscada_xml.rs:138-168.  The user data block is always
present at the two calls. -/
def renderWithOptionalDecryption (cfg : Cfg) (env : XmlEnv) (aes : AesBlock) (header : LongTplHeader)
    (userData : UserDataBlock) (records : Option DataRecords) (wirelessId : Option ManufacturerId)
    (key : Option (List UInt8)) : Res XmlError (List Char) :=
  let render (records : Option DataRecords) := rendered cfg records (renderVariable cfg env header records)
  if !header.isEncrypted then render records
  else match key with
    | none => render none
    | some key =>
      withDecrypted aes userData wirelessId key
        (fun data => render (some (DataRecords.new data header.lsbOrder)))

/-- `render_wireless`, src/rscada_xml.rs:67-136, with `render_wireless_with_optional_decryption`,
src/rscada_xml.rs:170-239, in its only call. -/
def renderWireless (cfg : Cfg) (env : XmlEnv) (aes : AesBlock) (parsed : MbusData WirelessFrame)
    (key : Option (List UInt8)) : Res XmlError (List Char) :=
  let id := parsed.frame.manufacturerId
  match parsed.userData with
  | some (.long ell header block) =>
    renderWithOptionalDecryption cfg env aes header (.long ell header block) parsed.dataRecords
      (some id) key
  | some (.short ell header block) =>
    let ellEncrypted := ell.any (fun e => e.encryption.isSome)
    let synthetic := ellEncrypted && header.configurationField.securityMode == .noEncryption
    let access := if synthetic then ell.map (·.accessNumber) else some header.accessNumber
    let status := if synthetic then none else some header.status
    let signature := if synthetic then none else some header.configurationField.raw
    let render (records : Option DataRecords) :=
      rendered cfg records (renderWirelessVariable cfg env id access status signature records)
    if !(ellEncrypted || header.isEncrypted) then render parsed.dataRecords
    else match key with
      | none => render none
      | some key =>
        withDecrypted aes (.short ell header block) (some id) key
          (fun data => render (some (DataRecords.new data false)))
  | some (.noTpl ell _) =>
    rendered cfg parsed.dataRecords
      (renderWirelessVariable cfg env id (ell.map (·.accessNumber)) none none parsed.dataRecords)
  | some (.fixed idn accessNumber status deviceTypeAndUnit counter1 counter2) =>
    .ok (renderFixed idn accessNumber status deviceTypeAndUnit counter1 counter2)
  | _ => .ok (renderWirelessVariable cfg env id none none none none)

/-- `render_from_bytes`, src/rscada_xml.rs:16-65. -/
def renderFromBytes (cfg : Cfg) (env : XmlEnv) (aes : AesBlock) (data : List UInt8)
    (key : Option (List UInt8)) : Res XmlError (List Char) :=
  match MbusData.tryFromWired cfg data with
  | .panic => .panic
  | .ok parsed =>
    match parsed.userData with
    | some (.long ell header block) =>
      match key with
      | none => rendered cfg parsed.dataRecords (renderVariable cfg env header parsed.dataRecords)
      | some key =>
        renderWithOptionalDecryption cfg env aes header (.long ell header block) parsed.dataRecords
          none (some key)
    | some (.fixed idn accessNumber status deviceTypeAndUnit counter1 counter2) =>
      .ok (renderFixed idn accessNumber status deviceTypeAndUnit counter1 counter2)
    | _ => .err .unsupportedWired
  | .err _ =>
    match stripFormatACrcs data (List.replicate 512 0) with
    | .panic => .panic
    | .err _ => .panic
    | .ok (stripped, _) =>
      match MbusData.tryFromWireless (stripped.getD data) with
      | .panic => .panic
      | .err e => .err (.notAFrame e)
      | .ok parsed => renderWireless cfg env aes parsed key

end MBus.Xml
