import Verif.Model.Xml
/-!
# The numbers of the XML output: `f64` multiplication, addition and `{:.6}`

Magnitudes are `m`·2^`e`.  The numbers that occur are 0 or between 10^-63 and 10^60 (a decoded number of
magnitude 0 or 2^-149 to 2^128, a factor of the table and a power of ten from 10^-6 to 10^3), so binary64 never
overflows here and has no subnormal results, and the exponents are not limited in the model.
-/
namespace MBus.Xml

/-- An `f64`: a finite number with its sign, an infinity, or not a number. -/
inductive XFloat where
  | finite (negative : Bool) (m : Nat) (e : Int)
  | infinite (negative : Bool)
  | nan
  deriving DecidableEq, Repr, Inhabited

/-- The decoded number as an `f64`, `int_decode` (src/rscada_xml.rs:614-625), `bcd_decode` (629-642) and
`f64::from(f32::from_le_bytes(..))` (579-582): integers, and 32-bit reals by sign, exponent and fraction, which are
widened without loss. -/
def XFloat.ofRaw : F64 → XFloat
  | .int v => .finite (decide (v < 0)) v.natAbs 0
  | .negZero => .finite true 0 0
  | .real32 bits =>
    let negative := decide (bits.toNat / 2 ^ 31 = 1)
    let exponent : Nat := bits.toNat / 2 ^ 23 % 256
    let fraction := bits.toNat % 2 ^ 23
    if exponent = 255 then if fraction = 0 then .infinite negative else .nan
    else if exponent = 0 then .finite negative fraction (-149)
    else .finite negative (2 ^ 23 + fraction) ((exponent : Int) - 150)

/-- `n`/`d` as an `f64`, for positive `n` and `d`: the quotient to at least 65 bits, with a last bit that says whether
something is left, rounded to 53 bits. -/
def XFloat.quotient (n d : Nat) : XFloat :=
  let s := d.log2 + 65
  let rest := if n * 2 ^ s % d = 0 then 0 else 1
  .finite false (roundNat53 (2 * (n * 2 ^ s / d) + rest)) (-((s : Int) + 1))

/-- The literal of a factor in `VIF_TABLE`, src/rscada_xml.rs:1152-1536, as the compiler reads it: the nearest `f64`. -/
def XFloat.literal (f : Factor) : XFloat :=
  if f.mantissa = 0 then .finite false 0 0
  else match f.exponent with
    | .ofNat k => .finite false (roundNat53 (f.mantissa * 10 ^ k)) 0
    | .negSucc k => XFloat.quotient f.mantissa (10 ^ (k + 1))

/-- `10f64.powi(n)`, src/rscada_xml.rs:734 and 737, and `1000.0`, line 740.  The compiler's function multiplies and,
for negative `n`, divides 1 by the product; the products up to 10^6 are exact. -/
def XFloat.power (n : Int) : XFloat := XFloat.literal ⟨1, n⟩

/-- `f64` multiplication. -/
def XFloat.mul : XFloat → XFloat → XFloat
  | .finite a m e, .finite b m' e' => .finite (a != b) (roundNat53 (m * m')) (e + e')
  | .nan, _ => .nan
  | _, .nan => .nan
  | .infinite a, .infinite b => .infinite (a != b)
  | .infinite a, .finite b m _ => if m = 0 then .nan else .infinite (a != b)
  | .finite a m _, .infinite b => if m = 0 then .nan else .infinite (a != b)

/-- A sign and a magnitude as an integer. -/
def signedNat (negative : Bool) (m : Nat) : Int := if negative then -(m : Int) else m

/-- `f64` addition. -/
def XFloat.add : XFloat → XFloat → XFloat
  | .finite a m e, .finite b m' e' =>
    let low := min e e'
    let sum := signedNat a (m * 2 ^ (e - low).toNat) + signedNat b (m' * 2 ^ (e' - low).toNat)
    if sum = 0 then .finite (a && b) 0 0 else .finite (decide (sum < 0)) (roundNat53 sum.natAbs) low
  | .nan, _ => .nan
  | _, .nan => .nan
  | .infinite a, .infinite b => if a = b then .infinite a else .nan
  | .infinite a, .finite _ _ _ => .infinite a
  | .finite _ _ _, .infinite b => .infinite b

/-- The number of a record: `value * exponent`, src/rscada_xml.rs:758, and the correction by the first VIFE, 730-744. -/
def XmlReal.number (x : XmlReal) : XFloat :=
  let normalized := (XFloat.ofRaw x.raw).mul (XFloat.literal x.factor)
  match x.correction with
  | .none => normalized
  | .times n => normalized.mul (XFloat.power n)
  | .plus n => normalized.add (XFloat.power n)

/-- `n`/2^`k` rounded to an integer, to nearest, ties to even. -/
def roundShift (n k : Nat) : Nat :=
  let q := n / 2 ^ k
  let r := n % 2 ^ k
  if 2 * r < 2 ^ k ∨ (2 * r = 2 ^ k ∧ q % 2 = 0) then q else q + 1

/-- The number of millionths of `m`·2^`e`, to nearest, ties to even. -/
def millionths (m : Nat) (e : Int) : Nat :=
  if 0 ≤ e then m * 2 ^ e.toNat * 10 ^ 6 else roundShift (m * 10 ^ 6) (-e).toNat

/-- `format!("{:.6}", value)`, src/rscada_xml.rs:413: the exact value rounded to six decimals, with the sign of the
number, also of zero. -/
def XFloat.fixed6 : XFloat → List Char
  | .nan => "NaN".toList
  | .infinite negative => (if negative then ['-'] else []) ++ "inf".toList
  | .finite negative m e =>
    (if negative then ['-'] else []) ++ natText (millionths m e / 10 ^ 6) ++ '.' :: padNat 6 (millionths m e % 10 ^ 6)

/-- The text of the number of a record. -/
def shownNumber (x : XmlReal) : List Char := x.number.fixed6

end MBus.Xml
