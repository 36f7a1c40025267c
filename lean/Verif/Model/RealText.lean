import Verif.Model.Render
import Verif.Model.Serialize
/-!
# The texts of reals: `serde_json` and `{}`

`serde_json::Number::from_f64` (src/output.rs:1468), the serialisation of `DataType::Number` (data_information.rs) in
the older JSON document and `{}` of an `f64` (data_information.rs:435-436) print the decimal number with the fewest
digits that reads back as the `f64`.  These are library functions: the model says which number they choose, not how
they compute it.  The version of `serde_json` is not fixed in the repository (there is no `Cargo.lock`), and the
versions differ in the exponents they write out and in the sign of an exponent, so both are parameters.
-/
namespace MBus

/-- What the versions of the library do differently: when a number of `digits` digits times 10^`exponent` is written
with an exponent, whether a positive exponent gets a `+`, and whether of two nearest numbers the upper one or the even one
is chosen. -/
structure RealStyle where
  exponential : Nat → Int → Bool
  plusSign : Bool
  halfUp : Bool

/-- `serde_json` with `ryu`: plain notation for 10^-5 to 10^16. -/
def ryuStyle : RealStyle where
  exponential digits exponent := decide (16 < digits + exponent ∨ digits + exponent ≤ -5)
  plusSign := false
  halfUp := false

/-- The significand `m` of 53 bits and the exponent `q` of the magnitude `n`·2^`e` as an `f64`, for positive `n`. -/
def significand53 (n : Nat) (e : Int) : Nat × Int :=
  if n.log2 ≤ 52 then (n * 2 ^ (52 - n.log2), e - (52 - n.log2 : Nat))
  else (n / 2 ^ (n.log2 - 52), e + (n.log2 - 52 : Nat))

/-- Whether the magnitude `x`/`u`·2^q reads back as `m`·2^q: it is nearer to it than to the `f64` above and the one
below, or as near if `m` is even.  The `f64` below a power of two is only half as far away. -/
def readsBack (m x u : Nat) : Bool :=
  let low := if m = 2 ^ 52 then 4 * m - 1 else 4 * m - 2
  let high := 4 * m + 2
  if m % 2 = 0 then low * u ≤ 4 * x && 4 * x ≤ high * u else low * u < 4 * x && 4 * x < high * u

/-- The multiple of 10^`k` nearest to `m`·2^`q` among those that read back as it, without the power. -/
def roundAt (halfUp : Bool) (m : Nat) (q k : Int) : Option Nat :=
  let u := 2 ^ q.toNat * 10 ^ (-k).toNat
  let d := 2 ^ (-q).toNat * 10 ^ k.toNat
  let c := m * u / d
  let r := m * u % d
  let down := decide (2 * r < d) || (decide (2 * r = d) && !halfUp && c % 2 == 0)
  let near := if down then c else c + 1
  let far := if down then c + 1 else c
  if readsBack m (near * d) u then some near else if readsBack m (far * d) u then some far else none

/-- The greatest power of ten, counted down from `k`, with a multiple that reads back. -/
def shortestReal (halfUp : Bool) (m : Nat) (q : Int) : (fuel : Nat) → (k : Int) → Nat × Int
  | 0, k => ((roundAt halfUp m q k).getD 0, k)
  | fuel + 1, k =>
    match roundAt halfUp m q k with
    | some c => (c, k)
    | none => shortestReal halfUp m q fuel (k - 1)

/-- Digits and power of ten of the positive magnitude `n`·2^`e`.  No `f64` `m`·2^`q` is near a multiple of
10^(`q` + 17) or, for negative `q`, of 10^17. -/
def shortestDigits (halfUp : Bool) (n : Nat) (e : Int) : Nat × Int :=
  let (m, q) := significand53 n e
  shortestReal halfUp m q (17 + q.natAbs) (q.toNat + 17)

/-- The digits of `c` times 10^`k` in plain notation. -/
def plainReal (c : Nat) (k : Int) (point : Bool) : List Char :=
  let ds := natText c
  let p := (ds.length : Int) + k
  if 0 ≤ k then ds ++ List.replicate k.toNat '0' ++ (if point then ".0".toList else [])
  else if 0 < p then ds.take p.toNat ++ '.' :: ds.drop p.toNat
  else "0.".toList ++ List.replicate (-p).toNat '0' ++ ds

/-- The text of an exponent. -/
def exponentText (plusSign : Bool) (i : Int) : List Char :=
  if i < 0 then '-' :: natText i.natAbs else if plusSign then '+' :: natText i.natAbs else natText i.natAbs

/-- `c`·10^`k` with an exponent. -/
def exponentReal (plusSign : Bool) (c : Nat) (k : Int) : List Char :=
  let ds := natText c
  ds.take 1 ++ (if ds.length = 1 then [] else '.' :: ds.drop 1)
    ++ 'e' :: exponentText plusSign ((ds.length : Int) + k - 1)

/-- A magnitude `n`·2^`e` with its sign as a number of JSON. -/
def jsonNumber (style : RealStyle) (negative : Bool) (n : Nat) (e : Int) : List Char :=
  (if negative then ['-'] else []) ++
    if n = 0 then "0.0".toList
    else
      let (c, k) := shortestDigits style.halfUp n e
      if style.exponential (natText c).length k then exponentReal style.plusSign c k else plainReal c k true

/-- The magnitude of a finite 32-bit real, widened to an `f64` without loss. -/
def realMagnitude (bits : UInt32) : Nat × Int :=
  if bits.toNat / 2 ^ 23 % 256 = 0 then (bits.toNat % 2 ^ 23, -149)
  else (2 ^ 23 + bits.toNat % 2 ^ 23, (bits.toNat / 2 ^ 23 % 256 : Nat) - 150)

/-- `serde_json::Number::from_f64(f64::from(f32))` as text, src/output.rs:1468. -/
def jsonReal (style : RealStyle) (bits : UInt32) : List Char :=
  jsonNumber style (decide (2 ^ 31 ≤ bits.toNat)) (realMagnitude bits).1 (realMagnitude bits).2

/-- An `f64` in the older JSON document, `#[derive(Serialize)]` of `DataType`, data_information.rs:370-386; not finite
numbers are `null` there, which the caller handles. -/
def jsonLiteral (style : RealStyle) : F64 → List Char
  | .int v => jsonNumber style (decide (v < 0)) v.natAbs 0
  | .negZero => jsonNumber style true 0 0
  | .real32 bits => jsonReal style bits

/-- `{}` of the widened real, data_information.rs:435-436: without an exponent, and without a point for an integer;
of two nearest numbers the upper one. -/
def displayReal (bits : UInt32) : List Char :=
  let (n, e) := realMagnitude bits
  if bits.toNat / 2 ^ 23 % 256 = 255 then
    if bits.toNat % 2 ^ 23 ≠ 0 then "NaN".toList
    else (if 2 ^ 31 ≤ bits.toNat then ['-'] else []) ++ "inf".toList
  else (if 2 ^ 31 ≤ bits.toNat then ['-'] else []) ++
    if n = 0 then ['0'] else plainReal (shortestDigits true n e).1 (shortestDigits true n e).2 false

/-- The texts of reals of the libraries, with the given widths of characters. -/
def libraryText (style : RealStyle) (charWidth : Char → Option Nat) (textWidth : List Char → Nat) : TextEnv where
  realText := jsonReal style
  charWidth := charWidth
  textWidth := textWidth
  realDisplay := displayReal

end MBus
