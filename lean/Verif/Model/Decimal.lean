import Verif.Model.Base
/-!
# Model of the exact decimal arithmetic of `src/output.rs:1683-1881`

Text is a list of characters.  All strings here are ASCII, so byte positions are character positions.
Every function is given decimal digits only: `value - b'0'` is the truncated difference.
-/
namespace MBus

/-- `value - b'0'` for an ASCII digit. -/
def digitVal (c : Char) : Nat := c.toNat - 48

/-- `b'0' + digit`. -/
def digitChr (n : Nat) : Char := Char.ofNat (48 + n)

/-- The negation loop of `signed_le_decimal`, src/output.rs:1688-1698: one is added to the
complemented bytes, the loop stops at the first byte without carry. -/
def addCarry : List UInt8 → (carry : Nat) → List UInt8
  | [], _ => []
  | b :: rest, carry =>
    let sum := b.toNat + carry
    UInt8.ofNat sum :: (if sum / 256 = 0 then rest else addCarry rest (sum / 256))

/-- `while carry != 0 { digits.push(carry % 10); carry /= 10 }`, src/output.rs:1712-1715. -/
def carryDigits (carry : Nat) : List Nat :=
  if carry = 0 then [] else carry % 10 :: carryDigits (carry / 10)

/-- One round of the loop over the bytes, src/output.rs:1705-1715: the digits, least significant
first, are multiplied by 256 and `carry` is added.  The `u16` values stay below 2560. -/
def mulAddDigits : List Nat → (carry : Nat) → List Nat
  | [], carry => carryDigits carry
  | d :: rest, carry =>
    let value := d * 256 + carry
    value % 10 :: mulAddDigits rest (value / 10)

/-- `while digits.len() > 1 && digits.last() == Some(&0) { digits.pop() }`, src/output.rs:1717-1719,
on the digits written most significant first. -/
def popZeros : List Nat → List Nat
  | 0 :: d :: rest => popZeros (d :: rest)
  | ds => ds

/-- `signed_le_decimal`, src/output.rs:1683-1728. -/
def signedLeDecimal (bytes : List UInt8) : Option (List Char) :=
  match bytes.getLast? with
  | none => none
  | some last =>
    let negative := last &&& 0x80 != 0
    let magnitude := if negative then addCarry (bytes.map (~~~ ·)) 1 else bytes
    let digits := magnitude.reverse.foldl (fun ds b => mulAddDigits ds b.toNat) [0]
    let value := (popZeros digits.reverse).map digitChr
    some (if negative && value != ['0'] then '-' :: value else value)

/-- `split_sign`, src/output.rs:1767-1771. -/
def splitSign (value : List Char) : Bool × List Char :=
  match value with
  | '-' :: digits => (true, digits)
  | _ => (false, value)

/-- The loop of `add_abs`, src/output.rs:1811-1820, on digits least significant first. -/
def addLoop : List Nat → List Nat → (carry : Nat) → List Nat
  | [], [], carry => if carry = 0 then [] else carry % 10 :: addLoop [] [] (carry / 10)
  | a :: l, [], carry => (a + carry) % 10 :: addLoop l [] ((a + carry) / 10)
  | [], b :: r, carry => (b + carry) % 10 :: addLoop [] r ((b + carry) / 10)
  | a :: l, b :: r, carry => (a + b + carry) % 10 :: addLoop l r ((a + b + carry) / 10)
termination_by l r carry => (l.length + r.length, carry)

/-- `add_abs`, src/output.rs:1806-1823. -/
def addAbs (left right : List Char) : List Char :=
  ((addLoop (left.reverse.map digitVal) (right.reverse.map digitVal) 0).map digitChr).reverse

/-- The loop of `subtract_abs`, src/output.rs:1829-1839, on digits least significant first;
`u8::try_from(digit - sub).unwrap_or(0)` is `Int.toNat`. -/
def subLoop : List Nat → List Nat → (borrow : Int) → List Nat
  | [], _, _ => []
  | v :: larger, smaller, borrow =>
    let digit : Int := v - borrow
    let sub : Int := (smaller.head?.getD 0 : Nat)
    if digit < sub then (digit + 10 - sub).toNat :: subLoop larger smaller.tail 1
    else (digit - sub).toNat :: subLoop larger smaller.tail 0

/-- `subtract_abs`, src/output.rs:1825-1845. -/
def subtractAbs (larger smaller : List Char) : List Char :=
  (popZeros (subLoop (larger.reverse.map digitVal) (smaller.reverse.map digitVal) 0).reverse).map
    digitChr

/-- Lexicographic comparison of the bytes of two strings (`str::cmp`). -/
def lexCompare : List Char → List Char → Ordering
  | [], [] => .eq
  | [], _ :: _ => .lt
  | _ :: _, [] => .gt
  | a :: l, b :: r =>
    if a.toNat < b.toNat then .lt else if b.toNat < a.toNat then .gt else lexCompare l r

/-- `compare_abs`, src/output.rs:1847-1851. -/
def compareAbs (left right : List Char) : Ordering :=
  let left := left.dropWhile (· == '0')
  let right := right.dropWhile (· == '0')
  if left.length < right.length then .lt
  else if right.length < left.length then .gt
  else lexCompare left right

/-- `add_signed_decimal_integers`, src/output.rs:1773-1804. -/
def addSignedDecimalIntegers (left right : List Char) : List Char :=
  let (leftNegative, leftDigits) := splitSign left
  let (rightNegative, rightDigits) := splitSign right
  if leftNegative = rightNegative then
    let result := addAbs leftDigits rightDigits
    if leftNegative && result != ['0'] then '-' :: result else result
  else
    match compareAbs leftDigits rightDigits with
    | .eq => ['0']
    | .gt =>
      let result := subtractAbs leftDigits rightDigits
      if leftNegative then '-' :: result else result
    | .lt =>
      let result := subtractAbs rightDigits leftDigits
      if rightNegative then '-' :: result else result

/-- `while output.contains('.') && output.ends_with('0') { output.pop() }` and the removal of a final
dot, src/output.rs:1871-1876.  Removing trailing zeros never removes the dot before them, so the first
half of the condition is tested once. -/
def trimFraction (output : List Char) : List Char :=
  let output := if output.contains '.' then (output.reverse.dropWhile (· == '0')).reverse else output
  if output.getLast? = some '.' then output.dropLast else output

/-- `apply_power10`, src/output.rs:1853-1881. -/
def applyPower10 (integer : List Char) (exponent : Int) : List Char :=
  let (negative, digits) := splitSign integer
  if digits.all (· == '0') then ['0']
  else
    let output :=
      if 0 ≤ exponent then digits ++ List.replicate exponent.toNat '0'
      else
        let places := exponent.natAbs
        if digits.length > places then
          digits.take (digits.length - places) ++ '.' :: digits.drop (digits.length - places)
        else '0' :: '.' :: (List.replicate (places - digits.length) '0' ++ digits)
    let output := trimFraction output
    if negative && output != ['0'] then '-' :: output else output

/-- `scaled_decimal`, src/output.rs:1749-1765. -/
def scaledDecimal (significand : List Char) (scale : Int) (offset : Option Int) : List Char :=
  let (negative, digits) := splitSign significand
  let minimumExponent := match offset with | some value => min value scale | none => scale
  let left := digits ++ List.replicate (scale - minimumExponent).toNat '0'
  let signedLeft := if negative then '-' :: left else left
  let integer := match offset with
    | some offsetExponent =>
      addSignedDecimalIntegers signedLeft
        ('1' :: List.replicate (offsetExponent - minimumExponent).toNat '0')
    | none => signedLeft
  applyPower10 integer minimumExponent

end MBus
