import Verif.Spec.Decimal
import Verif.Spec.Record
/-!
# Specification of record values in the structured output: C48, C54, C70-C72
-/
namespace MBus.Spec

/-- The additive corrections (codes 78 to 7B, meaning `10^(n-3)` with `n` the low two bits) among some
VIFEs, in order. -/
def corrections (vifes : List UInt8) : List Int :=
  (vifes.filter (fun b => 0x78 ≤ b.toNat % 128 ∧ b.toNat % 128 ≤ 0x7B)).map (fun b => (b.toNat % 4 : Int) - 3)

/-- VIFEs without the escape FC and the code it escapes. -/
def unescaped : List UInt8 → List UInt8
  | [] => []
  | [b] => if b = 0xFC then [] else [b]
  | b :: c :: rest => if b = 0xFC then unescaped rest else b :: unescaped (c :: rest)

/-- The VIFEs of a block that are combinable (orthogonal) codes of EN 13757-3: those after the VIF;
after FB and FD the first one is the quantity itself; after a manufacturer specific VIF there are
none. -/
def combinable (v : VIB) : List UInt8 :=
  if v.vif = 0xFB ∨ v.vif = 0xFD then unescaped (v.vifes.getD []).tail
  else if v.vif.toNat % 128 = 0x7E ∨ v.vif.toNat % 128 = 0x7F then []
  else unescaped (v.vifes.getD [])

/-- The VIFE bytes of a record. -/
def vifesOf (r : DataRecord) : List UInt8 := (r.header.raw.vib.bind VIB.vifes).getD []

/-- The last `w` decimal digits of `n`. -/
def fixedDigits : Nat → Nat → List Char
  | 0, _ => []
  | w + 1, n => fixedDigits w (n / 10) ++ [Char.ofNat ('0'.toNat + n % 10)]

/-- `YYYY-MM-DD`. -/
def isoDate (year month day : Nat) : List Char :=
  fixedDigits 4 year ++ ['-'] ++ fixedDigits 2 month ++ ['-'] ++ fixedDigits 2 day

/-- `hh:mm:ss`. -/
def isoTime (hour minute second : Nat) : List Char :=
  fixedDigits 2 hour ++ [':'] ++ fixedDigits 2 minute ++ [':'] ++ fixedDigits 2 second

/-- The UTF-8 encoding of a text. -/
def utf8 (text : List Char) : List UInt8 := text.flatMap String.utf8EncodeChar

end MBus.Spec
