import Verif.Spec.Core
import Verif.Model.DataInfo
/-!
# Specification of data information blocks and data fields (EN 13757-3)
-/
namespace MBus.Spec

/-- Bytes linked by extension bits: every byte but the last has bit 7 set, the last has not. -/
inductive Chain : List UInt8 → Prop
  | last (b : UInt8) : b.toNat < 128 → Chain [b]
  | more (b : UInt8) (rest : List UInt8) : 128 ≤ b.toNat → Chain rest → Chain (b :: rest)

/-- The storage bits of the DIFEs: four bits each, least significant DIFE first. -/
def storageBits : List UInt8 → Nat
  | [] => 0
  | d :: ds => d.toNat % 16 + 16 * storageBits ds

/-- The storage number of EN 13757-3: bit 6 of the DIF is the least significant bit, the DIFE
nibbles follow directly. -/
def storageNumber (dif : UInt8) (difes : List UInt8) : Nat :=
  dif.toNat / 64 % 2 + 2 * storageBits difes

/-- Tariff: bits 4 and 5 of the DIFEs, least significant DIFE first. -/
def tariffNumber : List UInt8 → Nat
  | [] => 0
  | d :: ds => d.toNat / 16 % 4 + 4 * tariffNumber ds

/-- Subunit (device): bit 6 of the DIFEs, least significant DIFE first. -/
def subunitNumber : List UInt8 → Nat
  | [] => 0
  | d :: ds => d.toNat / 64 % 2 + 2 * subunitNumber ds

/-- Function of a record by bits 4 and 5 of the DIF. -/
def functions : List FunctionField :=
  [.instantaneousValue, .maximumValue, .minimumValue, .valueDuringErrorState]

/-- Data field coding by the low nibble of the DIF, codes 0 to E. -/
def codings : List Coding :=
  [.noData, .integer8, .integer16, .integer24, .integer32, .real32, .integer48, .integer64,
   .selectionForReadout, .bcd2, .bcd4, .bcd6, .bcd8, .variableLength, .bcd12]

/-! ## Numbers -/

/-- Little-endian value of a byte string. -/
def leValue : List UInt8 → Nat
  | [] => 0
  | b :: rest => b.toNat + 256 * leValue rest

/-- Two's complement value of a little-endian byte string. -/
def twosComplement (bytes : List UInt8) : Int :=
  if 2 * leValue bytes < 256 ^ bytes.length then leValue bytes
  else (leValue bytes : Int) - 256 ^ bytes.length

/-- Little-endian encoding of `v` modulo `256 ^ n` in `n` bytes. -/
def encodeLe : Nat → Int → List UInt8
  | 0, _ => []
  | n + 1, v => UInt8.ofNat (v % 256).toNat :: encodeLe n (v / 256)

/-- Integers exactly representable with a 53-bit significand. -/
def Representable (v : Int) : Prop := ∃ (m : Int) (e : Nat), v = m * 2 ^ e ∧ m.natAbs ≤ 2 ^ 53

/-- `r` is a binary64 number nearest to `v`. -/
def Nearest (v r : Int) : Prop :=
  Representable r ∧ ∀ k, Representable k → (v - r).natAbs ≤ (v - k).natAbs

/-- BCD encoding of `v` in `n` bytes, least significant byte first. -/
def encodeBcd : Nat → Nat → List UInt8
  | 0, _ => []
  | n + 1, v => UInt8.ofNat (v % 10 + 16 * (v / 10 % 10)) :: encodeBcd n (v / 100)

/-- Number of data bytes of the fixed-size integer codings. -/
def integerWidth : Coding → Option Nat
  | .integer8 => some 1 | .integer16 => some 2 | .integer24 => some 3
  | .integer32 => some 4 | .integer48 => some 6 | .integer64 => some 8
  | _ => none

/-- Number of data bytes of the BCD codings. -/
def bcdWidth : Coding → Option Nat
  | .bcd2 => some 1 | .bcd4 => some 2 | .bcd6 => some 3 | .bcd8 => some 4 | .bcd12 => some 6
  | _ => none

/-! ## Dates -/

/-- Months in calendar order. -/
def months : List Month :=
  [.january, .february, .march, .april, .may, .june, .july, .august, .september, .october,
   .november, .december]

/-- Month number 1..12, anything else is invalid. -/
def monthOf (m : Nat) : SEI Month :=
  if m = 0 then .invalid else
  match months[m - 1]? with
  | some x => .single x
  | none => .invalid

/-- Seven-bit year split over the top three bits of the day byte and the top four bits of the
month byte. -/
def yearBits (dayByte monthByte : UInt8) : Nat := dayByte.toNat / 32 + 8 * (monthByte.toNat / 16)

/-- A field with one code meaning "every". -/
def orEvery (v every : Nat) : SEI Nat := if v = every then .every else .single v

/-- Forget the integer width of a date field. -/
def sei8 : SEI UInt8 → SEI Nat
  | .single v => .single v.toNat
  | .every => .every
  | .invalid => .invalid
def sei16 : SEI UInt16 → SEI Nat
  | .single v => .single v.toNat
  | .every => .every
  | .invalid => .invalid

/-- Type G encoding of a date. -/
def encodeDateG (day month year : Nat) : List UInt8 :=
  [UInt8.ofNat (day + 32 * (year % 8)), UInt8.ofNat (month + 16 * (year / 8))]

/-! ## Variable length data -/

/-- Kind and number of data bytes announced by an LVAR byte (EN 13757-3 table 5); reserved values
have none. -/
inductive LvarKind where
  | text | positiveBcd | negativeBcd | binary
  deriving DecidableEq, Repr

def lvar (b : UInt8) : Option (LvarKind × Nat) :=
  let n := b.toNat
  if n < 0xC0 then some (.text, n)
  else if n < 0xCA then some (.positiveBcd, n - 0xC0)
  else if 0xD0 ≤ n ∧ n < 0xDA then some (.negativeBcd, n - 0xD0)
  else if 0xE0 ≤ n ∧ n < 0xF0 then some (.binary, n - 0xE0)
  else if 0xF0 ≤ n ∧ n < 0xF5 then some (.binary, 4 * (n - 0xEC))
  else if n = 0xF5 then some (.binary, 48)
  else if n = 0xF6 then some (.binary, 64)
  else none

end MBus.Spec
