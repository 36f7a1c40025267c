import Verif.Spec.Sent
import Verif.Spec.Display
import Verif.Spec.Tooltip
/-!
# What the text of a value says of what the meter sent: C138
-/
namespace MBus.Spec

/-- The text states a number: it is the number in decimal.  From 2^53 on it is a decimal number that is the same
binary64 number; a BCD zero sent as negative number is a zero with a sign. -/
def StatesNumber (v : Int) (text : List Char) : Prop :=
  (∃ w x, text = decimalInt w ∧ Nearest w x ∧ Nearest v x ∧ (v.natAbs < 2 ^ 53 → w = v)) ∨
    v = 0 ∧ text = "-0".toList

/-- The text states the content of a data field.  `realText` is the text of a 32-bit real. -/
def StatesContent (realText : UInt32 → List Char) : Content → List Char → Prop
  | .number v, text => StatesNumber v text
  | .text t, text => text = t
  | .real bits, text => ∃ b : UInt32, b.toNat = bits ∧ text = realText b
  | .date day month year, text => ∃ name, monthNames[month - 1]? = some name ∧
      text = decimal day ++ ['/'] ++ name ++ ['/'] ++ decimal year
  | .dateTime day month year hour minute second, text => ∃ name, monthNames[month - 1]? = some name ∧
      text = decimal day ++ ['/'] ++ name ++ ['/'] ++ decimal year ++ [' '] ++ decimal hour ++ [':'] ++ decimal minute ++
        [':'] ++ (second.map decimal).getD ['0', '0']
  | .nothing, _ => False

/-- Numbers in fields of variable length can be longer than 64 bits. -/
def fits64 : Content → Prop
  | .number v => -(2 ^ 63) ≤ v ∧ v < 2 ^ 63
  | _ => True

/-- The segments that mark the data field of record `i`. -/
def dataSegments (segs : List ByteSegment) (i : Nat) : List ByteSegment :=
  segs.filter (fun s => s.group == some i && s.kind == .dataPayload)

/-- The annotation of record `i` states a reading: one segment marks a data field with this content, and its text
states it.  A field without bytes has no segment. -/
def StatesReading (realText : UInt32 → List Char) (data : List UInt8) (segs : List ByteSegment) (i : Nat)
    (r : MeterReading) : Prop :=
  (r.content = .nothing ∧ dataSegments segs i = []) ∨
    ∃ s code, dataSegments segs i = [s] ∧ Field 7 code r.content (markedBytes data s) ∧
      StatesContent realText r.content s.detail

end MBus.Spec
