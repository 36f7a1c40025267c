import Verif.Model.Annotate
import Verif.Spec.Hex
/-!
# Specification of the annotation as text: C103

Of the model only `ByteSegment` and the names of the kinds are used.
-/
namespace MBus.Spec

/-- The number written with hexadecimal digits. -/
def hexNumber (digits : List Char) : Option Nat :=
  digits.foldl (fun acc c => match acc, hexDigit c with
    | some n, some d => some (16 * n + d)
    | _, _ => none) (some 0)

/-- The text, filled up with blanks. -/
def Padded (width : Nat) (text padded : List Char) : Prop :=
  ∃ n, padded = text ++ List.replicate n ' ' ∧ width ≤ padded.length ∧ (text.length < width → padded.length = width)

/-- The lines are a dump of the data: sixteen bytes in each line, with the offset of the first at the
beginning, then each byte as two digits, and then each byte as a character if it is printable. -/
structure Dump (data : List UInt8) (lines : List (List Char)) : Prop where
  count : lines.length = (data.length + 15) / 16
  shows : ∀ i b, data[i]? = some b → ∃ digits body,
    lines[i / 16]? = some ("  ".toList ++ digits ++ "  ".toList ++ body) ∧
    4 ≤ digits.length ∧ hexNumber digits = some (16 * (i / 16)) ∧
    (body.drop (3 * (i % 16) + if i % 16 < 8 then 0 else 1)).take 3 = hexPair true b ++ [' '] ∧
    body[50 + i % 16]? = some (if 32 ≤ b ∧ b ≤ 126 then Char.ofNat b.toNat else '·')

/-- The text of a range of bytes: `[first]` for one byte, `[first..end]` for more. -/
def RangeText (start stop : Nat) (text : List Char) : Prop :=
  ∃ a, hexNumber a = some start ∧ 2 ≤ a.length ∧
    ((stop = start + 1 ∧ text = ['['] ++ a ++ [']']) ∨
      (stop ≠ start + 1 ∧ ∃ b, hexNumber b = some stop ∧ 2 ≤ b.length ∧
        text = ['['] ++ a ++ "..".toList ++ b ++ [']']))

/-- The text of some bytes: all of them, separated by blanks, if they are at most eight, and the first
eight followed by dots otherwise. -/
def bytesShown (bytes : List UInt8) : List Char :=
  if bytes.length ≤ 8 then [' '].intercalate (bytes.map (hexPair true))
  else [' '].intercalate ((bytes.take 8).map (hexPair true)) ++ " ...".toList

/-- The line of a segment: its range, its bytes, the name of its kind and its description. -/
def SegmentLine (data : List UInt8) (seg : ByteSegment) (line : List Char) : Prop :=
  ∃ range range' bytes' kind', RangeText seg.start seg.stop range ∧ Padded 10 range range' ∧
    Padded 24 (bytesShown ((data.drop seg.start).take (seg.stop - seg.start))) bytes' ∧
    Padded 22 seg.kind.display kind' ∧
    line = "│  ".toList ++ range' ++ [' '] ++ bytes' ++ [' '] ++ kind' ++ [' '] ++ seg.detail

/-- The heading of a layer. -/
def layerName : Layer → List Char
  | .frame => "Frame".toList
  | .appHeader => "Application Header".toList
  | .recordField => "Data Records".toList

/-- The line is the heading of the layer. -/
def LayerHeading (l : Layer) (line : List Char) : Prop :=
  ∃ rule, (∀ c ∈ rule, c = '─') ∧ line = "┌─ ".toList ++ layerName l ++ [' '] ++ rule

/-- The number written with decimal digits. -/
def decNumber (digits : List Char) : Nat := digits.foldl (fun acc c => 10 * acc + (c.toNat - 48)) 0

/-- The line is the heading of a record. -/
def RecordHeading (g : Nat) (line : List Char) : Prop :=
  ∃ digits, decNumber digits = g ∧ (∀ c ∈ digits, '0' ≤ c ∧ c ≤ '9') ∧
    line = "│  ── Record ".toList ++ digits ++ " ──".toList

/-- The lines list the segments, each once and in order, under the heading of its layer and, if it belongs
to a record, under the heading of that record.  `layer` and `record` are the headings above.  There is no
heading without a segment below it. -/
inductive Listed (data : List UInt8) : (layer : Option Layer) → (record : Option Nat) →
    List ByteSegment → List (List Char) → Prop
  | nil (l : Option Layer) (g : Option Nat) : Listed data l g [] []
  | layer (old : Option Layer) (g : Option Nat) (seg : ByteSegment) (segs : List ByteSegment)
      (line : List Char) (lines : List (List Char)) : old ≠ some seg.layer → LayerHeading seg.layer line →
      Listed data (some seg.layer) none (seg :: segs) lines → Listed data old g (seg :: segs) (line :: lines)
  | record (g : Nat) (old : Option Nat) (seg : ByteSegment) (segs : List ByteSegment) (line : List Char)
      (lines : List (List Char)) : seg.layer = .recordField → seg.group = some g → RecordHeading g line →
      Listed data (some .recordField) (some g) (seg :: segs) lines →
      Listed data (some .recordField) old (seg :: segs) (line :: lines)
  | segment (g : Option Nat) (seg : ByteSegment) (segs : List ByteSegment) (line : List Char)
      (lines : List (List Char)) : SegmentLine data seg line →
      (seg.layer = .recordField → seg.group = none ∨ seg.group = g) →
      Listed data (some seg.layer) g segs lines →
      Listed data (some seg.layer) g (seg :: segs) (line :: lines)

end MBus.Spec
