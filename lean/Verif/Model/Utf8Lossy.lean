import Verif.Model.XmlFloat
/-!
# The standard library functions of the XML report

`Model/Xml.lean` takes the formatting of floats and `String::from_utf8_lossy` as parameters.  Here is what the standard
library does: `shownNumber` of `Model/XmlFloat.lean` and the `utf8Lossy` below.
-/
namespace MBus.Xml

/-- Can the two bytes begin a character of three or four bytes?  The table of `Utf8Chunks::next`
(library/core/src/str/lossy.rs). -/
def beginsChar (b0 b1 : UInt8) : Bool :=
  if b0 = 0xE0 then 0xA0 ≤ b1 && b1 ≤ 0xBF
  else if b0 = 0xED then 0x80 ≤ b1 && b1 ≤ 0x9F
  else if 0xE1 ≤ b0 && b0 ≤ 0xEF then 0x80 ≤ b1 && b1 ≤ 0xBF
  else if b0 = 0xF0 then 0x90 ≤ b1 && b1 ≤ 0xBF
  else if 0xF1 ≤ b0 && b0 ≤ 0xF3 then 0x80 ≤ b1 && b1 ≤ 0xBF
  else if b0 = 0xF4 then 0x80 ≤ b1 && b1 ≤ 0x8F
  else false

/-- How many bytes one replacement character stands for, where no character can be decoded. -/
def badLength : List UInt8 → Nat
  | [] => 1
  | [_] => 1
  | [b0, b1] => if beginsChar b0 b1 then 2 else 1
  | b0 :: b1 :: b2 :: _ =>
    if beginsChar b0 b1 then
      if 0xF0 ≤ b0 && 0x80 ≤ b2 && b2 ≤ 0xBF then 3 else 2
    else 1

/-- The loop of `String::from_utf8_lossy`; the fuel is the number of bytes. -/
def lossyLoop : Nat → List UInt8 → List Char
  | 0, _ => []
  | _ + 1, [] => []
  | fuel + 1, bytes@(_ :: _) =>
    match bytes.toByteArray.utf8DecodeChar? 0 with
    | some c => c :: lossyLoop fuel (bytes.drop c.utf8Size)
    | none => Char.ofNat 0xFFFD :: lossyLoop fuel (bytes.drop (badLength bytes))

/-- `String::from_utf8_lossy`, called at src/rscada_xml.rs:647: the decoder is Lean's own, as in `fromUtf8`. -/
def utf8Lossy (bytes : List UInt8) : List Char := lossyLoop bytes.length bytes

/-- The standard library, as called at src/rscada_xml.rs:647 and :413 (`{:.6}`). -/
def stdXml : XmlEnv := ⟨shownNumber, utf8Lossy⟩

end MBus.Xml
