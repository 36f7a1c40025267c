import Verif.Spec.ValueInfo
import Verif.Model.Record
/-!
# Specification of data records and their iteration
-/
namespace MBus.Spec

/-- DIF bytes that are skipped between records: idle fillers and reserved special functions (low
nibble F), but not the manufacturer specific, more-records and global-readout markers. -/
def isSkipped (b : UInt8) : Prop := b.toNat % 16 = 15 ∧ b ≠ 0x0F ∧ b ≠ 0x1F ∧ b ≠ 0x7F

instance (b : UInt8) : Decidable (isSkipped b) := inferInstanceAs (Decidable (_ ∧ _))

/-- `data` consists of the given non-empty pieces, in order, with skipped bytes between them. -/
inductive Tiles : List UInt8 → List (List UInt8) → Prop
  | nil : Tiles [] []
  | skip (b : UInt8) (data : List UInt8) (pieces : List (List UInt8)) :
      isSkipped b → Tiles data pieces → Tiles (b :: data) pieces
  | piece (p data : List UInt8) (pieces : List (List UInt8)) :
      p ≠ [] → Tiles data pieces → Tiles (p ++ data) (p :: pieces)

/-- What iterating over the records of `data` yields, given what parsing one record at the front of a
byte string yields: skipped bytes produce nothing; a record is followed by the items of the rest; the
first error (or panic) ends the iteration. -/
inductive Items (parse : List UInt8 → Res RecordError DataRecord) :
    List UInt8 → List (Res RecordError DataRecord) → Prop
  | nil : Items parse [] []
  | skip (b : UInt8) (data : List UInt8) (items : List (Res RecordError DataRecord)) :
      isSkipped b → Items parse data items → Items parse (b :: data) items
  | record (b : UInt8) (data rest : List UInt8) (r : DataRecord)
      (items : List (Res RecordError DataRecord)) : ¬ isSkipped b → parse (b :: data) = .ok r →
      b :: data = r.rawBytes ++ rest → r.rawBytes ≠ [] → Items parse rest items →
      Items parse (b :: data) (.ok r :: items)
  | fail (b : UInt8) (data : List UInt8) : ¬ isSkipped b → (∀ r, parse (b :: data) ≠ .ok r) →
      Items parse (b :: data) [parse (b :: data)]

/-- The bytes of a record header: DIF, DIFEs and the value information block. -/
def headerBytes (textFirst : Bool) (h : RawHeader) : List UInt8 :=
  h.dib.dif :: (h.dib.difes.getD []) ++
    match h.vib with
    | none => []
    | some v => v.vif :: (if textFirst then textBytes v.plaintext ++ v.vifes.getD []
        else v.vifes.getD [] ++ textBytes v.plaintext)

/-- The chain of VIFEs is closed: the last byte of VIF and VIFEs has no extension bit. -/
def vibClosed (v : VIB) : Prop := ((v.vif :: v.vifes.getD []).getLast (by simp)).toNat < 128

instance (v : VIB) : Decidable (vibClosed v) := inferInstanceAs (Decidable (_ < _))

/-- The codings whose data extends to the end of the input. -/
def toTheEnd (c : Coding) : Prop :=
  c = .specialFunctions .manufacturerSpecific ∨ c = .specialFunctions .moreRecordsFollow

end MBus.Spec
