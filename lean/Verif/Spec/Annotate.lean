import Verif.Model.Annotate
import Verif.Spec.UserData
import Verif.Spec.Wireless
import Verif.Spec.ValueInfo
/-!
# Specification of annotations

Only the result type `ByteSegment` of the model is used here.
-/
namespace MBus.Spec

/-- The segments, in order and without overlap, gap or empty segment, cover the bytes from `a`
(inclusive) to `b` (exclusive). -/
def Covers : Nat → Nat → List ByteSegment → Prop
  | a, b, [] => a = b
  | a, b, s :: rest => s.start = a ∧ s.start < s.stop ∧ Covers s.stop b rest

instance decCovers : (a b : Nat) → (l : List ByteSegment) → Decidable (Covers a b l)
  | a, b, [] => inferInstanceAs (Decidable (a = b))
  | a, b, s :: rest =>
    have := decCovers s.stop b rest
    inferInstanceAs (Decidable (s.start = a ∧ s.start < s.stop ∧ Covers s.stop b rest))

/-- The byte at offset `p` lies in a segment with this kind, tooltip, record number and layer. -/
def Labelled (segs : List ByteSegment) (p : Nat)
    (label : SegmentKind × List Char × Option Nat × Layer) : Prop :=
  ∃ s ∈ segs, s.start ≤ p ∧ p < s.stop ∧ (s.kind, s.detail, s.group, s.layer) = label

/-- The bytes of the telegram that lie in the segments chosen by `p`, in order. -/
def bytesWhere (data : List UInt8) (segs : List ByteSegment) (p : ByteSegment → Bool) : List UInt8 :=
  (segs.filter p).flatMap (fun s => (data.drop s.start).take (s.stop - s.start))

/-- The bytes of the segments of record number `i`. -/
def recordBytes (data : List UInt8) (segs : List ByteSegment) (i : Nat) : List UInt8 :=
  bytesWhere data segs (fun s => s.group == some i)

/-- The bytes of the segments of record number `i` that are of a given kind. -/
def recordPart (data : List UInt8) (segs : List ByteSegment) (i : Nat) (k : SegmentKind) :
    List UInt8 :=
  bytesWhere data segs (fun s => s.group == some i && s.kind == k)

/-- Where the `i`-th byte of a link frame is found in its Format A framing: two CRC bytes follow the
first ten bytes and then every sixteen. -/
def formatAPos (i : Nat) : Nat := if i < 10 then i else i + 2 + 2 * ((i - 10) / 16)

/-- The variable data of a user data block and whether its transport header protects it, that is
names a security mode other than 0. -/
def securedData : UserDataBlock → Option (Bool × List UInt8)
  | .long _ h block => some (decide (modeNumber h.short.configurationField ≠ 0), block)
  | .short _ h block => some (decide (modeNumber h.configurationField ≠ 0), block)
  | .noTpl _ block => some (false, block)
  | _ => none

/-- The library parses the telegram to a user data block and records: as a wired telegram or, if it
is none and is not framed in Format A either, as a wireless one. -/
inductive ParsedAs (cfg : Cfg) (data : List UInt8) : UserDataBlock → Option DataRecords → Prop
  | wired (m : MbusData WiredFrame) (blk : UserDataBlock) :
      MbusData.tryFromWired cfg data = .ok m → m.userData = some blk →
      ParsedAs cfg data blk m.dataRecords
  | wireless (m : MbusData WirelessFrame) (blk : UserDataBlock) (e : FrameError) :
      WiredFrame.tryFrom cfg data = .err e → ¬ BlockAt data 10 →
      MbusData.tryFromWireless data = .ok m → m.userData = some blk →
      ParsedAs cfg data blk m.dataRecords

/-- The segments of the record area agree with the parsed records: every record number is that of a
record, and the segments with that number contain the bytes of the record. -/
def RecordsAnnotated (data : List UInt8) (segs : List ByteSegment)
    (items : List (Res RecordError DataRecord)) : Prop :=
  (∀ s ∈ segs, ∀ i, s.group = some i → ∃ r, items[i]? = some (.ok r)) ∧
  ∀ i r, items[i]? = some (.ok r) → recordBytes data segs i = r.rawBytes

/-- The segments of a record's fields contain the bytes of these fields. -/
def FieldsAnnotated (data : List UInt8) (segs : List ByteSegment) (i : Nat) (r : DataRecord) : Prop :=
  recordPart data segs i .dif = [r.header.raw.dib.dif] ∧
  recordPart data segs i .dife = r.header.raw.dib.difes.getD [] ∧
  recordPart data segs i .vif =
    (match r.header.raw.vib with | some v => [v.vif] | none => []) ∧
  recordPart data segs i .vife =
    (match r.header.raw.vib with | some v => v.vifes.getD [] | none => []) ∧
  recordPart data segs i .plaintextVif =
    (match r.header.raw.vib with | some v => textBytes v.plaintext | none => []) ∧
  recordPart data segs i .dataPayload = r.dataBytes

/-- The bytes shown as a field of the transport header. -/
def headerField (data : List UInt8) (segs : List ByteSegment) (k : SegmentKind) : List UInt8 :=
  bytesWhere data segs (fun s => s.layer == .appHeader && s.kind == k)

/-- The bytes shown as a field of the link layer. -/
def linkField (data : List UInt8) (segs : List ByteSegment) (k : SegmentKind) : List UInt8 :=
  bytesWhere data segs (fun s => s.layer == .frame && s.kind == k)

end MBus.Spec
