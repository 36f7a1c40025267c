import Verif.Spec.Json
import Verif.Model.AnnotatedJson
/-!
# What the JSON of the annotated view shows
-/
namespace MBus.Spec

/-- The fields of a segment. -/
def segmentFields (s : ByteSegment) : List (List Step × Option Doc) :=
  [([.key "start"], some (number s.start)),
   ([.key "end"], some (number s.stop)),
   ([.key "kind"], some (.str s.kind.snakeCase.toList)),
   ([.key "detail"], some (.str s.detail)),
   ([.key "group"], some (match s.group with | some g => number g | none => .null)),
   ([.key "layer"], some (.str s.layer.snakeCase.toList))]

/-- A value shows bytes and segments: as the lists `bytes` and `segments`, element by element. -/
structure ShowsSegments (place : List Step) (bs : List UInt8) (ss : List ByteSegment) (d : Doc) : Prop where
  bytes : ∀ i, follow (place ++ [.key "bytes", .at i]) d = bs[i]?.map (number ·.toNat)
  segments : ∀ i (hi : i < ss.length), ∀ f ∈ segmentFields ss[i],
    follow (place ++ .key "segments" :: .at i :: f.1) d = f.2
  ends : ∀ i, ss.length ≤ i → follow (place ++ [.key "segments", .at i]) d = none

/-- A value shows an annotated view. -/
structure ShowsView (v : AnnotatedView) (d : Doc) : Prop where
  version : follow [.key "schema_version"] d = some (number 3)
  decrypted : follow [.key "decrypted"] d = some (.bool v.decrypted)
  shown : ShowsSegments [] v.bytes v.segments d
  original : match v.original with
    | some o => ShowsSegments [.key "original"] o.1 o.2 d
    | none => follow [.key "original"] d = none

end MBus.Spec
