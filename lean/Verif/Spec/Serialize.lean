import Verif.Spec.AnnotatedJson
/-!
# What a caller of `serialize_mbus_data` can rely on
-/
namespace MBus.Spec

/-- The names of the older formats. -/
def olderNames : List (List Char) :=
  ["json-legacy".toList, "yaml-legacy".toList, "csv-wide".toList, "annotated-legacy".toList,
    "hexview-legacy".toList]

/-- The text announces an error. -/
def AnnouncesError (text : List Char) : Prop := ∃ rest, text = "Error [".toList ++ rest

/-- A value is the list of segments, element by element. -/
structure ShowsList (ss : List ByteSegment) (d : Doc) : Prop where
  segments : ∀ i (hi : i < ss.length), ∀ f ∈ segmentFields ss[i], follow (.at i :: f.1) d = f.2
  ends : ∀ i, ss.length ≤ i → follow [.at i] d = none

end MBus.Spec
