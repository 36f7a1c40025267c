import Verif.Spec.Output
/-!
# Records read again by themselves
-/
namespace MBus.Spec

/-- The bytes shown for the record, given alone, are shown as the same record, apart from its number. -/
def ReadAgain (cfg : Cfg) (r : RecordOutput) : Prop :=
  ∃ bytes, ShowsBytes r bytes ∧ decodeDataRecords cfg bytes = .ok [{ r with index := 0 }]

/-- The bytes shown for the records, one behind the other, are shown as the same records. -/
def ReadAgainTogether (cfg : Cfg) (records : List RecordOutput) : Prop :=
  ∃ pieces, List.Forall₂ ShowsBytes records pieces ∧ decodeDataRecords cfg pieces.flatten = .ok records

end MBus.Spec
