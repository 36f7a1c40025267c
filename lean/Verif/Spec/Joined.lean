import Verif.Spec.Output
/-!
# Data put together of parts
-/
namespace MBus.Spec

/-- The records with numbers that go on from `n`. -/
def numberedFrom (n : Nat) (records : List RecordOutput) : List RecordOutput :=
  records.map fun r => { r with index := n + r.index }

/-- The data end with a complete record: a filler behind them makes no difference. -/
def EndsWell (cfg : Cfg) (data : List UInt8) : Prop :=
  (∃ records, decodeDataRecords cfg data = .ok records) ∧ decodeDataRecords cfg (data ++ [0x2F]) = decodeDataRecords cfg data

/-- The same records, or the same reason for refusing them, or two crashes. -/
inductive SameRecords : Res RecordsError (List RecordOutput) → Res RecordsError (List RecordOutput) → Prop
  | shown (records : List RecordOutput) : SameRecords (.ok records) (.ok records)
  | refused (k k' : Nat) (e : RecordError) : SameRecords (.err (.invalid k e)) (.err (.invalid k' e))
  | crashed : SameRecords .panic .panic

end MBus.Spec
