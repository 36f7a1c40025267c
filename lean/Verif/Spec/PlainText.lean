import Verif.Spec.Output
import Verif.Spec.Hex
import Verif.Spec.DataInfo
/-!
# Records whose unit is given in plain text
-/
namespace MBus.Spec

/-- The header of a record with a unit in plain text: the DIF and its extensions are followed by 7C or FC. -/
def PlainTextHeader (header : List UInt8) : Prop :=
  ∃ dif difes vif rest, header = dif :: (difes ++ vif :: rest) ∧ dif.toNat % 16 ≠ 15
    ∧ (dif.toNat < 128 ∧ difes = [] ∨ 128 ≤ dif.toNat ∧ Chain difes) ∧ (vif = 0x7C ∨ vif = 0xFC)

/-- The header shown for the record is such a header. -/
def ShowsPlainText (r : RecordOutput) : Prop := ∃ header, Tokens r.headerHex header ∧ PlainTextHeader header

/-- The answer is complete, does not speak of encryption, and shows no record with a unit in plain text. -/
structure ClearAnswer (o : DecodedOutput) : Prop where
  clear : o.security.payloadProtection ≠ "encrypted".toList
  complete : ∀ d ∈ o.diagnostics, d.code ≠ "application.record_partial".toList
  units : ∀ r ∈ o.records, ¬ ShowsPlainText r

end MBus.Spec
