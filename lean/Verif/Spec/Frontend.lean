import Verif.Spec.Hex
import Verif.Model.Frontend
/-! What the front ends are to agree on. -/
namespace MBus.Spec

/-- A key spelled with two hexadecimal digits for each of its 16 bytes. -/
def KeyText (text : List Char) (key : List UInt8) : Prop := key.length = 16 ∧ Pairs text key

/-- Bytes spelled in one of the ways the library reads: pairs of digits, or byte tokens with separators,
with white space around. -/
def Spelled (text : List Char) (bytes : List UInt8) : Prop :=
  bytes ≠ [] ∧ ∃ t, Trimmed text t ∧ (Pairs t bytes ∨ Tokens t bytes)

/-- White space only. -/
def BlankText (text : List Char) : Prop := ∀ c ∈ text, c.toNat ∈ whiteSpace

/-- Separators and white space at the ends, and no byte. -/
def NoBytes (input : List Char) : Prop := ∃ t, Trimmed input t ∧ ∀ c ∈ t, c ∈ separators

end MBus.Spec
