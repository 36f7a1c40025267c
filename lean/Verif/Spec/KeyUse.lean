import Verif.Spec.Spelling
import Verif.Model.Serialize
/-!
# What the answers tell about a key

A key decrypts the data of a telegram.  What a user may expect: nothing else of it is to be seen, so that an answer can be
passed on to anyone who may see the data.
-/
namespace MBus.Spec

/-- Two answers in which the decrypted data are the same, or missing in both, or two refusals. -/
inductive SameData : Res OutputError DecodedOutput → Res OutputError DecodedOutput → Prop
  | shown (o o' : DecodedOutput) : o.security.decryptedPayloadHex = o'.security.decryptedPayloadHex →
      SameData (.ok o) (.ok o')
  | refused (e e' : OutputError) : SameData (.err e) (.err e')

/-- An answer without decrypted data, or a refusal. -/
def NothingShown (r : Res OutputError DecodedOutput) : Prop :=
  (∃ o, r = .ok o ∧ o.security.decryptedPayloadHex = none) ∨ ∃ e, r = .err e

/-- The bytes are not a wired and a wireless telegram at once. -/
def OneFraming (data : List UInt8) : Prop :=
  ∀ g frame f, WiredTelegram data g → Normalized data frame → ¬ WirelessTelegram frame f

/-- The older outputs and the newer ones give the same answers with two keys. -/
def SameOlder (cfg : Cfg) (env : FrontEnv) (older : OlderEnv) (aes : AesBlock) (text : List Char)
    (key key' : Option (List UInt8)) : Prop :=
  ∀ format, serializeMbusData cfg env older aes text format key = serializeMbusData cfg env older aes text format key'

end MBus.Spec
