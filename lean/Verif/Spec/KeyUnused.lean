import Verif.Spec.KeyUse
/-!
# Telegrams that need no key

A user may keep one key for a meter and give it with every telegram.  A telegram in the clear needs none.
-/
namespace MBus.Spec

/-- The telegram is answered without a key, and not said to be encrypted. -/
def NeedsNoKey (cfg : Cfg) (aes : AesBlock) (data : List UInt8) : Prop :=
  ∃ enrichment o, decodeBytes cfg aes data ⟨none, enrichment⟩ = .ok o ∧
    o.security.payloadProtection ≠ "encrypted".toList

end MBus.Spec
