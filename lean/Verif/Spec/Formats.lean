import Verif.Spec.Outcome
import Verif.Spec.Hexview
import Verif.Spec.Output
/-! Which bytes of a telegram are read as records. -/
namespace MBus.Spec

/-- The data of the block are encrypted: by the transport layer, or by the extended link layer. -/
def Secured : UserDataBlock → Prop
  | .long _ header _ => header.short.configurationField.securityMode ≠ .noEncryption
  | .short ell header _ =>
    header.configurationField.securityMode ≠ .noEncryption ∨ ∃ e, ell = some e ∧ e.encryption ≠ none
  | _ => False

/-- The order of the bytes of the header, which decrypted records inherit. -/
def lsbOf : UserDataBlock → Bool
  | .long _ header _ => header.lsbOrder
  | _ => false

/-- The bytes that are read as records: the variable data if they are not encrypted, and otherwise what
they decrypt to. -/
inductive ReadAs (aes : AesBlock) (key : Option (List UInt8)) (link : Option ManufacturerId) :
    UserDataBlock → List UInt8 → Bool → Prop
  | clear (blk : UserDataBlock) : ¬ Secured blk → ReadAs aes key link blk (variableData blk) false
  | decrypted (blk : UserDataBlock) (k plain : List UInt8) : key = some k → k.length = 16 →
      Recovered aes k link blk plain → ReadAs aes key link blk plain (lsbOf blk)

/-- The telegram is a wired one that carries the block. -/
def WiredBlock (data : List UInt8) (blk : UserDataBlock) : Prop :=
  ∃ fn address payload, WiredTelegram data (.longFrame fn address payload) ∧ Block payload blk

/-- The telegram as it is shown with a key: with the decrypted data in place of the encrypted ones.  Of a
wireless telegram the last bytes are replaced. -/
inductive Revealed (aes : AesBlock) (k : List UInt8) : List UInt8 → List UInt8 → Prop
  | wired (x c a : UInt8) (header plain : List UInt8) (blk : UserDataBlock) :
      Block (header ++ variableData blk) blk → Recovered aes k none blk plain →
      Revealed aes k (longFrameBytes x c a (header ++ variableData blk)) (longFrameBytes x c a (header ++ plain))
  | wireless (data frame plain : List UInt8) (f : WirelessFrame) (blk : UserDataBlock) :
      Normalized data frame → WirelessTelegram frame f → Block f.data blk →
      Recovered aes k (some f.manufacturerId) blk plain →
      Revealed aes k data (frame.take (frame.length - (variableData blk).length) ++ plain)

/-- The bytes stand in the telegram, or in the telegram without its checksums. -/
def Inside (data x : List UInt8) : Prop := x <:+: data ∨ ∃ frame, Normalized data frame ∧ x <:+: frame

/-- The known causes of a crash: the bytes crash the wired parser, or bytes of the telegram, of the telegram
without its checksums, of what it decrypts to, or of the telegram with the decrypted data in place of the
encrypted ones crash the record parser. -/
def CrashCause (cfg : Cfg) (aes : AesBlock) (key : Option (List UInt8)) (data : List UInt8) : Prop :=
  WiredFrame.tryFrom cfg data = .panic ∨
  ∃ lsb x, DataRecord.parse cfg lsb x = .panic ∧ (Inside data x ∨
    (∃ link payload blk k plain, Telegram data link payload ∧ Block payload blk ∧ key = some k ∧
      Recovered aes k link blk plain ∧ x <:+: plain) ∨
    ∃ k shown, key = some k ∧ Revealed aes k data shown ∧ Inside shown x)

/-- The mode of the transport layer is one of those that can be decrypted. -/
def CbcMode : UserDataBlock → Prop
  | .long _ header _ => modeNumber header.short.configurationField = 5 ∨ modeNumber header.short.configurationField = 7
  | .short _ header _ => modeNumber header.configurationField = 5 ∨ modeNumber header.configurationField = 7
  | _ => False

end MBus.Spec
