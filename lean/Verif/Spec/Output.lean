import Verif.Spec.UserData
import Verif.Spec.Wireless
import Verif.Spec.Wired
import Verif.Spec.Hex
import Verif.Model.Output
/-!
# Specification of the telegram decoder: which payload a telegram carries, and when it is encrypted
-/
namespace MBus.Spec

/-- What remains of an input after removing the block CRCs of frame format A.  An input whose first ten
bytes are not followed by their CRC, or that is longer than the decoder's buffer, is left alone. -/
inductive Normalized (data : List UInt8) : List UInt8 → Prop
  | stripped (tail : List UInt8) : 12 ≤ data.length → data.length ≤ 512 → BlockAt data 10 →
      Stripped (data.drop 12) tail → Normalized data (fixL (data.take 10 ++ tail))
  | asIs : (data.length < 12 ∨ 512 < data.length ∨ ¬ BlockAt data 10) → Normalized data data

/-- `Telegram data link payload`: the byte string is a wired long frame or, if it is no wired frame, a
wireless frame (with or without format A CRCs) carrying `payload`; `link` is the meter address in the
link layer of a wireless frame. -/
inductive Telegram (data : List UInt8) : Option ManufacturerId → List UInt8 → Prop
  | wired (fn : Function) (address : Address) (payload : List UInt8) :
      WiredTelegram data (.longFrame fn address payload) → Telegram data none payload
  | wireless (f : WirelessFrame) (frame : List UInt8) : (∀ g, ¬ WiredTelegram data g) →
      Normalized data frame → WirelessTelegram frame f → Telegram data (some f.manufacturerId) f.data

/-- The payload announces encrypted data: by a security mode other than 0 in the second configuration
byte of its transport header, or by an extended link layer with a session number. -/
inductive Encrypted : List UInt8 → Prop
  | long (reversed : Bool) (i0 i1 i2 i3 m0 m1 version device acc st c0 c1 : UInt8)
      (block : List UInt8) : c1.toNat % 32 ≠ 0 →
      Encrypted ([longCi reversed, i0, i1, i2, i3, m0, m1, version, device, acc, st, c0, c1] ++ block)
  | short (ci acc st c0 c1 : UInt8) (block : List UInt8) : isShortCi ci → c1.toNat % 32 ≠ 0 →
      Encrypted ([ci, acc, st, c0, c1] ++ block)
  | shortA0 (x acc st c0 c1 : UInt8) (block : List UInt8) : c1.toNat % 32 ≠ 0 →
      Encrypted ([0xA0, x, acc, st, c0, c1] ++ block)
  | ellII (cc acc s0 s1 s2 s3 r0 r1 : UInt8) (block : List UInt8) :
      Encrypted ([0x8D, cc, acc, s0, s1, s2, s3, r0, r1] ++ block)
  | ellIII (cc acc m0 m1 a0 a1 a2 a3 a4 a5 s0 s1 s2 s3 r0 r1 : UInt8) (block : List UInt8) :
      Encrypted ([0x8E, cc, acc, m0, m1, a0, a1, a2, a3, a4, a5, s0, s1, s2, s3, r0, r1] ++ block)
  | ellI (cc acc : UInt8) (inner : List UInt8) : Encrypted inner →
      Encrypted ([0x8C, cc, acc] ++ inner)

/-- The payload starts with extended link layers I followed by one with a session number. -/
def HiddenSession (payload : List UInt8) : Prop :=
  ∃ hs inner, hs ≠ [] ∧ payload = ellChain hs ++ inner ∧
    (inner.head? = some 0x8D ∨ inner.head? = some 0x8E)

/-- Two decodings show the same contents: both give an output, with the same records, the same meter and
the same state, or both end in a panic. -/
def SameContents (a b : Res OutputError DecodedOutput) : Prop :=
  (a = .panic ∧ b = .panic) ∨
  ∃ o p, a = .ok o ∧ b = .ok p ∧ o.records = p.records ∧ o.meter = p.meter ∧
    o.decodeState = p.decodeState

/-- The initialisation vector for a security mode: mode 7 uses zeros, mode 5 the meter's address and
the access number. -/
inductive CbcIv (mode : Nat) (m0 m1 : UInt8) (ident : List UInt8) (version device acc : UInt8) :
    List UInt8 → Prop
  | zero : mode = 7 → CbcIv mode m0 m1 ident version device acc (List.replicate 16 0)
  | address : mode = 5 →
      CbcIv mode m0 m1 ident version device acc (headerIv m0 m1 ident version device acc)

/-- The payload carries the unencrypted records `d`. -/
inductive ClearData : List UInt8 → List UInt8 → Prop
  | long (reversed : Bool) (i0 i1 i2 i3 m0 m1 version device acc st c0 c1 : UInt8) (d : List UInt8) :
      AllBcd [i0, i1, i2, i3] → c1.toNat % 32 = 0 →
      ClearData ([longCi reversed, i0, i1, i2, i3, m0, m1, version, device, acc, st, c0, c1] ++ d) d
  | short (ci acc st c0 c1 : UInt8) (d : List UInt8) : isShortCi ci → c1.toNat % 32 = 0 →
      ClearData ([ci, acc, st, c0, c1] ++ d) d
  | shortA0 (x acc st c0 c1 : UInt8) (d : List UInt8) : c1.toNat % 32 = 0 →
      ClearData ([0xA0, x, acc, st, c0, c1] ++ d) d
  | noTpl (d : List UInt8) : ClearData ([0x78] ++ d) d
  | ellI (cc acc : UInt8) (inner d : List UInt8) : ClearData inner d →
      (∀ reversed, inner.head? ≠ some (longCi reversed)) → ClearData ([0x8C, cc, acc] ++ inner) d

/-- A record is shown with the given bytes: its two hexadecimal texts denote them. -/
def ShowsBytes (r : RecordOutput) (piece : List UInt8) : Prop :=
  ∃ h d, piece = h ++ d ∧ Tokens r.headerHex h ∧ Tokens r.dataHex d

/-- The function of a record: the special function of a DIF ending in F, otherwise bits 4 and 5. -/
def functionText (dif : UInt8) : String :=
  if dif.toNat % 16 = 15 then
    ["Manufacturer specific", "More records follow", "Idle filler", "Reserved special function",
      "Reserved special function", "Reserved special function", "Reserved special function",
      "Global readout request"][dif.toNat / 16]?.getD "Reserved special function"
  else ["Instantaneous value", "Maximum value", "Minimum value", "Value during error state"][
    dif.toNat / 16 % 4]?.getD ""

end MBus.Spec
