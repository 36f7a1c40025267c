import Verif.Props.KeyUse
/-!
# C99: the annotated view of a wireless telegram that ends in a CRC
-/
namespace MBus
open MBus.Spec

/-- A wireless telegram with a CRC at its end, encrypted with AES-128 under the key 00 01 .. 0F: a volume of 1313 litres. -/
def crcSealed : List UInt8 :=
  [0x20, 0x44, 0xE6, 0x1E, 0x78, 0x56, 0x34, 0x12, 0x3C, 0x07, 0x7A, 0x2A, 0x00, 0x10, 0x05, 0x2F, 0x10, 0x36, 0xE4, 0xFB, 0x84, 0x31, 0x08, 0xEA, 0x1E, 0x21, 0x01, 0x7D, 0xBA, 0x39, 0xF1, 0x85, 0xD5]

def crcKey : List UInt8 := [0, 1, 2, 3, 4, 5, 6, 7, 8, 9, 10, 11, 12, 13, 14, 15]

/-- The bytes the view shows as those of the first record. -/
def firstShown (r : Res FrameError AnnotatedView) : Option (List UInt8) :=
  match r with
  | .ok v => if v.decrypted then some (recordBytes v.bytes v.segments 0) else none
  | _ => none

def bytesShown (r : Res OutputError DecodedOutput) : Option (List (List Char × List Char)) :=
  match r with
  | .ok o => some (o.records.map fun x => (x.headerHex, x.dataHex))
  | _ => none

set_option maxRecDepth 20000 in
theorem crc_view (cfg : Cfg) : firstShown (annotatedView cfg (fun _ => []) Aes.aes128 crcSealed (some crcKey)) = some [0x10, 0x2F] := by
  obtain ⟨a, b⟩ := cfg
  cases a <;> cases b <;> decide +kernel

set_option maxRecDepth 20000 in
theorem crc_decoded (cfg : Cfg) : bytesShown (decodeBytes cfg Aes.aes128 crcSealed ⟨some crcKey, true⟩) =
    some [("04 13".toList, "21 05 00 00".toList)] := by
  obtain ⟨a, b⟩ := cfg
  cases a <;> cases b <;> decide +kernel

/-- C99 is false of a wireless telegram that ends in a CRC: its only record has the bytes 04 13 21 05 00 00, but the
annotated view of the decrypted telegram shows a first record with the bytes 10 2F, the first of which is encrypted. -/
theorem C99_fails (cfg : Cfg) : ∃ (dataText : Data → List Char) (data key : List UInt8) (v : AnnotatedView) (o : DecodedOutput),
    annotatedView cfg dataText Aes.aes128 data (some key) = .ok v ∧ v.decrypted = true ∧
    decodeBytes cfg Aes.aes128 data ⟨some key, true⟩ = .ok o ∧
    o.records.map (fun r => (r.headerHex, r.dataHex)) = [("04 13".toList, "21 05 00 00".toList)] ∧
    recordBytes v.bytes v.segments 0 = [0x10, 0x2F] := by
  have h1 := crc_view cfg
  have h2 := crc_decoded cfg
  unfold firstShown at h1
  unfold bytesShown at h2
  split at h1
  · rename_i v hv
    split at h1
    · rename_i hd
      split at h2
      · rename_i o ho
        exact ⟨_, _, _, v, o, hv, hd, ho, Option.some.inj h2, Option.some.inj h1⟩
      · cases h2
    · cases h1
  · cases h1

end MBus
