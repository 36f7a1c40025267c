import Verif.Lemmas.Aes
import Verif.Props.Sent
import Verif.Props.XmlDecrypt
import Verif.Props.Hexview
/-!
# C124: telegrams sealed with the AES-128 of FIPS 197
-/
namespace MBus

open MBus.Spec MBus.Spec.Aes MBus.Xml MBus.Spec.Xml

/-! ## The cipher -/

/-- The inverse of the affine map. -/
private def affineBack (b : UInt8) : UInt8 := rotated b 1 ^^^ rotated b 3 ^^^ rotated b 6 ^^^ 0x05

/-- The substitution table is the affine image of the inverse: every byte but zero has an inverse, and
the entry is the affine image of it. -/
theorem C124_sbox : sbox 0 = affine 0 ∧
    ∀ b : UInt8, b ≠ 0 → ∃ i : UInt8, product 8 b i = 1 ∧ sbox b = affine i := by
  refine ⟨by decide +kernel, byte_forall ?_⟩
  intro n hn
  have h : ∀ n : Fin 256, n ≠ 0 →
      product 8 (UInt8.ofNat n) (affineBack (sbox (UInt8.ofNat n))) = 1 ∧
      sbox (UInt8.ofNat n) = affine (affineBack (sbox (UInt8.ofNat n))) := by decide +kernel
  exact ⟨_, h n (fun h => hn (by subst h; rfl))⟩

/-- C124, the cipher: under any key of 16 bytes blocks stay blocks, and decryption gives back every
block that was encrypted. -/
theorem C124_cipher (key block : List UInt8) (hk : key.length = 16) (hb : block.length = 16) :
    (encrypt key block).length = 16 ∧ (aes128 key block).length = 16 ∧
      aes128 key (encrypt key block) = block := by
  refine ⟨encrypt_length key block hk hb, ?_, ?_⟩
  · rw [aes128, if_pos hk]; exact decrypt_length key block hk hb
  · rw [aes128, if_pos hk]; exact decrypt_encrypt key block hk hb

-- FIPS 197, appendix B and appendix C.1
example : encrypt [0x2B, 0x7E, 0x15, 0x16, 0x28, 0xAE, 0xD2, 0xA6, 0xAB, 0xF7, 0x15, 0x88, 0x09, 0xCF, 0x4F, 0x3C]
    [0x32, 0x43, 0xF6, 0xA8, 0x88, 0x5A, 0x30, 0x8D, 0x31, 0x31, 0x98, 0xA2, 0xE0, 0x37, 0x07, 0x34] =
    [0x39, 0x25, 0x84, 0x1D, 0x02, 0xDC, 0x09, 0xFB, 0xDC, 0x11, 0x85, 0x97, 0x19, 0x6A, 0x0B, 0x32] := by
  decide +kernel
example : encrypt [0x00, 0x01, 0x02, 0x03, 0x04, 0x05, 0x06, 0x07, 0x08, 0x09, 0x0A, 0x0B, 0x0C, 0x0D, 0x0E, 0x0F]
    [0x00, 0x11, 0x22, 0x33, 0x44, 0x55, 0x66, 0x77, 0x88, 0x99, 0xAA, 0xBB, 0xCC, 0xDD, 0xEE, 0xFF] =
    [0x69, 0xC4, 0xE0, 0xD8, 0x6A, 0x7B, 0x04, 0x30, 0xD8, 0xCD, 0xB7, 0x80, 0x70, 0xB4, 0xC5, 0x5A] := by
  decide +kernel

theorem aes128_blocks : BlockSized aes128 := by
  intro k b hb
  unfold aes128
  split
  · exact decrypt_length k b ‹_› hb
  · exact hb

private theorem enc_len (key : List UInt8) (hk : key.length = 16) :
    ∀ b, b.length = 16 → (encrypt key b).length = 16 := fun b hb => encrypt_length key b hk hb

private theorem enc_inv (key : List UInt8) (hk : key.length = 16) :
    ∀ b, b.length = 16 → aes128 key (encrypt key b) = b := fun b hb => (C124_cipher key b hk hb).2.2

/-- The key of the project's tests. -/
def exampleKey : List UInt8 :=
  [0x01, 0x02, 0x03, 0x04, 0x05, 0x06, 0x07, 0x08, 0x09, 0x0A, 0x0B, 0x0C, 0x0D, 0x0E, 0x0F, 0x11]

/-! ## Telegrams -/

/-- C124, structured output, long header: the sealed telegram decodes with the key to the same records,
meter and state as the same telegram with the data in the clear. -/
theorem C124_decoded_long (cfg : Cfg) (aes : AesBlock) (key : List UInt8) (hk : key.length = 16)
    (i0 i1 i2 i3 m0 m1 version device acc st c0 c1 e0 e1 : UInt8) (hb : AllBcd [i0, i1, i2, i3])
    (code : ManufacturerCode) (hcode : ManufacturerCode.fromId (le16 m0 m1) = .ok code)
    (iv : List UInt8)
    (hiv : CbcIv (c1.toNat % 32) m0 m1 [i0, i1, i2, i3] version device acc iv)
    (hclear : e1.toNat % 32 = 0)
    (blocks : List (List UInt8)) (hbl : ∀ b ∈ blocks, b.length = 16) (hne : blocks ≠ [])
    (tail : List UInt8) (ht : tail.length < 16)
    (sealed plain : List UInt8) (link : Option ManufacturerId)
    (hs : Telegram sealed link
      ([0x72, i0, i1, i2, i3, m0, m1, version, device, acc, st, c0, c1] ++
        (cbcEncrypt encrypt key iv blocks ++ tail)))
    (hp : Telegram plain link
      ([0x72, i0, i1, i2, i3, m0, m1, version, device, acc, st, e0, e1] ++ (blocks.flatten ++ tail)))
    (enrich : Bool) (anyKey : Option (List UInt8)) :
    SameContents (decodeBytes cfg aes128 sealed ⟨some key, enrich⟩)
      (decodeBytes cfg aes plain ⟨anyKey, enrich⟩) :=
  C78_long_partial cfg encrypt aes128 aes key hk (enc_len key hk) (enc_inv key hk) i0 i1 i2 i3 m0 m1 version
    device acc st c0 c1 e0 e1 hb code hcode iv hiv hclear blocks hbl hne tail ht sealed plain link hs hp
    enrich anyKey

-- a wired telegram: one block with two readings and three more bytes in the clear
example : SameContents
    (decodeBytes cfgRelease aes128
      (wiredLong ([0x72, 0x78, 0x56, 0x34, 0x12, 0xE6, 0x1E, 0x3C, 0x07, 0x2A, 0, 0x10, 0x05] ++
        (cbcEncrypt encrypt exampleKey (headerIv 0xE6 0x1E [0x78, 0x56, 0x34, 0x12] 0x3C 0x07 0x2A)
          [[0x2F, 0x2F, 0x0C, 0x13, 0x78, 0x56, 0x34, 0x12] ++ List.replicate 8 0x2F] ++
            [0x01, 0x13, 0x05])))
      ⟨some exampleKey, true⟩)
    (decodeBytes cfgRelease (fun _ b => b)
      (wiredLong ([0x72, 0x78, 0x56, 0x34, 0x12, 0xE6, 0x1E, 0x3C, 0x07, 0x2A, 0, 0x10, 0x00] ++
        ([[0x2F, 0x2F, 0x0C, 0x13, 0x78, 0x56, 0x34, 0x12] ++ List.replicate 8 0x2F].flatten ++
            [0x01, 0x13, 0x05])))
      ⟨none, true⟩) :=
  C124_decoded_long cfgRelease (fun _ b => b) exampleKey rfl
    0x78 0x56 0x34 0x12 0xE6 0x1E 0x3C 0x07 0x2A 0 0x10 0x05 0x10 0x00 (by decide +kernel)
    ⟨71, 87, 70⟩ (by decide +kernel) _ (.address rfl) rfl
    [[0x2F, 0x2F, 0x0C, 0x13, 0x78, 0x56, 0x34, 0x12] ++ List.replicate 8 0x2F] (by decide) (by simp)
    [0x01, 0x13, 0x05] (by decide) _ _ none
    (wired_telegram _ _ (.rspUd false false) (.primary 1) (by decide +kernel))
    (wired_telegram _ _ (.rspUd false false) (.primary 1) (by decide +kernel)) true none

/-- C124, structured output, short header. -/
theorem C124_decoded_short (cfg : Cfg) (aes : AesBlock) (key : List UInt8) (hk : key.length = 16)
    (ci acc st c0 c1 e0 e1 : UInt8) (hci : isShortCi ci) (hclear : e1.toNat % 32 = 0)
    (link : ManufacturerId) (m0 m1 d0 d1 d2 d3 device : UInt8) (hb : AllBcd [d0, d1, d2, d3])
    (hcode : ManufacturerCode.fromId (le16 m0 m1) = .ok link.manufacturerCode)
    (hid : link.identificationNumber = bcdValue [d0, d1, d2, d3])
    (hdev : link.deviceType = DeviceType.fromByte device)
    (iv : List UInt8) (hiv : CbcIv (c1.toNat % 32) m0 m1 [d0, d1, d2, d3] link.version device acc iv)
    (blocks : List (List UInt8)) (hbl : ∀ b ∈ blocks, b.length = 16) (hne : blocks ≠ [])
    (tail : List UInt8) (ht : tail.length < 16) (sealed plain : List UInt8)
    (hs : Telegram sealed (some link)
      ([ci, acc, st, c0, c1] ++ (cbcEncrypt encrypt key iv blocks ++ tail)))
    (hp : Telegram plain (some link) ([ci, acc, st, e0, e1] ++ (blocks.flatten ++ tail)))
    (enrich : Bool) (anyKey : Option (List UInt8)) :
    SameContents (decodeBytes cfg aes128 sealed ⟨some key, enrich⟩)
      (decodeBytes cfg aes plain ⟨anyKey, enrich⟩) :=
  C78_short cfg encrypt aes128 aes key hk (enc_len key hk) (enc_inv key hk) ci acc st c0 c1 e0 e1 hci hclear
    link m0 m1 d0 d1 d2 d3 device hb hcode hid hdev iv hiv blocks hbl hne tail ht sealed plain hs hp
    enrich anyKey

/-- C124, the XML report of a sealed telegram with a long header: the records of the plain data. -/
theorem C124_report_long (cfg : Cfg) (env : XmlEnv) (he : PlainNumbers env)
    (key : List UInt8) (hk : key.length = 16) (reversed : Bool)
    (i0 i1 i2 i3 m0 m1 version device acc st c0 c1 : UInt8) (hb : AllBcd [i0, i1, i2, i3])
    (code : ManufacturerCode) (hcode : ManufacturerCode.fromId (le16 m0 m1) = .ok code)
    (iv : List UInt8)
    (hiv : CbcIv (c1.toNat % 32) m0 m1 (idBytes reversed i0 i1 i2 i3) version device acc iv)
    (blocks : List (List UInt8)) (hbl : ∀ b ∈ blocks, b.length = 16) (hne : blocks ≠ [])
    (tail : List UInt8) (ht : tail.length < 16) (sealed : List UInt8) (link : Option ManufacturerId)
    (hs : Telegram sealed link
      ([longCi reversed, i0, i1, i2, i3, m0, m1, version, device, acc, st, c0, c1] ++
        (cbcEncrypt encrypt key iv blocks ++ tail)))
    (hnp : .panic ∉ parseDataRecords cfg reversed (blocks.flatten ++ tail)) :
    ∃ text info, renderFromBytes cfg env aes128 sealed (some key) = .ok text ∧
      (noNon text →
        IsReport text info (recordList cfg env (some (DataRecords.new (blocks.flatten ++ tail) reversed)))) :=
  C78_xml_long cfg env he encrypt aes128 key hk (enc_len key hk) (enc_inv key hk) reversed i0 i1 i2 i3 m0 m1
    version device acc st c0 c1 hb code hcode iv hiv blocks hbl hne tail ht sealed link hs hnp

/-- C124, the XML report of a sealed wireless telegram with a short header. -/
theorem C124_report_short (cfg : Cfg) (env : XmlEnv) (he : PlainNumbers env)
    (key : List UInt8) (hk : key.length = 16)
    (ci acc st c0 c1 : UInt8) (hci : isShortCi ci)
    (link : ManufacturerId) (m0 m1 d0 d1 d2 d3 device : UInt8) (hb : AllBcd [d0, d1, d2, d3])
    (hcode : ManufacturerCode.fromId (le16 m0 m1) = .ok link.manufacturerCode)
    (hid : link.identificationNumber = bcdValue [d0, d1, d2, d3])
    (hdev : link.deviceType = DeviceType.fromByte device)
    (iv : List UInt8) (hiv : CbcIv (c1.toNat % 32) m0 m1 [d0, d1, d2, d3] link.version device acc iv)
    (blocks : List (List UInt8)) (hbl : ∀ b ∈ blocks, b.length = 16) (hne : blocks ≠ [])
    (tail : List UInt8) (ht : tail.length < 16) (sealed : List UInt8)
    (hs : Telegram sealed (some link)
      ([ci, acc, st, c0, c1] ++ (cbcEncrypt encrypt key iv blocks ++ tail)))
    (hnp : .panic ∉ parseDataRecords cfg false (blocks.flatten ++ tail)) :
    ∃ text info, renderFromBytes cfg env aes128 sealed (some key) = .ok text ∧
      (noNon text →
        IsReport text info (recordList cfg env (some (DataRecords.new (blocks.flatten ++ tail) false)))) :=
  C78_xml_short cfg env he encrypt aes128 key hk (enc_len key hk) (enc_inv key hk) ci acc st c0 c1 hci link
    m0 m1 d0 d1 d2 d3 device hb hcode hid hdev iv hiv blocks hbl hne tail ht sealed hs hnp

/-- C124, the decrypted view of a sealed wired telegram: the same telegram with the plain data. -/
theorem C124_view (cfg : Cfg) (key : List UInt8) (hk : key.length = 16) (reversed : Bool)
    (x c a i0 i1 i2 i3 m0 m1 version device acc st c0 c1 : UInt8) (fn : Function)
    (hf : FunctionCode c fn) (hc : c ≠ 0x53) (hb : AllBcd [i0, i1, i2, i3])
    (code : ManufacturerCode) (hcode : ManufacturerCode.fromId (le16 m0 m1) = .ok code)
    (iv : List UInt8)
    (hiv : CbcIv (c1.toNat % 32) m0 m1 (idBytes reversed i0 i1 i2 i3) version device acc iv)
    (blocks : List (List UInt8)) (hbl : ∀ b ∈ blocks, b.length = 16) (hne : blocks ≠ [])
    (tail : List UInt8) (ht : tail.length < 16) (hsize : 16 * blocks.length + tail.length ≤ 240) :
    decryptedWired cfg aes128 key (longFrameBytes x c a
      ([longCi reversed, i0, i1, i2, i3, m0, m1, version, device, acc, st, c0, c1] ++
        (cbcEncrypt encrypt key iv blocks ++ tail))) =
    .ok (longFrameBytes x c a
      ([longCi reversed, i0, i1, i2, i3, m0, m1, version, device, acc, st, c0, c1] ++
        (blocks.flatten ++ tail))) :=
  C55_shows_plaintext cfg encrypt aes128 aes128_blocks key hk (enc_len key hk) (enc_inv key hk) reversed x c a
    i0 i1 i2 i3 m0 m1 version device acc st c0 c1 fn hf hc hb code hcode iv hiv blocks hbl hne tail ht hsize

/-! ## Readings sealed with AES-128 -/

/-- C123 with the cipher of the standard, long header. -/
theorem C123_aes_partial (cfg : Cfg) (key : List UInt8) (hk : key.length = 16)
    (i0 i1 i2 i3 m0 m1 version device acc st c0 c1 : UInt8) (hb : AllBcd [i0, i1, i2, i3])
    (code : ManufacturerCode) (hcode : ManufacturerCode.fromId (le16 m0 m1) = .ok code)
    (iv : List UInt8) (hiv : CbcIv (c1.toNat % 32) m0 m1 [i0, i1, i2, i3] version device acc iv)
    (blocks : List (List UInt8)) (hbl : ∀ b ∈ blocks, b.length = 16) (hne : blocks ≠ [])
    (tail : List UInt8) (ht : tail.length < 16) (data : List UInt8) (link : Option ManufacturerId)
    (hs : Telegram data link ([0x72, i0, i1, i2, i3, m0, m1, version, device, acc, st, c0, c1] ++
        (cbcEncrypt encrypt key iv blocks ++ tail)))
    (readings : List MeterReading) (hm : Message 7 readings (blocks.flatten ++ tail))
    (hr : ∀ r ∈ readings, Readable r) (enrich : Bool) :
    ∃ o, decodeBytes cfg aes128 data ⟨some key, enrich⟩ = .ok o ∧ o.decodeState = "complete".toList ∧
      List.Forall₂ Shown readings o.records :=
  C123_sealed_partial cfg encrypt aes128 key hk (enc_len key hk) (enc_inv key hk) i0 i1 i2 i3 m0 m1 version
    device acc st c0 c1 hb code hcode iv hiv blocks hbl hne tail ht data link hs readings hm hr enrich

/-- C123 with the cipher of the standard, wireless telegrams with a short header. -/
theorem C123_aes_short_partial (cfg : Cfg) (key : List UInt8) (hk : key.length = 16)
    (ci acc st c0 c1 : UInt8) (hci : isShortCi ci)
    (link : ManufacturerId) (m0 m1 d0 d1 d2 d3 device : UInt8) (hb : AllBcd [d0, d1, d2, d3])
    (hcode : ManufacturerCode.fromId (le16 m0 m1) = .ok link.manufacturerCode)
    (hid : link.identificationNumber = bcdValue [d0, d1, d2, d3])
    (hdev : link.deviceType = DeviceType.fromByte device)
    (iv : List UInt8) (hiv : CbcIv (c1.toNat % 32) m0 m1 [d0, d1, d2, d3] link.version device acc iv)
    (blocks : List (List UInt8)) (hbl : ∀ b ∈ blocks, b.length = 16) (hne : blocks ≠ [])
    (tail : List UInt8) (ht : tail.length < 16) (data : List UInt8)
    (hs : Telegram data (some link)
      ([ci, acc, st, c0, c1] ++ (cbcEncrypt encrypt key iv blocks ++ tail)))
    (readings : List MeterReading) (hm : Message 7 readings (blocks.flatten ++ tail))
    (hr : ∀ r ∈ readings, Readable r) (enrich : Bool) :
    ∃ o, decodeBytes cfg aes128 data ⟨some key, enrich⟩ = .ok o ∧ o.decodeState = "complete".toList ∧
      List.Forall₂ Shown readings o.records :=
  C123_sealed_short_partial cfg encrypt aes128 key hk (enc_len key hk) (enc_inv key hk) ci acc st c0 c1 hci
    link m0 m1 d0 d1 d2 d3 device hb hcode hid hdev iv hiv blocks hbl hne tail ht data hs readings hm hr enrich

/-! The encrypted wireless telegram of the project's own tests (tests/rscada_xml.rs:171-176), decoded with
its key by the model and the cipher of the standard: a volume, a date and the error flags. -/

set_option maxRecDepth 20000 in
example : ∃ o, decodeBytes cfgDebug aes128
    [0x2E, 0x44, 0x93, 0x15, 0x78, 0x56, 0x34, 0x12, 0x33, 0x03, 0x33, 0x63, 0x7A, 0x2A, 0x00, 0x20, 0x25,
     0x59, 0x23, 0xC9, 0x5A, 0xAA, 0x26, 0xD1, 0xB2, 0xE7, 0x49, 0x3B, 0xC2, 0xAD, 0x01, 0x3E, 0xC4,
     0xA6, 0xF6, 0xD3, 0x52, 0x9B, 0x52, 0x0E, 0xDF, 0xF0, 0xEA, 0x6D, 0xEF, 0xC9, 0x55, 0xB2, 0x9D,
     0x6D, 0x69, 0xEB, 0xF3, 0xEC, 0x8A] ⟨some exampleKey, true⟩ = .ok o ∧
    (o.decodeState = "complete".toList ∧
      o.records.map (fun r => (r.headerHex, r.dataHex, r.unit)) =
        [("0C 14".toList, "27 04 85 02".toList, some "m3".toList),
         ("04 6D".toList, "32 37 1F 15".toList, none), ("02 FD 17".toList, "00 00".toList, none)] ∧
      o.records.map (fun r => match r.value.value with | some (.str v) => v | _ => []) =
        ["28504.27".toList, [], "0".toList]) :=
  checked _ _ (by decide +kernel)

end MBus
