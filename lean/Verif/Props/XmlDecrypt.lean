import Verif.Props.XmlDoc
import Verif.Props.Output
/-!
# C78 for the XML report
-/
namespace MBus
open MBus.Spec MBus.Spec.Xml MBus.Xml

/-- A telegram with a payload reaches one of the two renderers. -/
theorem render_telegram (cfg : Cfg) (env : XmlEnv) (aes : AesBlock) (data : List UInt8)
    (link : Option ManufacturerId) (payload : List UInt8) (blk : UserDataBlock)
    (h : Telegram data link payload) (hb : Block payload blk) (key : Option (List UInt8)) :
    (link = none ∧ ∀ ell header block, blk = .long ell header block →
      (key = none → renderFromBytes cfg env aes data key =
        rendered cfg blk.attachedRecords (renderVariable cfg env header blk.attachedRecords)) ∧
      (key ≠ none → renderFromBytes cfg env aes data key =
        renderWithOptionalDecryption cfg env aes header blk blk.attachedRecords none key)) ∨
    ∃ f : WirelessFrame, link = some f.manufacturerId ∧ isCode f.manufacturerId.manufacturerCode ∧
      renderFromBytes cfg env aes data key =
        renderWireless cfg env aes ⟨f, some blk, blk.attachedRecords, none⟩ key := by
  have hu := (C32_accepts_iff _ _).2 hb
  cases h with
  | wired fn address _ hw =>
    left
    refine ⟨rfl, ?_⟩
    rintro ell header block rfl
    have hf := (C01_wired_accepts_exactly_telegrams cfg data _).2 hw
    unfold renderFromBytes MbusData.tryFromWired MbusData.ofPayload
    rw [hf, Res.bind_ok]
    simp only [hu]
    cases key <;> simp
  | wireless f frame hn hnorm hw =>
    right
    have hlen : 11 ≤ data.length := by
      have : 11 ≤ frame.length := by cases hw; simp
      cases hnorm with
      | stripped t h1 => omega
      | asIs => exact this
    obtain ⟨r, b, hs, hr⟩ := normalized_strip data frame hnorm
    have hf := (C12_wireless_accepts_exactly_telegrams frame f).2 hw
    have hwired : ∃ e, MbusData.tryFromWired cfg data = .err e := by
      cases hx : WiredFrame.tryFrom cfg data with
      | ok g => exact absurd ((C01_wired_accepts_exactly_telegrams cfg data g).1 hx) (hn g)
      | err e => exact ⟨e, ((C37_frame_delivered_wired cfg data).1 e).2 hx⟩
      | panic =>
        obtain ⟨_, _, h45⟩ := (C04_wired_panics_iff cfg data).1 hx
        omega
    obtain ⟨e, he⟩ := hwired
    refine ⟨f, rfl, wireless_code frame f hf, ?_⟩
    unfold renderFromBytes MbusData.tryFromWireless MbusData.ofPayload
    rw [he]
    simp only [hs, hr]
    rw [hf, Res.bind_ok]
    simp only [hu]

theorem rendered_some (cfg : Cfg) (s : DataRecords) (text : List Char)
    (h : .panic ∉ s.collect cfg) : rendered cfg (some s) text = .ok text := by
  unfold rendered
  rw [if_neg]
  simpa using h

theorem render_long_decrypted (cfg : Cfg) (env : XmlEnv) (dec : AesBlock) (header : LongTplHeader)
    (hmode : header.short.configurationField.securityMode ≠ .noEncryption) (blk : UserDataBlock)
    (link : Option ManufacturerId) (key : List UInt8) (len : Nat) (buffer plain : List UInt8)
    (h1 : decryptUserData dec blk link key (List.replicate 512 0) = (.ok len, buffer))
    (h2 : sliceTo? buffer len = some plain)
    (hnp : .panic ∉ parseDataRecords cfg header.lsbOrder plain) (records : Option DataRecords) :
    renderWithOptionalDecryption cfg env dec header blk records link (some key) =
      .ok (renderVariable cfg env header (some (DataRecords.new plain header.lsbOrder))) := by
  unfold renderWithOptionalDecryption withDecrypted
  simp only [LongTplHeader.isEncrypted, ShortTplHeader.isEncrypted, bne, beq_eq_false_iff_ne.2 hmode, Bool.not_false,
    Bool.not_true, Bool.false_eq_true, if_false, h1, h2]
  exact rendered_some cfg _ _ hnp

theorem xml_long (cfg : Cfg) (env : XmlEnv) (he : PlainNumbers env) (enc dec : AesBlock)
    (key : List UInt8) (hk : key.length = 16) (hlen : ∀ b, b.length = 16 → (enc key b).length = 16)
    (hinv : ∀ b, b.length = 16 → dec key (enc key b) = b) (reversed : Bool)
    (i0 i1 i2 i3 m0 m1 version device acc st c0 c1 : UInt8) (hb : AllBcd [i0, i1, i2, i3])
    (code : ManufacturerCode) (hcode : ManufacturerCode.fromId (le16 m0 m1) = .ok code)
    (iv : List UInt8)
    (hiv : CbcIv (c1.toNat % 32) m0 m1 (idBytes reversed i0 i1 i2 i3) version device acc iv)
    (blocks : List (List UInt8)) (hbl : ∀ b ∈ blocks, b.length = 16) (hne : blocks ≠ [])
    (tail : List UInt8) (ht : tail.length < 16) (sealed : List UInt8) (link : Option ManufacturerId)
    (hs : Telegram sealed link
      ([longCi reversed, i0, i1, i2, i3, m0, m1, version, device, acc, st, c0, c1] ++
        (cbcEncrypt enc key iv blocks ++ tail)))
    (hnp : .panic ∉ parseDataRecords cfg reversed (blocks.flatten ++ tail)) :
    ∃ text info, renderFromBytes cfg env dec sealed (some key) = .ok text ∧
      (noNon text → noNon (renderRecords cfg env (some (DataRecords.new (blocks.flatten ++ tail) reversed)))) ∧
      (noNon (renderRecords cfg env (some (DataRecords.new (blocks.flatten ++ tail) reversed))) →
        IsReport text info (recordList cfg env (some (DataRecords.new (blocks.flatten ++ tail) reversed)))) := by
  have hsz := telegram_length _ _ _ hs
  have hb' : AllBcd (idBytes reversed i0 i1 i2 i3) := by
    cases reversed
    · exact hb
    · simp only [idBytes, if_true]; rw [allBcd_four] at *; tauto
  obtain ⟨d0, d1, d2, d3, hd⟩ : ∃ d0 d1 d2 d3, idBytes reversed i0 i1 i2 i3 = [d0, d1, d2, d3] := by
    cases reversed <;> simp [idBytes]
  have hivl : iv.length = 16 := by
    cases hiv with
    | zero => simp
    | address => rw [hd]; simp [headerIv]
  have hcl := cbcEncrypt_length enc key hlen blocks iv hivl hbl
  have hblk := Block.long reversed i0 i1 i2 i3 m0 m1 version device acc st c0 c1
    (cbcEncrypt enc key iv blocks ++ tail) hb
  rw [List.length_append, List.length_append, hcl] at hsz
  rw [hd] at hb' hiv
  obtain ⟨out', h1, h2⟩ := decrypt_long enc dec key hk hlen hinv none
    ⟨bcdValue (idBytes reversed i0 i1 i2 i3), ManufacturerCode.fromId (le16 m0 m1), version,
      DeviceType.fromByte device, ⟨acc, st, ⟨le16 c0 c1⟩⟩, reversed⟩ code hcode iv
    (by rw [hd]; exact headerIv_context m0 m1 d0 d1 d2 d3 version device acc st c0 c1 hb' code hcode iv hiv)
    blocks hbl hne tail ht (by simp at hsz; omega) link
  have hmode : (⟨le16 c0 c1⟩ : ConfigurationField).securityMode ≠ .noEncryption := by
    have := mode_zero_iff ⟨le16 c0 c1⟩
    rw [mode_bytes] at this
    have h0 : c1.toNat % 32 ≠ 0 := by cases hiv <;> omega
    simpa using this.2 h0
  have hren := render_long_decrypted cfg env dec
    ⟨bcdValue (idBytes reversed i0 i1 i2 i3), ManufacturerCode.fromId (le16 m0 m1), version,
      DeviceType.fromByte device, ⟨acc, st, ⟨le16 c0 c1⟩⟩, reversed⟩ hmode
    (.long none ⟨bcdValue (idBytes reversed i0 i1 i2 i3), ManufacturerCode.fromId (le16 m0 m1), version,
      DeviceType.fromByte device, ⟨acc, st, ⟨le16 c0 c1⟩⟩, reversed⟩
      (cbcEncrypt enc key iv blocks ++ tail)) link key _ _ _ h1 h2 hnp
  have hm := block_code _ _ hblk none _ _ rfl
  rcases render_telegram cfg env dec sealed link _ _ hs hblk (some key) with ⟨hl, hr⟩ | ⟨f, hl, hf, hr⟩
  · rw [(hr _ _ _ rfl).2 (by simp)]
    subst hl; exact ⟨_, _, hren _, variable_noNon, fun ht => variable_report cfg env he _ _ rfl hm _ ht⟩
  · rw [hr]
    subst hl; exact ⟨_, _, hren _, variable_noNon, fun ht => variable_report cfg env he _ _ rfl hm _ ht⟩

/-- C78, the XML report of a telegram with a long header and encrypted data: with the key it contains
the records of the plain data, in the byte order the header announces (if no text has U+FFFE or U+FFFF, C75). -/
theorem C78_xml_long (cfg : Cfg) (env : XmlEnv) (he : PlainNumbers env) (enc dec : AesBlock)
    (key : List UInt8) (hk : key.length = 16) (hlen : ∀ b, b.length = 16 → (enc key b).length = 16)
    (hinv : ∀ b, b.length = 16 → dec key (enc key b) = b) (reversed : Bool)
    (i0 i1 i2 i3 m0 m1 version device acc st c0 c1 : UInt8) (hb : AllBcd [i0, i1, i2, i3])
    (code : ManufacturerCode) (hcode : ManufacturerCode.fromId (le16 m0 m1) = .ok code)
    (iv : List UInt8)
    (hiv : CbcIv (c1.toNat % 32) m0 m1 (idBytes reversed i0 i1 i2 i3) version device acc iv)
    (blocks : List (List UInt8)) (hbl : ∀ b ∈ blocks, b.length = 16) (hne : blocks ≠ [])
    (tail : List UInt8) (ht : tail.length < 16) (sealed : List UInt8) (link : Option ManufacturerId)
    (hs : Telegram sealed link
      ([longCi reversed, i0, i1, i2, i3, m0, m1, version, device, acc, st, c0, c1] ++
        (cbcEncrypt enc key iv blocks ++ tail)))
    (hnp : .panic ∉ parseDataRecords cfg reversed (blocks.flatten ++ tail)) :
    ∃ text info, renderFromBytes cfg env dec sealed (some key) = .ok text ∧
      (noNon text →
        IsReport text info (recordList cfg env (some (DataRecords.new (blocks.flatten ++ tail) reversed)))) := by
  obtain ⟨text, info, h1, h2, h3⟩ := xml_long cfg env he enc dec key hk hlen hinv reversed i0 i1 i2 i3 m0 m1 version
    device acc st c0 c1 hb code hcode iv hiv blocks hbl hne tail ht sealed link hs hnp
  exact ⟨text, info, h1, fun ht => h3 (h2 ht)⟩

/-- The hypotheses are met, here with byte-wise complement as the block cipher. -/
example (env : XmlEnv) (he : PlainNumbers env) : ∃ text info,
    renderFromBytes cfgRelease env (fun _ b => b.map (~~~ ·))
      (wiredLong ([0x72, 0x78, 0x56, 0x34, 0x12, 0xE6, 0x1E, 0x3C, 0x07, 0x2A, 0, 0x10, 0x05] ++
        (cbcEncrypt (fun _ b => b.map (~~~ ·)) (List.replicate 16 1)
          (headerIv 0xE6 0x1E [0x78, 0x56, 0x34, 0x12] 0x3C 0x07 0x2A)
          [[0x2F, 0x2F, 0x0C, 0x13, 0x78, 0x56, 0x34, 0x12] ++ List.replicate 8 0x2F] ++
            [0x01, 0x13, 0x05]))) (some (List.replicate 16 1)) = .ok text ∧
    (noNon text → IsReport text info (recordList cfgRelease env (some (DataRecords.new
      ([[0x2F, 0x2F, 0x0C, 0x13, 0x78, 0x56, 0x34, 0x12] ++ List.replicate 8 0x2F].flatten ++
        [0x01, 0x13, 0x05]) false)))) :=
  C78_xml_long cfgRelease env he (fun _ b => b.map (~~~ ·)) (fun _ b => b.map (~~~ ·))
    (List.replicate 16 1) (by simp) (by simp) (by intro b _; simp [Function.comp_def]) false
    0x78 0x56 0x34 0x12 0xE6 0x1E 0x3C 0x07 0x2A 0 0x10 0x05 (by decide +kernel)
    ⟨71, 87, 70⟩ (by decide +kernel) _ (.address rfl)
    [[0x2F, 0x2F, 0x0C, 0x13, 0x78, 0x56, 0x34, 0x12] ++ List.replicate 8 0x2F] (by decide) (by simp)
    [0x01, 0x13, 0x05] (by decide) _ none
    (wired_telegram _ _ (.rspUd false false) (.primary 1) (by decide +kernel)) (by decide +kernel)

theorem xml_short (cfg : Cfg) (env : XmlEnv) (he : PlainNumbers env) (enc dec : AesBlock)
    (key : List UInt8) (hk : key.length = 16) (hlen : ∀ b, b.length = 16 → (enc key b).length = 16)
    (hinv : ∀ b, b.length = 16 → dec key (enc key b) = b)
    (ci acc st c0 c1 : UInt8) (hci : isShortCi ci)
    (link : ManufacturerId) (m0 m1 d0 d1 d2 d3 device : UInt8) (hb : AllBcd [d0, d1, d2, d3])
    (hcode : ManufacturerCode.fromId (le16 m0 m1) = .ok link.manufacturerCode)
    (hid : link.identificationNumber = bcdValue [d0, d1, d2, d3])
    (hdev : link.deviceType = DeviceType.fromByte device)
    (iv : List UInt8) (hiv : CbcIv (c1.toNat % 32) m0 m1 [d0, d1, d2, d3] link.version device acc iv)
    (blocks : List (List UInt8)) (hbl : ∀ b ∈ blocks, b.length = 16) (hne : blocks ≠ [])
    (tail : List UInt8) (ht : tail.length < 16) (sealed : List UInt8)
    (hs : Telegram sealed (some link)
      ([ci, acc, st, c0, c1] ++ (cbcEncrypt enc key iv blocks ++ tail)))
    (hnp : .panic ∉ parseDataRecords cfg false (blocks.flatten ++ tail)) :
    ∃ text info, renderFromBytes cfg env dec sealed (some key) = .ok text ∧
      (noNon text → noNon (renderRecords cfg env (some (DataRecords.new (blocks.flatten ++ tail) false)))) ∧
      (noNon (renderRecords cfg env (some (DataRecords.new (blocks.flatten ++ tail) false))) →
        IsReport text info (recordList cfg env (some (DataRecords.new (blocks.flatten ++ tail) false)))) := by
  have hsz := telegram_length _ _ _ hs
  have hivl : iv.length = 16 := by
    cases hiv with
    | zero => simp
    | address => simp [headerIv]
  have hcl := cbcEncrypt_length enc key hlen blocks iv hivl hbl
  have hblk := Block.short ci acc st c0 c1 (cbcEncrypt enc key iv blocks ++ tail) hci
  rw [List.length_append, List.length_append, hcl] at hsz
  have hm := headerIv_context m0 m1 d0 d1 d2 d3 link.version device acc st c0 c1 hb _ hcode iv hiv
  rw [← hid, ← hdev] at hm
  obtain ⟨out', h1, h2⟩ := decrypt_short enc dec key hk hlen hinv none ⟨acc, st, ⟨le16 c0 c1⟩⟩ link iv hm
    blocks hbl hne tail ht (by simp at hsz; omega)
  have hmode : (⟨le16 c0 c1⟩ : ConfigurationField).securityMode ≠ .noEncryption := by
    have := mode_zero_iff ⟨le16 c0 c1⟩
    rw [mode_bytes] at this
    have h0 : c1.toNat % 32 ≠ 0 := by cases hiv <;> omega
    simpa using this.2 h0
  rcases render_telegram cfg env dec sealed (some link) _ _ hs hblk (some key) with ⟨hl, hr⟩ | ⟨f, hl, hf, hr⟩
  · cases hl
  · cases hl
    rw [hr]
    unfold renderWireless withDecrypted
    simp only [ShortTplHeader.isEncrypted, bne, beq_eq_false_iff_ne.2 hmode, Bool.not_false,
      Option.any_none, Bool.false_or, Bool.not_true, Bool.false_eq_true, if_false, h1, h2]
    exact ⟨_, _, rendered_some cfg _ _ hnp, wireless_noNon, fun ht => wireless_report cfg env he _ hf _ _ _ _ ht⟩

/-- C78, the XML report of a wireless telegram with a short header and encrypted data: with the key it
contains the records of the plain data (if no text has U+FFFE or U+FFFF, C75). -/
theorem C78_xml_short (cfg : Cfg) (env : XmlEnv) (he : PlainNumbers env) (enc dec : AesBlock)
    (key : List UInt8) (hk : key.length = 16) (hlen : ∀ b, b.length = 16 → (enc key b).length = 16)
    (hinv : ∀ b, b.length = 16 → dec key (enc key b) = b)
    (ci acc st c0 c1 : UInt8) (hci : isShortCi ci)
    (link : ManufacturerId) (m0 m1 d0 d1 d2 d3 device : UInt8) (hb : AllBcd [d0, d1, d2, d3])
    (hcode : ManufacturerCode.fromId (le16 m0 m1) = .ok link.manufacturerCode)
    (hid : link.identificationNumber = bcdValue [d0, d1, d2, d3])
    (hdev : link.deviceType = DeviceType.fromByte device)
    (iv : List UInt8) (hiv : CbcIv (c1.toNat % 32) m0 m1 [d0, d1, d2, d3] link.version device acc iv)
    (blocks : List (List UInt8)) (hbl : ∀ b ∈ blocks, b.length = 16) (hne : blocks ≠ [])
    (tail : List UInt8) (ht : tail.length < 16) (sealed : List UInt8)
    (hs : Telegram sealed (some link)
      ([ci, acc, st, c0, c1] ++ (cbcEncrypt enc key iv blocks ++ tail)))
    (hnp : .panic ∉ parseDataRecords cfg false (blocks.flatten ++ tail)) :
    ∃ text info, renderFromBytes cfg env dec sealed (some key) = .ok text ∧
      (noNon text →
        IsReport text info (recordList cfg env (some (DataRecords.new (blocks.flatten ++ tail) false)))) := by
  obtain ⟨text, info, h1, h2, h3⟩ := xml_short cfg env he enc dec key hk hlen hinv ci acc st c0 c1 hci link m0 m1
    d0 d1 d2 d3 device hb hcode hid hdev iv hiv blocks hbl hne tail ht sealed hs hnp
  exact ⟨text, info, h1, fun ht => h3 (h2 ht)⟩

/-- The hypotheses are met. -/
example (env : XmlEnv) (he : PlainNumbers env) : ∃ text info,
    renderFromBytes cfgRelease env (fun _ b => b.map (~~~ ·))
      (wirelessFrame ([0x7A, 0x2A, 0, 0x10, 0x05] ++
        (cbcEncrypt (fun _ b => b.map (~~~ ·)) (List.replicate 16 1)
          (headerIv 0xE6 0x1E [0x78, 0x56, 0x34, 0x12] 0x3C 0x07 0x2A)
          [[0x2F, 0x2F, 0x0C, 0x13, 0x78, 0x56, 0x34, 0x12] ++ List.replicate 8 0x2F] ++ [])))
      (some (List.replicate 16 1)) = .ok text ∧
    (noNon text → IsReport text info (recordList cfgRelease env (some (DataRecords.new
      ([[0x2F, 0x2F, 0x0C, 0x13, 0x78, 0x56, 0x34, 0x12] ++ List.replicate 8 0x2F].flatten ++
        []) false)))) :=
  C78_xml_short cfgRelease env he (fun _ b => b.map (~~~ ·)) (fun _ b => b.map (~~~ ·))
    (List.replicate 16 1) (by simp) (by simp) (by intro b _; simp [Function.comp_def])
    0x7A 0x2A 0 0x10 0x05 (Or.inl rfl)
    ⟨⟨71, 87, 70⟩, 12345678, .waterMeter, 0x3C, false⟩ 0xE6 0x1E 0x78 0x56 0x34 0x12 0x07
    (by decide +kernel) (by decide +kernel) (by decide +kernel) (by decide +kernel) _ (.address rfl)
    [[0x2F, 0x2F, 0x0C, 0x13, 0x78, 0x56, 0x34, 0x12] ++ List.replicate 8 0x2F] (by decide) (by simp)
    [] (by decide) _
    (isWireless_telegram _ _ _ (by decide +kernel)) (by decide +kernel)

end MBus
