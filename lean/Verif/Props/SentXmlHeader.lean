import Verif.Spec.SentXmlHeader
import Verif.Props.SentStatus
import Verif.Props.SentFixed
import Verif.Props.SentEll
import Verif.Props.SentXml
import Verif.Props.Product
import Verif.Props.XmlUnique
/-!
# C148: what a meter says about itself is in the XML report
-/
namespace MBus
open MBus.Xml MBus.Spec MBus.Spec.Xml

theorem hex2_digits (b : UInt8) : hex2 b = hexDigits 2 b.toNat := by
  have key : ∀ b : UInt8, hex2 b = hexDigits 2 b.toNat := by decide +kernel
  exact key b

theorem signature_digits (n : Fin 65536) :
    signatureText (le16 (UInt8.ofNat (n.val % 256)) (UInt8.ofNat (n.val / 256))) = hexDigits 4 n.val := by
  have hn := n.isLt
  have e1 : (UInt8.ofNat (n.val / 256)).toNat = n.val / 256 := by simp only [UInt8.toNat_ofNat']; omega
  have e2 : (UInt8.ofNat (n.val % 256)).toNat = n.val % 256 := by simp only [UInt8.toNat_ofNat']; omega
  unfold signatureText
  rw [(be16_parts _ _).1, (be16_parts _ _).2, ← hexDigits_word, hex2_digits, hex2_digits, ← hexDigits_byte, ← hexDigits_byte]
  rfl

theorem le16_value (a b : UInt8) : (le16 a b).toNat = a.toNat + 256 * b.toNat := by
  have h1 := a.toNat_lt
  have h2 := b.toNat_lt
  unfold le16
  simp only [UInt16.toNat_ofNat']
  omega

theorem medium_shown (code : UInt8) : MediumShown code (mediumLookup code) := by
  have key : ∀ code : UInt8, (match reportMedia.lookup code.toNat with
    | some name => decide (mediumLookup code = name.toList)
    | none => decide (mediumLookup code = "Reserved".toList ∨ mediumLookup code =
        "Unknown medium (0x".toList ++ (hexDigits 2 code.toNat).map Char.toLower ++ [')'])) = true := by decide +kernel
  have := key code
  unfold MediumShown
  generalize mediumLookup code = t at *
  generalize "Reserved".toList = r at *
  generalize "Unknown medium (0x".toList = u at *
  cases h : reportMedia.lookup code.toNat with
  | none => rw [h] at this; exact of_decide_eq_true this
  | some name => rw [h] at this; exact of_decide_eq_true this

theorem maker_text (m : SentMeter) (hm : m.Valid) :
    MBus.Xml.manufacturerText (letters m.letter1 m.letter2 m.letter3) = threeLetters m := by
  rw [← three_letters m hm]
  obtain ⟨-, h1, h2, h3⟩ := hm
  unfold IsLetter at *
  simp only [MBus.Xml.manufacturerText, letters, letterText, List.map_cons, List.map_nil, UInt8.toNat_ofNat']
  rw [Nat.mod_eq_of_lt (by omega), Nat.mod_eq_of_lt (by omega), Nat.mod_eq_of_lt (by omega)]

theorem meter_number (m : SentMeter) (hm : m.Valid) : bcdValue (encodeBcd 4 m.number) = m.number := by
  rw [bcdValue_encodeBcd]
  exact Nat.mod_eq_of_lt (by have := hm.1; omega)

theorem flagId_unique {a b c a' b' c' : Nat} (h : IsLetter a ∧ IsLetter b ∧ IsLetter c)
    (h' : IsLetter a' ∧ IsLetter b' ∧ IsLetter c') (he : flagId a b c = flagId a' b' c') : a = a' ∧ b = b' ∧ c = c' := by
  unfold IsLetter flagId at *
  omega

/-- The report of a short header, of data without header and of an extended link layer in a wireless telegram. -/
theorem wireless_text (cfg : Cfg) (env : XmlEnv) (aes : AesBlock) (f : WirelessFrame) (blk : UserDataBlock)
    (records : Option DataRecords) (key : Option (List UInt8)) (text : List Char)
    (access status : Option UInt8) (signature : Option UInt16)
    (hb : (∃ ell header block, blk = .short ell header block ∧
        ((ell.any (fun e => e.encryption.isSome) && header.configurationField.securityMode == .noEncryption) = false ∧
          access = some header.accessNumber ∧ status = some header.status ∧
          signature = some header.configurationField.raw ∨
        (ell.any (fun e => e.encryption.isSome) && header.configurationField.securityMode == .noEncryption) = true ∧
          access = ell.map (·.accessNumber) ∧ status = none ∧ signature = none)) ∨
      ∃ ell block, blk = .noTpl ell block ∧ access = ell.map (·.accessNumber) ∧ status = none ∧ signature = none)
    (h : renderWireless cfg env aes ⟨f, some blk, records, none⟩ key = .ok text) :
    ∃ r, text = renderWirelessVariable cfg env f.manufacturerId access status signature r := by
  rcases hb with ⟨ell, header, block, rfl, hb⟩ | ⟨ell, block, rfl, rfl, rfl, rfl⟩
  · unfold renderWireless at h
    simp only at h
    rcases hb with ⟨hs, rfl, rfl, rfl⟩ | ⟨hs, rfl, rfl, rfl⟩ <;> simp only [hs] at h <;> (
      split at h
      · exact ⟨_, rendered_ok h⟩
      · split at h
        · exact ⟨_, rendered_ok h⟩
        · obtain ⟨d, h⟩ := withDecrypted_ok h
          exact ⟨_, rendered_ok h⟩)
  · unfold renderWireless at h
    exact ⟨_, rendered_ok h⟩

theorem long_text (cfg : Cfg) (env : XmlEnv) (aes : AesBlock) (header : LongTplHeader) (block : UserDataBlock)
    (records : Option DataRecords) (id : Option ManufacturerId) (key : Option (List UInt8)) (text : List Char)
    (h : renderWithOptionalDecryption cfg env aes header block records id key = .ok text) :
    ∃ r, text = renderVariable cfg env header r := by
  unfold renderWithOptionalDecryption at h
  simp only at h
  split at h
  · exact ⟨_, rendered_ok h⟩
  · split at h
    · exact ⟨_, rendered_ok h⟩
    · obtain ⟨d, h⟩ := withDecrypted_ok h
      exact ⟨_, rendered_ok h⟩

/-- A payload without an address, parsed. -/
theorem says_block {facts : List Node} {payload : List UInt8} (h : SaysBehind facts payload) :
    ∃ blk access status signature, Block payload blk ∧
      ((∃ ell header block, blk = .short ell header block ∧
        ((ell.any (fun e => e.encryption.isSome) && header.configurationField.securityMode == .noEncryption) = false ∧
          access = some header.accessNumber ∧ status = some header.status ∧
          signature = some header.configurationField.raw ∨
        (ell.any (fun e => e.encryption.isSome) && header.configurationField.securityMode == .noEncryption) = true ∧
          access = ell.map (·.accessNumber) ∧ status = none ∧ signature = none)) ∨
      ∃ ell block, blk = .noTpl ell block ∧ access = ell.map (·.accessNumber) ∧ status = none ∧ signature = none) ∧
      facts = optionalLeaf "AccessNumber".toList (access.map (fun a => decimal a.toNat))
        ++ optionalLeaf "Status".toList (status.map hex2) ++ optionalLeaf "Signature".toList (signature.map signatureText) := by
  cases h with
  | header h _ hh =>
    generalize hs : "tpl.short" = source at hh
    cases hh with
    | long => exact absurd hs (by decide)
    | short ci block hci =>
      refine ⟨_, _, _, _, .short ci h.access h.status.byte (UInt8.ofNat (h.configuration.val % 256))
        (UInt8.ofNat (h.configuration.val / 256)) block hci, Or.inl ⟨_, _, _, rfl, Or.inl ⟨rfl, rfl, rfl, rfl⟩⟩, ?_⟩
      simp only [headerElements, optionalLeaf, Option.map_some, Option.getD_some, signature_digits, hex2_digits]
      rfl
    | shortEll cc acc ci block hci =>
      refine ⟨_, _, _, _, .ellI cc acc _ _ _ (.short ci h.access h.status.byte (UInt8.ofNat (h.configuration.val % 256))
        (UInt8.ofNat (h.configuration.val / 256)) block hci) rfl, Or.inl ⟨_, _, _, rfl, Or.inl ⟨rfl, rfl, rfl, rfl⟩⟩, ?_⟩
      simp only [headerElements, optionalLeaf, Option.map_some, Option.getD_some, signature_digits, hex2_digits]
      rfl
  | nothing block => exact ⟨_, _, _, _, .noTpl block, Or.inr ⟨_, _, rfl, rfl, rfl, rfl⟩, rfl⟩
  | access cc acc block => exact ⟨_, _, _, _, .ellI cc acc _ _ _ (.noTpl block) rfl, Or.inr ⟨_, _, rfl, rfl, rfl, rfl⟩, rfl⟩
  | session cc acc s0 s1 s2 s3 r0 r1 block =>
    exact ⟨_, _, _, _, .ellII cc acc s0 s1 s2 s3 r0 r1 block, Or.inl ⟨_, _, _, rfl, Or.inr ⟨by
      show (true && ConfigurationField.securityMode ⟨0⟩ == .noEncryption) = true; decide, rfl, rfl, rfl⟩⟩, rfl⟩

theorem meter_elements (m : SentMeter) (facts : List Node) (records : List (Nat × List Node)) (text : List Char)
    (h : IsReport text (identityElements m.number (threeLetters m) m.version m.device ++ facts) records) :
    XmlMeter m facts records text := ⟨_, medium_shown m.device, h⟩

/-- C148: the report of any telegram from a meter, clear or protected, with a key or without, names the meter and holds what
it says about itself. -/
theorem C148_report (cfg : Cfg) (env : XmlEnv) (he : PlainNumbers env) (aes : AesBlock) (data : List UInt8)
    (key : Option (List UInt8)) (text : List Char) (h : renderFromBytes cfg env aes data key = .ok text)
    (ht : ∀ c ∈ text, c.toNat ≠ 0xFFFE ∧ c.toNat ≠ 0xFFFF) (m : SentMeter) (hm : m.Valid) (facts : List Node)
    (hs : ReportedBy m facts data) : ∃ records, XmlMeter m facts records text := by
  obtain ⟨i0, i1, i2, i3, hn, hbcd, -⟩ := hexString_encodeBcd m.number
  have hnum : bcdValue [i0, i1, i2, i3] = m.number := by rw [← hn, meter_number m hm]
  cases hs with
  | long hd data link block ht' =>
    simp only [headerAddress, hn, makerBytes, SentHeader.bytes, List.cons_append, List.nil_append] at ht'
    obtain ⟨header, hb, hh⟩ : ∃ header, Block (0x72 :: i0 :: i1 :: i2 :: i3 ::
          UInt8.ofNat (flagId m.letter1 m.letter2 m.letter3 % 256) ::
          UInt8.ofNat (flagId m.letter1 m.letter2 m.letter3 / 256) :: m.version :: m.device :: hd.access ::
          hd.status.byte :: UInt8.ofNat (hd.configuration.val % 256) ::
          UInt8.ofNat (hd.configuration.val / 256) :: block) (.long none header block) ∧ header = _ :=
      ⟨_, Block.long false i0 i1 i2 i3 (UInt8.ofNat (flagId m.letter1 m.letter2 m.letter3 % 256))
      (UInt8.ofNat (flagId m.letter1 m.letter2 m.letter3 / 256)) m.version m.device hd.access hd.status.byte
      (UInt8.ofNat (hd.configuration.val % 256)) (UInt8.ofNat (hd.configuration.val / 256)) block hbcd, rfl⟩
    have hcode : ManufacturerCode.fromId (le16 (UInt8.ofNat (flagId m.letter1 m.letter2 m.letter3 % 256))
        (UInt8.ofNat (flagId m.letter1 m.letter2 m.letter3 / 256))) = .ok (letters m.letter1 m.letter2 m.letter3) :=
      (C07_manufacturer_from_id _ _).2 ⟨_, _, _, hm.2.1, hm.2.2.1, hm.2.2.2, by rw [le16_value, maker_value m hm], rfl⟩
    have e1 : header.identificationNumber = m.number := by rw [hh]; exact hnum
    have e2 : header.version = m.version := by rw [hh]
    have e3 : header.deviceType.toByte = m.device := by rw [hh]; exact C09_device_type_roundtrip _
    have e4 : header.short.accessNumber = hd.access := by rw [hh]
    have e5 : header.short.status = hd.status.byte := by rw [hh]
    have e6 : signatureText header.short.configurationField.raw = hexDigits 4 hd.configuration.val := by
      rw [hh]; exact signature_digits _
    have hr : ∀ r, text = renderVariable cfg env header r → ∃ records, XmlMeter m (headerElements hd) records text := by
      rintro r rfl
      have := variable_report cfg env he header (threeLetters m) (by simp only [hh, hcode]; exact (maker_text m hm).symm)
        (block_code _ _ hb _ _ _ rfl) r (variable_noNon ht)
      rw [e1, e2, e3, e4, e5, e6, hex2_digits] at this
      exact ⟨_, meter_elements m _ _ _ this⟩
    rcases render_telegram cfg env aes data link _ _ ht' hb key with ⟨hl, hw⟩ | ⟨f, hl, hf, hw⟩
    · have hw := hw _ _ _ rfl
      cases key with
      | none =>
        rw [hw.1 rfl] at h
        exact hr _ (rendered_ok h)
      | some k =>
        rw [hw.2 (by simp)] at h
        obtain ⟨r, e⟩ := long_text _ _ _ _ _ _ _ _ _ h
        exact hr r e
    · rw [hw] at h
      unfold renderWireless at h
      obtain ⟨r, e⟩ := long_text _ _ _ _ _ _ _ _ _ h
      exact hr r e
  | link _ data l c ci rest f hw hnorm hf hci hsays =>
    have hid : f.manufacturerId.identificationNumber = m.number ∧
        f.manufacturerId.manufacturerCode = letters m.letter1 m.letter2 m.letter3 ∧
        f.manufacturerId.version = m.version ∧ f.manufacturerId.deviceType = DeviceType.fromByte m.device := by
      simp only [linkAddress, hn, makerBytes, List.cons_append, List.nil_append] at hf
      cases hf with
      | mk _ _ _ _ _ _ _ _ _ _ _ _ payload i j k fn hl hfn hi hj hk hmk hb hp =>
        rw [maker_value m hm] at hmk
        obtain ⟨e1, e2, e3⟩ := flagId_unique ⟨hm.2.1, hm.2.2.1, hm.2.2.2⟩ ⟨hi, hj, hk⟩ hmk
        have hdev : deviceByte ci m.device = m.device := by
          unfold deviceByte
          rw [if_neg]
          omega
        exact ⟨hnum, by simp only [e1, e2, e3], rfl, by simp only [hdev]⟩
    have htel := Telegram.wireless f _ hw hnorm hf
    have hr : ∀ access status signature r, text = renderWirelessVariable cfg env f.manufacturerId access status signature r →
        facts = optionalLeaf "AccessNumber".toList (access.map (fun a => decimal a.toNat))
          ++ optionalLeaf "Status".toList (status.map hex2) ++ optionalLeaf "Signature".toList (signature.map signatureText) →
        ∃ records, XmlMeter m facts records text := by
      rintro access status signature r rfl rfl
      have hcode : isCode f.manufacturerId.manufacturerCode := by
        rw [hid.2.1]
        exact ⟨_, _, _, hm.2.1, hm.2.2.1, hm.2.2.2, rfl⟩
      have := wireless_report cfg env he _ hcode access status signature r (wireless_noNon ht)
      rw [hid.1, hid.2.1, hid.2.2.1, hid.2.2.2, maker_text m hm, C09_device_type_roundtrip, List.append_assoc,
        List.append_assoc, ← List.append_assoc (optionalLeaf _ _)] at this
      exact ⟨_, meter_elements m _ _ _ this⟩
    obtain ⟨blk, access, status, signature, hb, hc, hfacts⟩ := says_block hsays
    rcases render_telegram cfg env aes data _ _ _ htel hb key with ⟨hl, -⟩ | ⟨f', hl, -, hw⟩
    · cases hl
    · rw [hw] at h
      obtain ⟨r, e⟩ := wireless_text cfg env aes f' blk _ key text access status signature hc h
      rw [← Option.some.inj hl] at e
      exact hr access status signature r e hfacts

theorem five_inj {a b c d e a' b' c' d' e' : Node} {r r' : List Node}
    (h : [a, b, c, d, e] ++ r = [a', b', c', d', e'] ++ r') : a = a' ∧ b = b' ∧ c = c' ∧ d = d' ∧ e = e' ∧ r = r' := by
  simpa using h

/-- C148: no text is a report about two meters, or with two lists of facts or of records. -/
theorem C148_one_meter (m m' : SentMeter) (hm : m.Valid) (hm' : m'.Valid) (facts facts' : List Node)
    (records records' : List (Nat × List Node)) (text : List Char) (h : XmlMeter m facts records text)
    (h' : XmlMeter m' facts' records' text) :
    (m.number = m'.number ∧ m.letter1 = m'.letter1 ∧ m.letter2 = m'.letter2 ∧ m.letter3 = m'.letter3 ∧
      m.version = m'.version) ∧ facts = facts' ∧ records = records' := by
  obtain ⟨medium, -, h⟩ := h
  obtain ⟨medium', -, h'⟩ := h'
  obtain ⟨h1, h2⟩ := C75_one_report _ _ _ _ _ h h'
  obtain ⟨a, b, c, -, -, r⟩ := five_inj h1
  obtain ⟨l1, l2, l3⟩ := threeLetters_injective m m' hm hm' (leaf_inj b)
  exact ⟨⟨decimal_injective (leaf_inj a), l1, l2, l3, UInt8.toNat_inj.1 (decimal_injective (leaf_inj c))⟩, r, h2⟩

/-- C148: the reader knows the access number, the status and the configuration. -/
theorem C148_one_header (h h' : SentHeader) (he : headerElements h = headerElements h') :
    h.access = h'.access ∧ h.status = h'.status ∧ h.configuration = h'.configuration := by
  have three : ∀ {a b c a' b' c' : Node}, [a, b, c] = [a', b', c'] → a = a' ∧ b = b' ∧ c = c' := by
    intro a b c a' b' c' h
    simpa using h
  obtain ⟨e1, e2, e3⟩ := three he
  exact ⟨UInt8.toNat_inj.1 (decimal_injective (leaf_inj e1)), status_byte_injective _ _ (hexDigits_two _ _ (leaf_inj e2)),
    hexDigits_four _ _ (leaf_inj e3)⟩

/-- C148: the report with the records is the one about the meter, so C136, also of encrypted telegrams, is about this report. -/
theorem C148_same_report (cfg : Cfg) (env : XmlEnv) (he : PlainNumbers env) (aes : AesBlock) (data : List UInt8)
    (key : Option (List UInt8)) (text : List Char) (h : renderFromBytes cfg env aes data key = .ok text) (info : List Node)
    (records : List (Nat × List Node)) (hr : IsReport text info records) (m : SentMeter) (hm : m.Valid) (facts : List Node)
    (hs : ReportedBy m facts data) : XmlMeter m facts records text := by
  obtain ⟨records', h5⟩ := C148_report cfg env he aes data key text h (report_chars _ _ _ hr) m hm facts hs
  have e : records' = records := by
    obtain ⟨medium, -, h6⟩ := h5
    exact (C75_one_report _ _ _ _ _ h6 hr).2
  exact e ▸ h5

/-- C148 and C136 together: the XML text of the command line program, JavaScript and Python of a telegram with unencrypted
readings is one report, which names the meter and holds what it says about itself and exactly the readings it sent.  For the
readings that are missing see C136. -/
theorem C148_readings (cfg : Cfg) (env : CliEnv) (henv : env.front.xml = stdXml) (aes : AesBlock) (text : List Char)
    (data : List UInt8) (keyText : Option (List Char)) (key : Option (List UInt8)) (enrichment : Bool)
    (hx : Spelled text data) (hk : KeyGiven keyText key) (m : SentMeter) (hm : m.Valid) (facts : List Node)
    (hs : ReportedBy m facts data) (link : Option ManufacturerId) (payload d : List UInt8) (readings : List MeterReading)
    (ht : Telegram data link payload) (hd : ClearData payload d)
    (hw : link = none → ∃ reversed, payload.head? = some (longCi reversed))
    (hmsg : ReportMessage readings d) (hr : ∀ r ∈ readings, Reportable r) :
    AnsweredWell cfg env aes text keyText enrichment "xml" (fun out => ∃ records, XmlMeter m facts records out ∧
      records.map Prod.fst = List.range readings.length ∧
      List.Forall₂ Reported readings (records.map Prod.snd)) := by
  obtain ⟨out, info, records, h1, h2, h3, h4⟩ := C136_clear_partial cfg aes data link payload d key readings ht hd hw hmsg hr
  have h5 := C148_same_report cfg stdXml std_plain aes data key out h1 info records h2 m hm facts hs
  exact answered_well cfg env aes text data keyText key enrichment "xml" .xml (by decide +kernel) _ hx hk
    (fun width => ⟨out, by simp [renderBytes, henv, h1, Res.mapErr], _, h5, h3, h4⟩)

/-! ## The hypotheses are met -/

theorem reportedBy_link (m : SentMeter) (facts : List Node) (data : List UInt8) (e : FrameError)
    (r : Option (List UInt8) × List UInt8) (h : WiredFrame.tryFrom cfgRelease data = .err e)
    (hs : stripFormatACrcs data (List.replicate 512 0) = .ok r) (l c ci : UInt8) (rest : List UInt8)
    (hr : r.1.getD data = l :: c :: linkAddress m ++ ci :: rest) (f : WirelessFrame)
    (hf : WirelessFrame.tryFrom (l :: c :: linkAddress m ++ ci :: rest) = .ok f) (hci : ci.toNat / 16 ≠ 10)
    (hb : SaysBehind facts f.data) : ReportedBy m facts data := by
  obtain ⟨frame, hn⟩ := normalized_exists data
  obtain ⟨r', b, hr', he⟩ := normalized_strip data frame hn
  rw [hs] at hr'
  cases hr'
  rw [hr] at he
  subst he
  refine .link facts data l c ci rest f ?_ hn ((C12_wireless_accepts_exactly_telegrams _ _).1 hf) hci hb
  intro g hg
  rw [← C01_wired_accepts_exactly_telegrams cfgRelease, h] at hg
  cases hg

/-- The electricity meter 12345678 of ELS with ten readings in a wired telegram. -/
example (cfg : Cfg) (front : FrontEnv) (hf : front.xml = stdXml) (aes : AesBlock) (enrichment : Bool) :
    AnsweredWell cfg (oneFile front "t.hex".toList []) aes (hexString (olderWired 0 reportData)) none enrichment "xml"
      (fun out => ∃ records, XmlMeter ⟨12345678, 5, 12, 19, 0x33, 0x03⟩
          (headerElements ⟨0x2A, ⟨0, false, false, false, false, false, false⟩, 0⟩) records out ∧
        records.map Prod.fst = List.range 10 ∧ List.Forall₂ Reported reportReadings (records.map Prod.snd)) := by
  have ht := wired_telegram (olderWired 0 reportData)
    ([0x72, 0x78, 0x56, 0x34, 0x12, 0x93, 0x15, 0x33, 0x03, 0x2A, 0x00, 0x00, 0] ++ reportData)
    (.rspUd false false) (.primary 5) (by decide +kernel)
  have e : 0x72 :: headerAddress ⟨12345678, 5, 12, 19, 0x33, 0x03⟩ ++
      (SentHeader.mk 0x2A ⟨0, false, false, false, false, false, false⟩ 0).bytes ++ reportData =
      [0x72, 0x78, 0x56, 0x34, 0x12, 0x93, 0x15, 0x33, 0x03, 0x2A, 0x00, 0x00, 0] ++ reportData := by decide +kernel
  exact C148_readings cfg (oneFile front "t.hex".toList []) hf aes _ (olderWired 0 reportData) none none enrichment
    ((decode_iff _ _).1 (by decide +kernel)) .none _
    ⟨by norm_num, by constructor <;> norm_num, by constructor <;> norm_num, by constructor <;> norm_num⟩ _
    (.long _ _ none reportData (by rw [e]; exact ht)) none _ reportData reportReadings ht
    (.long false 0x78 0x56 0x34 0x12 0x93 0x15 0x33 0x03 0x2A 0x00 0x00 0 _ (by decide +kernel) (by decide))
    (fun _ => ⟨false, rfl⟩) report_example reportable_example

/-- The water meter 12345678 of GWF in an encrypted wireless telegram, without a key. -/
example : ReportedBy ⟨12345678, 7, 23, 6, 0x3C, 0x07⟩
    (headerElements ⟨0x2A, ⟨0, false, false, false, false, false, false⟩, 0x0510⟩)
    (wirelessFrame ([0x7A, 0x2A, 0, 0x10, 0x05] ++ List.replicate 16 0x5A)) := by
  refine reportedBy_link _ _ _ .invalidStartByte (none, List.replicate 512 0) (by decide +kernel) (by decide +kernel) 0x1E 0x44
    0x7A ([0x2A, 0, 0x10, 0x05] ++ List.replicate 16 0x5A) (by decide +kernel)
    ⟨0x44, some (.sndNr), ⟨⟨71, 87, 70⟩, 12345678, .waterMeter, 0x3C, false⟩, [0x7A, 0x2A, 0, 0x10, 0x05] ++ List.replicate 16 0x5A⟩
    (by decide +kernel) (by decide) (.header _ _ ?_)
  exact .short 0x7A (List.replicate 16 0x5A) (by decide)

/-- This telegram has a report. -/
example : ∃ text, renderFromBytes cfgRelease stdXml (fun _ b => b)
    (wirelessFrame ([0x7A, 0x2A, 0, 0x10, 0x05] ++ List.replicate 16 0x5A)) none = .ok text ∧
    ∀ c ∈ text, c.toNat ≠ 0xFFFE ∧ c.toNat ≠ 0xFFFF := by
  have key : (match renderFromBytes cfgRelease stdXml (fun _ b => b)
      (wirelessFrame ([0x7A, 0x2A, 0, 0x10, 0x05] ++ List.replicate 16 0x5A)) none with
    | .ok text => decide (∀ c ∈ text, c.toNat ≠ 0xFFFE ∧ c.toNat ≠ 0xFFFF)
    | _ => false) = true := by decide +kernel
  split at key
  · rename_i text h
    exact ⟨text, h, of_decide_eq_true key⟩
  · cases key

end MBus
