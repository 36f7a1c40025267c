import Verif.Lemmas.SentXml
import Verif.Lemmas.Utf8Lossy
import Verif.Props.Sent
import Verif.Props.XmlDecrypt
/-!
# C136: what a meter sends is in the XML report
-/
namespace MBus
open MBus.Spec MBus.Spec.Xml MBus.Xml

theorem report_items (cfg : Cfg) (env : XmlEnv) (hf : env.fmt6 = shownNumber) (hlo : ∀ t, env.lossy (utf8 t) = t)
    (readings : List MeterReading) (d : List UInt8) (h : ReportMessage readings d) (hr : ∀ r ∈ readings, Reportable r) :
    ∃ rs : List DataRecord, parseDataRecords cfg false d = rs.map .ok ∧
      List.Forall₂ (fun r rec => ∃ n, normalizeRecord env rec = some n ∧ Reported r (recordElements env n) ∧
        ∀ t, n.value = .str t → noNon t) readings rs := by
  simp only [C27_items]
  induction h with
  | nil => exact ⟨[], .nil, .nil⟩
  | filler readings data _ ih =>
    obtain ⟨rs, h1, h2⟩ := ih hr
    exact ⟨rs, .skip _ _ _ (by decide) h1, h2⟩
  | reading r b record readings data hs h8 h13 _ ih =>
    obtain ⟨rs, h1, h2⟩ := ih (fun r hx => hr r (by simp [hx]))
    obtain ⟨rec, n, h3, h4, h5, h6, h7, h9⟩ := sent_reported cfg env hf hlo r b record data hs h8 h13 (hr r (by simp))
    refine ⟨rec :: rs, ?_, .cons ⟨n, h6, h7, h9⟩ h2⟩
    have hsk : ¬ isSkipped b := by
      have key : ∀ b : UInt8, b.toNat % 16 ≠ 15 → ¬ isSkipped b := by decide +kernel
      exact key b h5
    exact .record b (record ++ data) data rec _ hsk h3 (by rw [h4]; rfl) (by rw [h4]; simp) h1

theorem report_records (cfg : Cfg) (env : XmlEnv) (hf : env.fmt6 = shownNumber) (hlo : ∀ t, env.lossy (utf8 t) = t)
    (readings : List MeterReading) (d : List UInt8) (h : ReportMessage readings d) (hr : ∀ r ∈ readings, Reportable r) :
    .panic ∉ parseDataRecords cfg false d ∧ noNon (renderRecords cfg env (some (DataRecords.new d false))) ∧
      (recordList cfg env (some (DataRecords.new d false))).map Prod.fst = List.range readings.length ∧
      List.Forall₂ Reported readings ((recordList cfg env (some (DataRecords.new d false))).map Prod.snd) := by
  obtain ⟨rs, h1, h2⟩ := report_items cfg env hf hlo readings d h hr
  have hcol : (DataRecords.new d false).collect cfg = rs.map .ok := h1
  have hfm : (rs.map (Res.ok (ε := RecordError))).filterMap Res.toOption = rs := by
    rw [List.filterMap_map, show (Res.toOption ∘ Res.ok (ε := RecordError) : DataRecord → _) = some from rfl]
    exact List.filterMap_some
  have hl : recordList cfg env (some (DataRecords.new d false)) = rs.zipIdx.map (fun (r, i) =>
      (i, ((normalizeRecord env r).map (recordElements env)).getD [])) := by
    unfold recordList
    rw [Option.map_some, Option.getD_some, hcol, hfm]
  refine ⟨by rw [h1]; simp, ?_, ?_, ?_⟩
  · apply records_noNon cfg env (by intro x c hc; rw [hf] at hc; exact C135_plain x c hc)
    rintro s hs r hm n t hn ht
    cases hs
    rw [hcol] at hm
    simp only [List.mem_map, Res.ok.injEq, exists_eq_right] at hm
    obtain ⟨i, hi, rfl⟩ := List.getElem_of_mem hm
    have hlen := h2.length_eq
    obtain ⟨n', e1, -, e2⟩ := List.Forall₂.get h2 (by omega : i < readings.length) hi
    simp only [List.get_eq_getElem] at e1
    rw [e1] at hn
    cases hn
    exact e2 t ht
  · rw [hl, h2.length_eq]
    simp only [List.map_map, Function.comp_def]
    rw [List.range_eq_range', ← List.zipIdx_map_snd 0 rs]
  · rw [hl]
    simp only [List.map_map, Function.comp_def]
    have : rs.zipIdx.map (fun x => ((normalizeRecord env x.1).map (recordElements env)).getD []) =
        rs.map (fun r => ((normalizeRecord env r).map (recordElements env)).getD []) := by
      conv_rhs => rw [← List.zipIdx_map_fst 0 rs]
      rw [List.map_map]; rfl
    rw [this, List.forall₂_map_right_iff]
    refine h2.imp ?_
    rintro r rec ⟨n, e1, e2, -⟩
    rw [e1]
    exact e2

theorem clear_render (cfg : Cfg) (env : XmlEnv) (he : PlainNumbers env) (aes : AesBlock) (data : List UInt8)
    (link : Option ManufacturerId) (payload d : List UInt8) (key : Option (List UInt8))
    (ht : Telegram data link payload) (hd : ClearData payload d)
    (hw : link = none → ∃ reversed, payload.head? = some (longCi reversed))
    (hnp : .panic ∉ parseDataRecords cfg false d) :
    ∃ text info, renderFromBytes cfg env aes data key = .ok text ∧
      (noNon (renderRecords cfg env (some (DataRecords.new d false))) →
        IsReport text info (recordList cfg env (some (DataRecords.new d false)))) := by
  obtain ⟨blk, hb, hat, hse, -⟩ := clear_block payload d hd
  have hm := block_code _ _ hb
  rcases render_telegram cfg env aes data link payload blk ht hb key with ⟨hl, hr⟩ | ⟨f, hl, hf, hr⟩
  · obtain ⟨reversed, hh⟩ := hw hl
    have hlong : ∃ ell header block, blk = .long ell header block := by
      cases hd with
      | long r i0 i1 i2 i3 m0 m1 version device acc st c0 c1 _ hi =>
        have h1 := (C32_accepts_iff _ _).2 hb
        rw [(C32_accepts_iff _ _).2 (.long r i0 i1 i2 i3 m0 m1 version device acc st c0 c1 d hi)] at h1
        injection h1 with h1
        exact ⟨_, _, _, h1.symm⟩
      | short ci acc st c0 c1 _ hci =>
        have : ci = longCi reversed := by simpa using hh
        rw [this] at hci
        exact absurd hci (by cases reversed <;> decide)
      | _ => cases reversed <;> exact absurd hh (by simp [longCi])
    obtain ⟨ell, header, block, rfl⟩ := hlong
    have hmode : header.isEncrypted = false := by
      simpa [securityFields, LongTplHeader.isEncrypted, ShortTplHeader.isEncrypted] using hse
    cases key with
    | none =>
      rw [(hr _ _ _ rfl).1 rfl, hat]
      exact ⟨_, _, rendered_some cfg _ _ hnp, fun ht => variable_report cfg env he _ _ rfl (hm _ _ _ rfl) _ ht⟩
    | some key =>
      rw [(hr _ _ _ rfl).2 (by simp), hat]
      unfold renderWithOptionalDecryption
      simp only [hmode, Bool.not_false, if_true]
      exact ⟨_, _, rendered_some cfg _ _ hnp, fun ht => variable_report cfg env he _ _ rfl (hm _ _ _ rfl) _ ht⟩
  · rw [hr, hat]
    unfold renderWireless
    cases blk with
    | long ell header block =>
      have hmode : header.isEncrypted = false := by
        simpa [securityFields, LongTplHeader.isEncrypted, ShortTplHeader.isEncrypted] using hse
      unfold renderWithOptionalDecryption
      simp only [hmode, Bool.not_false, if_true]
      exact ⟨_, _, rendered_some cfg _ _ hnp, fun ht => variable_report cfg env he _ _ rfl (hm _ _ _ rfl) _ ht⟩
    | short ell header block =>
      have hmode : (ell.any (fun e => e.encryption.isSome) || header.isEncrypted) = false := by
        simp only [securityFields] at hse
        split at hse
        · cases hse
        · rename_i h1
          simp only [bne_eq_false_iff_eq] at hse
          simp only [hse, beq_self_eq_true, Bool.and_true, Bool.not_eq_true] at h1
          simp [h1, ShortTplHeader.isEncrypted, hse]
      simp only [hmode, Bool.not_false, if_true]
      exact ⟨_, _, rendered_some cfg _ _ hnp, fun ht => wireless_report cfg env he _ hf _ _ _ _ ht⟩
    | noTpl ell block =>
      exact ⟨_, _, rendered_some cfg _ _ hnp, fun ht => wireless_report cfg env he _ hf _ _ _ _ ht⟩
    | _ => cases hat

theorem std_plain : PlainNumbers stdXml := fun x c hc => C135_plain x c hc

/-- C136: the report of a telegram with unencrypted data has one record for each reading the meter sent, in the same
order and with all its parts.  Wired telegrams have a report only with the long header.  Missing are the readings of
`C136_fails`: numbers in fields of variable length, codes without a name and with another name or unit in the report, and
combinable codes other than one power of ten; also dates with a time. -/
theorem C136_clear_partial (cfg : Cfg)
    (aes : AesBlock) (data : List UInt8) (link : Option ManufacturerId)
    (payload d : List UInt8) (key : Option (List UInt8)) (readings : List MeterReading)
    (ht : Telegram data link payload) (hd : ClearData payload d)
    (hw : link = none → ∃ reversed, payload.head? = some (longCi reversed))
    (hm : ReportMessage readings d) (hr : ∀ r ∈ readings, Reportable r) :
    ∃ text info records, renderFromBytes cfg stdXml aes data key = .ok text ∧ IsReport text info records ∧
      records.map Prod.fst = List.range readings.length ∧ List.Forall₂ Reported readings (records.map Prod.snd) := by
  obtain ⟨h1, h2, h3, h4⟩ := report_records cfg stdXml rfl utf8Lossy_utf8 readings d hm hr
  obtain ⟨text, info, h5, h6⟩ := clear_render cfg stdXml std_plain aes data
    link payload d key ht hd hw h1
  exact ⟨text, info, _, h5, h6 h2, h3, h4⟩

/-- C136 for encrypted telegrams with a long header, with the key. -/
theorem C136_sealed_partial (cfg : Cfg)
    (enc dec : AesBlock) (key : List UInt8)
    (hk : key.length = 16) (hlen : ∀ b, b.length = 16 → (enc key b).length = 16)
    (hinv : ∀ b, b.length = 16 → dec key (enc key b) = b)
    (i0 i1 i2 i3 m0 m1 version device acc st c0 c1 : UInt8) (hb : AllBcd [i0, i1, i2, i3])
    (code : ManufacturerCode) (hcode : ManufacturerCode.fromId (le16 m0 m1) = .ok code)
    (iv : List UInt8) (hiv : CbcIv (c1.toNat % 32) m0 m1 [i0, i1, i2, i3] version device acc iv)
    (blocks : List (List UInt8)) (hbl : ∀ b ∈ blocks, b.length = 16) (hne : blocks ≠ [])
    (tail : List UInt8) (ht : tail.length < 16) (data : List UInt8) (link : Option ManufacturerId)
    (hs : Telegram data link ([0x72, i0, i1, i2, i3, m0, m1, version, device, acc, st, c0, c1] ++
        (cbcEncrypt enc key iv blocks ++ tail)))
    (readings : List MeterReading) (hm : ReportMessage readings (blocks.flatten ++ tail))
    (hr : ∀ r ∈ readings, Reportable r) :
    ∃ text info records, renderFromBytes cfg stdXml dec data (some key) = .ok text ∧ IsReport text info records ∧
      records.map Prod.fst = List.range readings.length ∧ List.Forall₂ Reported readings (records.map Prod.snd) := by
  obtain ⟨h1, h2, h3, h4⟩ := report_records cfg stdXml rfl utf8Lossy_utf8 readings _ hm hr
  obtain ⟨text, info, h5, -, h6⟩ := xml_long cfg stdXml std_plain enc dec
    key hk hlen hinv false i0 i1 i2 i3 m0 m1 version device acc st c0 c1 hb code hcode iv hiv blocks hbl hne tail ht
    data link hs h1
  exact ⟨text, info, _, h5, h6 h2, h3, h4⟩

/-- C136 for encrypted wireless telegrams with a short header, where the meter address is in the link layer. -/
theorem C136_sealed_short_partial (cfg : Cfg)
    (enc dec : AesBlock) (key : List UInt8)
    (hk : key.length = 16) (hlen : ∀ b, b.length = 16 → (enc key b).length = 16)
    (hinv : ∀ b, b.length = 16 → dec key (enc key b) = b)
    (ci acc st c0 c1 : UInt8) (hci : isShortCi ci)
    (link : ManufacturerId) (m0 m1 d0 d1 d2 d3 device : UInt8) (hb : AllBcd [d0, d1, d2, d3])
    (hcode : ManufacturerCode.fromId (le16 m0 m1) = .ok link.manufacturerCode)
    (hid : link.identificationNumber = bcdValue [d0, d1, d2, d3])
    (hdev : link.deviceType = DeviceType.fromByte device)
    (iv : List UInt8) (hiv : CbcIv (c1.toNat % 32) m0 m1 [d0, d1, d2, d3] link.version device acc iv)
    (blocks : List (List UInt8)) (hbl : ∀ b ∈ blocks, b.length = 16) (hne : blocks ≠ [])
    (tail : List UInt8) (ht : tail.length < 16) (data : List UInt8)
    (hs : Telegram data (some link) ([ci, acc, st, c0, c1] ++ (cbcEncrypt enc key iv blocks ++ tail)))
    (readings : List MeterReading) (hm : ReportMessage readings (blocks.flatten ++ tail))
    (hr : ∀ r ∈ readings, Reportable r) :
    ∃ text info records, renderFromBytes cfg stdXml dec data (some key) = .ok text ∧ IsReport text info records ∧
      records.map Prod.fst = List.range readings.length ∧ List.Forall₂ Reported readings (records.map Prod.snd) := by
  obtain ⟨h1, h2, h3, h4⟩ := report_records cfg stdXml rfl utf8Lossy_utf8 readings _ hm hr
  obtain ⟨text, info, h5, -, h6⟩ := xml_short cfg stdXml std_plain enc dec
    key hk hlen hinv ci acc st c0 c1 hci link m0 m1 d0 d1 d2 d3 device hb hcode hid hdev iv hiv blocks hbl hne tail ht
    data hs h1
  exact ⟨text, info, _, h5, h6 h2, h3, h4⟩

/-! ## The hypotheses are met -/

/-- An energy of -1500 Wh of storage number 2 and the second tariff as a binary number, a volume flow as BCD with a
power of ten, the serial number as text, a maximum of the current, an energy of 1.5 kWh as a real, a date, an energy in
MWh, a volume without data, a date with a time and the date of a battery change with seconds, with fillers. -/
def reportReadings : List MeterReading :=
  [⟨0, 2, 1, 0, [0x03], .number (-1500)⟩, ⟨0, 0, 0, 0, [0x3B, 0x74], .number 1234⟩,
    ⟨0, 0, 0, 0, [0x78], .text ['A', '7']⟩, ⟨1, 1, 0, 0, [0x7D, 0x59], .number 42⟩,
    ⟨0, 0, 0, 0, [0x06], .real 0x3FC00000⟩, ⟨0, 1, 0, 0, [0x6C], .date 15 6 24⟩,
    ⟨0, 0, 0, 0, [0x7B, 0x00], .number 7⟩, ⟨0, 0, 0, 0, [0x13], .nothing⟩,
    ⟨0, 0, 0, 0, [0x6D], .dateTime 15 6 24 13 45 none⟩, ⟨0, 0, 0, 0, [0x7D, 0x70], .dateTime 1 2 23 8 5 (some 30)⟩]

def reportData : List UInt8 :=
  [0x2F, 0x2F, 0x82, 0x11, 0x03, 0x24, 0xFA, 0x0A, 0xBB, 0x74, 0x34, 0x12, 0x0D, 0x78, 0x02, 0x37, 0x41,
    0x2F, 0x51, 0xFD, 0x59, 0x2A, 0x05, 0x06, 0x00, 0x00, 0xC0, 0x3F, 0x42, 0x6C, 0x0F, 0x36,
    0x01, 0xFB, 0x00, 0x07, 0x00, 0x13, 0x04, 0x6D, 0x2D, 0x0D, 0x0F, 0x36,
    0x06, 0xFD, 0x70, 0x1E, 0x05, 0x08, 0xE1, 0x22, 0x00]

theorem report_example : ReportMessage reportReadings reportData := by
  have r1 := Sent.record (bcdBytes := 7) ⟨0, 2, 1, 0, [0x03], .number (-1500)⟩ 1 2 _ (by decide) (by decide)
    (by decide) (by decide) (by decide) (by decide) (by decide) (.binary 2 2 (-1500) (by decide) (by decide) (by decide))
  have r2 := Sent.record (bcdBytes := 7) ⟨0, 0, 0, 0, [0x3B, 0x74], .number 1234⟩ 0 10 _ (by decide) (by decide)
    (by decide) (by decide) (by decide) (by decide) (by decide) (.bcd 10 2 1234 (by decide) (by decide))
  have r3 := Sent.record (bcdBytes := 7) ⟨0, 0, 0, 0, [0x78], .text ['A', '7']⟩ 0 13 _ (by decide) (by decide)
    (by decide) (by decide) (by decide) (by decide) (by decide) (.text ['A', '7'] (by decide))
  have r4 := Sent.record (bcdBytes := 7) ⟨1, 1, 0, 0, [0x7D, 0x59], .number 42⟩ 0 1 _ (by decide) (by decide)
    (by decide) (by decide) (by decide) (by decide) (by decide) (.binary 1 1 42 (by decide) (by decide) (by decide))
  have r5 := Sent.record (bcdBytes := 7) ⟨0, 0, 0, 0, [0x06], .real 0x3FC00000⟩ 0 5 _ (by decide) (by decide)
    (by decide) (by decide) (by decide) (by decide) (by decide) (.real 0x3FC00000 (by decide))
  have r6 := Sent.record (bcdBytes := 7) ⟨0, 1, 0, 0, [0x6C], .date 15 6 24⟩ 0 2 _ (by decide) (by decide)
    (by decide) (by decide) (by decide) (by decide) (by decide) (.date 15 6 24 (by decide) (by decide) (by decide))
  have r7 := Sent.record (bcdBytes := 7) ⟨0, 0, 0, 0, [0x7B, 0x00], .number 7⟩ 0 1 _ (by decide) (by decide)
    (by decide) (by decide) (by decide) (by decide) (by decide) (.binary 1 1 7 (by decide) (by decide) (by decide))
  have r8 := Sent.record (bcdBytes := 7) ⟨0, 0, 0, 0, [0x13], .nothing⟩ 0 0 _ (by decide) (by decide)
    (by decide) (by decide) (by decide) (by decide) (by decide) .nothing
  have r9 := Sent.record (bcdBytes := 7) ⟨0, 0, 0, 0, [0x6D], .dateTime 15 6 24 13 45 none⟩ 0 4 _ (by decide) (by decide)
    (by decide) (by decide) (by decide) (by decide) (by decide)
    (.dateTime 15 6 24 13 45 (by decide) (by decide) (by decide) (by decide) (by decide))
  have r10 := Sent.record (bcdBytes := 7) ⟨0, 0, 0, 0, [0x7D, 0x70], .dateTime 1 2 23 8 5 (some 30)⟩ 0 6 _ (by decide)
    (by decide) (by decide) (by decide) (by decide) (by decide) (by decide)
    (.dateTimeSeconds 1 2 23 8 5 30 0 (by decide) (by decide) (by decide) (by decide) (by decide) (by decide))
  have := ReportMessage.filler _ _ (.filler _ _ (.reading _ _ _ _ _ r1 (by decide) (fun h => absurd h (by decide))
    (.reading _ _ _ _ _ r2 (by decide) (fun h => absurd h (by decide)) (.reading _ _ _ _ _ r3 (by decide) (fun _ => ⟨_, rfl⟩)
    (.filler _ _ (.reading _ _ _ _ _ r4 (by decide) (fun h => absurd h (by decide)) (.reading _ _ _ _ _ r5 (by decide) (fun h => absurd h (by decide))
    (.reading _ _ _ _ _ r6 (by decide) (fun h => absurd h (by decide)) (.reading _ _ _ _ _ r7 (by decide) (fun h => absurd h (by decide))
    (.reading _ _ _ _ _ r8 (by decide) (fun h => absurd h (by decide))
    (.reading _ _ _ _ _ r9 (by decide) (fun h => absurd h (by decide))
    (.reading _ _ _ _ _ r10 (by decide) (fun h => absurd h (by decide)) .nil))))))))))))
  exact this

theorem reportable_example : ∀ r ∈ reportReadings, Reportable r := by
  have key : ∀ r ∈ reportReadings, reportCodes r.codes = true ∧
      ((codeMeanings r.codes).bind (fun es => reportName (total es))).isSome ∧
      (r.codes.head? = some 0x6C ↔ match r.content with | .date .. => True | _ => False) ∧
      (r.codes = [0x6D] ∨ r.codes = [0x7D, 0x70] ↔ match r.content with | .dateTime .. => True | _ => False) ∧
      match r.content with | .text t => noNon t | _ => True := by
    intro r hr
    simp only [reportReadings, List.mem_cons, List.not_mem_nil, or_false] at hr
    rcases hr with rfl | rfl | rfl | rfl | rfl | rfl | rfl | rfl | rfl | rfl <;>
      refine ⟨by decide, by decide +kernel, by simp, by simp, ?_⟩ <;> trivial
  intro r hr
  obtain ⟨h1, h2, h3, h8, h4⟩ := key r hr
  obtain ⟨name, h5⟩ := Option.isSome_iff_exists.1 h2
  obtain ⟨es, h6, h7⟩ := Option.bind_eq_some_iff.1 h5
  refine ⟨h1, ⟨es, name, h6, h7⟩, ?_, ?_, ?_⟩
  · rw [h3]
    cases r.content <;> simp
  · rw [h8]
    cases r.content <;> simp
  · intro t ht
    rw [ht] at h4
    exact h4

example (cfg : Cfg) (aes : AesBlock)
    (key : Option (List UInt8)) : ∃ text info records,
      renderFromBytes cfg stdXml aes (olderWired 0 reportData) key = .ok text ∧ IsReport text info records ∧
      records.map Prod.fst = List.range 10 ∧ List.Forall₂ Reported reportReadings (records.map Prod.snd) :=
  C136_clear_partial cfg aes _ none _ reportData key reportReadings
    (wired_telegram _ ([0x72, 0x78, 0x56, 0x34, 0x12, 0x93, 0x15, 0x33, 0x03, 0x2A, 0x00, 0x00, 0] ++ reportData)
      (.rspUd false false) (.primary 5) (by decide +kernel))
    (.long false 0x78 0x56 0x34 0x12 0x93 0x15 0x33 0x03 0x2A 0x00 0x00 0 _ (by decide +kernel) (by decide))
    (fun _ => ⟨false, rfl⟩) report_example reportable_example

/-- In three blocks and a rest of a telegram in mode 5, with byte-wise complement as the block cipher. -/
example : ∃ text info records,
      renderFromBytes cfgRelease stdXml (fun _ b => b.map (~~~ ·))
      (olderWired 5 (cbcEncrypt (fun _ b => b.map (~~~ ·)) (List.replicate 16 1)
        (headerIv 0x93 0x15 [0x78, 0x56, 0x34, 0x12] 0x33 0x03 0x2A)
        [reportData.take 16, (reportData.drop 16).take 16, (reportData.drop 32).take 16] ++ reportData.drop 48))
      (some (List.replicate 16 1)) = .ok text ∧ IsReport text info records ∧
      records.map Prod.fst = List.range 10 ∧ List.Forall₂ Reported reportReadings (records.map Prod.snd) :=
  C136_sealed_partial cfgRelease (fun _ b => b.map (~~~ ·)) (fun _ b => b.map (~~~ ·))
    (List.replicate 16 1) (by simp) (by simp) (by intro b _; simp [Function.comp_def])
    0x78 0x56 0x34 0x12 0x93 0x15 0x33 0x03 0x2A 0 0 5 (by decide +kernel) ⟨69, 76, 83⟩ (by decide +kernel) _ (.address rfl)
    [reportData.take 16, (reportData.drop 16).take 16, (reportData.drop 32).take 16] (by decide) (by simp) (reportData.drop 48) (by decide) _ none
    (wired_telegram _ _ (.rspUd false false) (.primary 5) (by decide +kernel))
    reportReadings (by simpa [reportData] using report_example) reportable_example

/-! ## Other readings -/

theorem leaf_inj {a b s t : List Char} (h : leaf a s = leaf b t) : s = t := by
  unfold leaf textNodes at h
  injection h with _ _ h
  exact List.map_injective_iff.2 (fun x y h => by injection h) h

theorem reported_parts (r : MeterReading) (f s u q v : List Char)
    (h : Reported r [leaf "Function".toList f, leaf "StorageNumber".toList s, leaf "Unit".toList u,
      leaf "Quantity".toList q, leaf "Value".toList v]) :
    ∃ es, codeMeanings r.codes = some es ∧ UnitShown (total es) u ∧ ValueShown (total es) u r.content v := by
  obtain ⟨es, name, function, unit, value, more, h1, -, -, h2, h3, h4, h5⟩ := h
  have hm : more = [] := by
    rcases h4 with ⟨h4, -⟩ | h4
    · exact h4
    · subst h4
      have := congrArg List.length h5
      simp at this
  subst hm
  simp only [List.append_nil, List.cons_append, List.nil_append, List.cons.injEq, and_true] at h5
  obtain ⟨-, -, h6, -, h7⟩ := h5
  rw [leaf_inj h6, leaf_inj h7]
  exact ⟨es, h1, h2, h3⟩

theorem single_report (cfg : Cfg) (env : XmlEnv) (he : PlainNumbers env) (aes : AesBlock) (record data payload : List UInt8)
    (ht : Telegram data none payload) (hc : ClearData payload record) (hw : payload.head? = some (longCi false))
    (key : Option (List UInt8)) (rec : DataRecord) (hp : DataRecord.parse cfg false record = .ok rec)
    (hraw : rec.rawBytes = record) (hb : ∀ b ∈ record.head?, b.toNat % 16 ≠ 15) (n : NormalizedRecord)
    (hn : normalizeRecord env rec = some n) (hs : ∀ t, n.value = .str t → noNon t) :
    ∃ text info, renderFromBytes cfg env aes data key = .ok text ∧ IsReport text info [(0, recordElements env n)] := by
  obtain ⟨⟨rest, _⟩, hne⟩ := raw_prefix cfg false record rec hp
  have hi : parseDataRecords cfg false record = [rec].map .ok := by
    rw [C27_items]
    cases record with
    | nil => rw [hraw] at hne; exact absurd rfl hne
    | cons b record =>
      have hsk : ¬ isSkipped b := fun h => hb b (by simp) h.1
      exact .record b record [] rec _ hsk hp (by rw [hraw]; simp) hne .nil
  have hcol : (DataRecords.new record false).collect cfg = [.ok rec] := hi
  obtain ⟨text, info, h1, h2⟩ := clear_render cfg env he aes data none payload record key ht hc (fun _ => ⟨_, hw⟩)
    (by rw [hi]; simp)
  refine ⟨text, info, h1, ?_⟩
  have h3 := h2 (records_noNon cfg env he _ (by
    rintro s hs' r hm m t hm' ht
    cases hs'
    rw [hcol] at hm
    simp only [List.mem_singleton, Res.ok.injEq] at hm
    subst hm
    rw [hn] at hm'
    cases hm'
    exact hs t ht))
  have hl : recordList cfg env (some (DataRecords.new record false)) = [(0, recordElements env n)] := by
    unfold recordList
    rw [Option.map_some, Option.getD_some, hcol]
    simp [Res.toOption, hn]
  rwa [hl] at h3

/-- C136 is false for other readings.  A volume of 5 l as a number of variable length is shown as `05`, a power in GJ/h
(FB 30) in J, and the volume flow of 5 l per second (13 20) as a volume. -/
theorem C136_fails (cfg : Cfg) (env : XmlEnv) (he : PlainNumbers env) (aes : AesBlock) (key : Option (List UInt8)) :
    ∀ r ∈ [(⟨0, 0, 0, 0, [0x13], .number 5⟩ : MeterReading), ⟨0, 0, 0, 0, [0x7B, 0x30], .number 5⟩,
        ⟨0, 0, 0, 0, [0x13, 0x20], .number 5⟩],
      ∃ record data payload, Sent 7 r record ∧ Telegram data none payload ∧ ClearData payload record ∧
        (codeMeanings r.codes).isSome ∧
        ∃ text info records, renderFromBytes cfg env aes data key = .ok text ∧ IsReport text info records ∧
          ¬ List.Forall₂ Reported [r] (records.map Prod.snd) := by
  have tel : ∀ record, WiredFrame.tryFrom cfgRelease (olderWired 0 record) = .ok (.longFrame (.rspUd false false) (.primary 5)
      ([0x72, 0x78, 0x56, 0x34, 0x12, 0x93, 0x15, 0x33, 0x03, 0x2A, 0x00, 0x00, 0] ++ record)) →
      Telegram (olderWired 0 record) none
        ([0x72, 0x78, 0x56, 0x34, 0x12, 0x93, 0x15, 0x33, 0x03, 0x2A, 0x00, 0x00, 0] ++ record) ∧
      ClearData ([0x72, 0x78, 0x56, 0x34, 0x12, 0x93, 0x15, 0x33, 0x03, 0x2A, 0x00, 0x00, 0] ++ record) record := by
    intro record h
    exact ⟨wired_telegram _ _ (.rspUd false false) (.primary 5) h,
      .long false 0x78 0x56 0x34 0x12 0x93 0x15 0x33 0x03 0x2A 0x00 0x00 0 _ (by decide +kernel) (by decide)⟩
  have field := Field.binary (bcdBytes := 7) 1 1 5 (by decide) (by decide) (by decide)
  have parse : ∀ (data : List UInt8) (p : DataRecord → Bool),
      (DataRecord.parse cfg false data).toOption.any (fun r => decide (r.rawBytes = data) && p r) = true →
      ∃ r, DataRecord.parse cfg false data = .ok r ∧ r.rawBytes = data ∧ p r = true := by
    intro data p h
    cases hp : DataRecord.parse cfg false data with
    | ok r => rw [hp] at h; exact ⟨r, rfl, by simpa [Res.toOption] using h⟩
    | err e => rw [hp] at h; simp [Res.toOption] at h
    | panic => rw [hp] at h; simp [Res.toOption] at h
  have finish : ∀ (r : MeterReading) (record : List UInt8) (dif : UInt8) (vib : VIB) (bytes u q : List _) (f : Factor)
      (value : DecodedValue F64), Sent 7 r record → (∀ b ∈ record.head?, b.toNat % 16 ≠ 15) → dif.toNat % 16 ≠ 15 →
      WiredFrame.tryFrom cfgRelease (olderWired 0 record) = .ok (.longFrame (.rspUd false false) (.primary 5)
        ([0x72, 0x78, 0x56, 0x34, 0x12, 0x93, 0x15, 0x33, 0x03, 0x2A, 0x00, 0x00, 0] ++ record)) →
      (DataRecord.parse cfg false record).toOption.any (fun rec => decide (rec.rawBytes = record) &&
        decide (rec.header.raw = ⟨⟨dif, none⟩, some vib⟩ ∧ sliceFrom? rec.rawBytes rec.header.size = some bytes)) = true →
      variableValueDecode env dif vib.vif (vib.vifes.getD []).head? bytes = some value →
      vibUnit vib.vif (vib.vifes.getD []) (vib.plaintext.map (fun chars => chars.reverse.map (fun b => Char.ofNat b.toNat))) =
        some (u, f, q) →
      (∀ t, value = .str t → noNon t) → (codeMeanings r.codes).isSome →
      (∀ es, codeMeanings r.codes = some es → UnitShown (total es) (blanked u) →
        ¬ ValueShown (total es) (blanked u) r.content
          (valueText env (shownValue f (vifeCorrection vib.vif (vib.vifes.getD [])) value))) →
      ∃ record data payload, Sent 7 r record ∧ Telegram data none payload ∧ ClearData payload record ∧
        (codeMeanings r.codes).isSome ∧
        ∃ text info records, renderFromBytes cfg env aes data key = .ok text ∧ IsReport text info records ∧
          ¬ List.Forall₂ Reported [r] (records.map Prod.snd) := by
    intro r record dif vib bytes u q f value hsent hb hdif htel hparse hval hunit hnon hcm hno
    obtain ⟨t1, t2⟩ := tel record htel
    obtain ⟨rec, p1, p2, p3⟩ := parse record _ hparse
    obtain ⟨p3, p4⟩ := of_decide_eq_true p3
    have hn := (normalize_parts env rec _ vib bytes (by rw [p3]) (by rw [p3]; exact hdif) p4).2
      ⟨value, u, f, q, by rw [p3]; exact hval, hunit, rfl⟩
    rw [p3] at hn
    obtain ⟨text, info, h1, h2⟩ := single_report cfg env he aes record _ _ t1 t2 rfl key rec p1 p2 hb _ hn (by
      intro t ht
      apply hnon t
      cases value with
      | real => cases ht
      | str t' => simp only [shownValue, DecodedValue.str.injEq] at ht; rw [ht])
    refine ⟨record, _, _, hsent, t1, t2, hcm, text, info, _, h1, h2, ?_⟩
    rintro (_ | ⟨h, _⟩)
    obtain ⟨es, e1, e2, e3⟩ := reported_parts r _ _ _ _ _ h
    exact hno es e1 e2 e3
  have second : ∀ (scale : Int) (units : List MUnit) (e : ValueInfo) (u : List Char) (us : List (Base × Rat × Int)),
      e.scale = scale → e.units = units → units ≠ [] →
      (libraryQuantity scale units).any (fun a => (product 1 us).dim .second == a.dim .second) = false →
      xmlUnit (String.ofList u) = some us → ¬ UnitShown e u := by
    rintro scale units e u us rfl rfl hne h1 h2 h3
    unfold UnitShown at h3
    rw [if_neg hne] at h3
    obtain ⟨a, us', h4, h5, h6⟩ := h3
    rw [h2] at h5
    cases h5
    rw [h4] at h1
    simp only [Option.any_some, beq_eq_false_iff_ne, ne_eq] at h1
    exact h1 (h6 .second)
  intro r hr
  simp only [List.mem_cons, List.not_mem_nil, or_false] at hr
  rcases hr with rfl | rfl | rfl
  · refine finish _ [0x0D, 0x13, 0xE1, 0x05] 0x0D ⟨0x13, none, none⟩ [0xE1, 0x05] _ _ _ (.str ['0', '5'])
      (Sent.record (bcdBytes := 7) ⟨0, 0, 0, 0, [0x13], .number 5⟩ 0 13 _ (by decide) (by decide) (by decide) (by decide)
        (by decide) (by decide) (by decide) (.variableBinary 1 5 (by decide) (by decide) (by decide) (by decide)))
      (by simp) (by decide) (by decide +kernel) (by obtain ⟨oc, tf⟩ := cfg; cases oc <;> cases tf <;> decide +kernel)
      (by rfl) (by rfl) (by intro t ht; cases ht; decide) (by decide +kernel) ?_
    rintro es - - ⟨n, -, q, ⟨neg, ip, fp, -, -, -, -, h1, h2, -⟩, -⟩
    have hfp : fp ≠ [] := by rintro rfl; simp at h1
    have h3 := congrArg List.length h2
    simp only [decimalText, List.length_append, if_neg hfp, List.length_cons, h1] at h3
    have h4 : (valueText env (shownValue ⟨1, -3⟩ .none (.str ['0', '5']))).length = 2 := rfl
    have h5 : (valueText env (shownValue ⟨1, -3⟩ .none (.str ['0', '5']))).length = _ := h3
    omega
  · refine finish _ [0x01, 0xFB, 0x30, 0x05] 0x01 ⟨0xFB, some [0x30], none⟩ [0x05] _ _ _ (.real (intDecode [0x05]))
      (Sent.record (bcdBytes := 7) ⟨0, 0, 0, 0, [0x7B, 0x30], .number 5⟩ 0 1 _ (by decide) (by decide) (by decide) (by decide)
        (by decide) (by decide) (by decide) field)
      (by simp) (by decide) (by decide +kernel) (by obtain ⟨oc, tf⟩ := cfg; cases oc <;> cases tf <;> decide +kernel)
      (by rfl) (by rfl) (by intro t ht; cases ht) (by decide +kernel) ?_
    intro es hes hu
    have h5 : codeMeanings [0x7B, 0x30] = some [{ units := [⟨.joul, 1⟩, ⟨.hour, -1⟩], labels := [.power], scale := 8 }] := by
      decide +kernel
    cases Option.some.inj (h5.symm.trans hes)
    exact absurd hu (second 8 [⟨.joul, 1⟩, ⟨.hour, -1⟩] _ _ [(.watt, 1, 1), (.second, 1, 1)] rfl rfl (by simp)
      (by decide +kernel) (by decide +kernel))
  · refine finish _ [0x01, 0x93, 0x20, 0x05] 0x01 ⟨0x93, some [0x20], none⟩ [0x05] _ _ _ (.real (intDecode [0x05]))
      (Sent.record (bcdBytes := 7) ⟨0, 0, 0, 0, [0x13, 0x20], .number 5⟩ 0 1 _ (by decide) (by decide) (by decide) (by decide)
        (by decide) (by decide) (by decide) field)
      (by simp) (by decide) (by decide +kernel) (by obtain ⟨oc, tf⟩ := cfg; cases oc <;> cases tf <;> decide +kernel)
      (by rfl) (by rfl) (by intro t ht; cases ht) (by decide +kernel) ?_
    intro es hes hu
    have h5 : codeMeanings [0x13, 0x20] = some [{ units := [⟨.meter, 3⟩], labels := [.volume], scale := -3 },
        { units := [⟨.second, -1⟩], labels := [], scale := 0 }] := by
      decide +kernel
    cases Option.some.inj (h5.symm.trans hes)
    exact absurd hu (second (-3) [⟨.meter, 3⟩, ⟨.second, -1⟩] _ _ [(.metre, 1, 3)] rfl rfl (by simp)
      (by decide +kernel) (by decide +kernel))

end MBus
