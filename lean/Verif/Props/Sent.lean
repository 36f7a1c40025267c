import Verif.Lemmas.Sent
import Verif.Props.Output
import Verif.Props.OutputRecords
import Verif.Props.Legacy
/-!
# C123: what a meter sends is what is shown
-/
namespace MBus
open MBus.Spec

theorem message_items_before (cfg : Cfg) (readings : List MeterReading) (d s : List UInt8)
    (ss : List DataRecord) (hs : parseDataRecords cfg false s = ss.map .ok) (h : Message 7 readings d)
    (hr : ∀ r ∈ readings, Readable r) :
    ∃ rs : List DataRecord, parseDataRecords cfg false (d ++ s) = (rs ++ ss).map .ok ∧
      List.Forall₂ (fun r rec => ∀ i, Shown r (recordOutput i rec)) readings rs := by
  simp only [C27_items] at hs ⊢
  induction h with
  | nil => exact ⟨[], hs, .nil⟩
  | filler readings data _ ih =>
    obtain ⟨rs, h1, h2⟩ := ih hr
    exact ⟨rs, .skip _ _ _ (by decide) h1, h2⟩
  | reading r record readings data hs _ ih =>
    obtain ⟨rs, h1, h2⟩ := ih (fun r hx => hr r (by simp [hx]))
    obtain ⟨hm, hw, hl, hst, hsu⟩ := hr r (by simp)
    obtain ⟨es, hes⟩ := Option.isSome_iff_exists.1 hm
    obtain ⟨rec, h3, h4, h5, h6, _⟩ := sent_parse cfg r record (data ++ s) es hs hes hw hl hst hsu
    refine ⟨rec :: rs, ?_, .cons h6 h2⟩
    rw [List.append_assoc]
    cases record with
    | nil => cases hs
    | cons b record =>
      have hb : b.toNat % 16 ≠ 15 := h5 b (by simp)
      have hsk : ¬ isSkipped b := by
        have key : ∀ b : UInt8, b.toNat % 16 ≠ 15 → ¬ isSkipped b := by decide +kernel
        exact key b hb
      exact .record b (record ++ (data ++ s)) (data ++ s) rec _ hsk h3 (by rw [h4]; rfl) (by rw [h4]; simp) h1

theorem message_items (cfg : Cfg) (readings : List MeterReading) (d : List UInt8) (h : Message 7 readings d)
    (hr : ∀ r ∈ readings, Readable r) :
    ∃ rs : List DataRecord, parseDataRecords cfg false d = rs.map .ok ∧
      List.Forall₂ (fun r rec => ∀ i, Shown r (recordOutput i rec)) readings rs := by
  simpa using message_items_before cfg readings d [] [] (by rw [C27_items]; exact .nil) h hr

theorem shown_outputs (readings : List MeterReading) (rs : List DataRecord)
    (h : List.Forall₂ (fun r rec => ∀ i, Shown r (recordOutput i rec)) readings rs) :
    List.Forall₂ Shown readings (recordOutputs rs) := by
  unfold recordOutputs
  generalize 0 = k
  induction h generalizing k with
  | nil => exact .nil
  | cons h1 _ ih => exact .cons (h1 k) (ih (k + 1))

/-- C123: the records shown for a telegram with unencrypted data are the readings the meter sent, in the same order,
with all their parts.  Missing are the readings of `C123_fails`: storage numbers above 1, codes the library gets wrong,
more than five codes, reals in other than the base units of their codes and BCD numbers of more than 14 digits in fields
of variable length; also dates with a time. -/
theorem C123_clear_partial (cfg : Cfg) (aes : AesBlock) (data : List UInt8) (link : Option ManufacturerId)
    (payload d : List UInt8) (options : DecodeOptions) (readings : List MeterReading)
    (ht : Telegram data link payload) (hd : ClearData payload d) (hm : Message 7 readings d)
    (hr : ∀ r ∈ readings, Readable r) :
    ∃ o, decodeBytes cfg aes data options = .ok o ∧ o.decodeState = "complete".toList ∧
      List.Forall₂ Shown readings o.records := by
  obtain ⟨rs, h1, h2⟩ := message_items cfg readings d hm hr
  obtain ⟨o, h3, h4, h5, _⟩ := (clear_decode cfg aes data link payload d options ht hd).1 rs h1
  exact ⟨o, h3, h5, by rw [h4]; exact shown_outputs readings rs h2⟩

/-- C123 with data of the manufacturer (0F, or 1F if more records follow) at the end of the message: one more record has
these bytes. -/
theorem C123_tail_partial (cfg : Cfg) (aes : AesBlock) (data : List UInt8) (link : Option ManufacturerId)
    (payload d : List UInt8) (marker : UInt8) (bytes : List UInt8) (options : DecodeOptions) (readings : List MeterReading)
    (ht : Telegram data link payload) (hk : marker = 0x0F ∨ marker = 0x1F) (hd : ClearData payload (d ++ marker :: bytes))
    (hm : Message 7 readings d) (hr : ∀ r ∈ readings, Readable r) :
    ∃ o rs last, decodeBytes cfg aes data options = .ok o ∧ o.decodeState = "complete".toList ∧
      o.records = rs ++ [last] ∧ List.Forall₂ Shown readings rs ∧
      last.function = (functionText marker).toList ∧ last.value = ⟨"manufacturer_specific".toList, none⟩ ∧
      last.unit = none ∧ last.quantities = [] ∧ ShowsBytes last (marker :: bytes) := by
  obtain ⟨r, hp, hraw, hda⟩ := parse_rest cfg false marker hk bytes
  have hsk : ¬ isSkipped marker := by rcases hk with rfl | rfl <;> decide
  have hs : parseDataRecords cfg false (marker :: bytes) = [r].map .ok := by
    rw [C27_items]
    exact .record marker bytes [] r _ hsk hp (by rw [hraw]; simp) (by rw [hraw]; simp) .nil
  obtain ⟨rs, h1, h2⟩ := message_items_before cfg readings d _ [r] hs hm hr
  obtain ⟨o, h3, h4, h5, _⟩ := (clear_decode cfg aes data link payload _ options ht hd).1 _ h1
  have h6 : recordOutputs (rs ++ [r]) = recordOutputs rs ++ [recordOutput rs.length r] := by
    simp [recordOutputs, List.zipIdx_append]
  refine ⟨o, recordOutputs rs, recordOutput rs.length r, h3, h5, by rw [h4, h6], shown_outputs readings rs h2, ?_⟩
  obtain ⟨dif, difes, rest, e1, -, -, -, -, e2⟩ := C89_fields cfg false _ r rs.length hp
  obtain rfl : marker = dif := by injection e1
  have hvi : r.header.processed.valueInfo = none := by
    obtain ⟨g1, g2⟩ := recordHeader_ok _ _ _ ((record_ok _ _ _ _).mp hp).1
    have h0 : marker.toNat < 128 := by rcases hk with rfl | rfl <;> decide
    have hsf : isSpecialFunction marker = true := by rcases hk with rfl | rfl <;> decide
    unfold RawHeader.tryFrom at g1
    rw [show DIB.tryFrom (marker :: bytes) = .ok ⟨marker, none⟩ from
      (dib_ok _ _).mpr (.inl ⟨_, _, rfl, h0, rfl⟩)] at g1
    simp [hsf] at g1
    rw [← g1] at g2
    rcases hk with rfl | rfl
    · rw [← Res.ok.inj g2]
    · rw [← Res.ok.inj g2]
  refine ⟨e2, ?_, ?_, ?_, ?_⟩
  · show valueOutput r = _
    unfold valueOutput
    rw [hda]
  · simp [recordOutput, hvi]
  · simp [recordOutput, hvi]
  · exact ⟨r.headerBytes, r.dataBytes, by rw [← hraw]; exact ((C29_raw_bytes cfg false _ r hp).2.1).symm,
      hexSpaced_tokens _, hexSpaced_tokens _⟩

theorem finish_shown {F : Type} (cfg : Cfg) (aes : AesBlock) (protocol : List Char) (frame : FrameOutput)
    (data normalized : List UInt8) (stripped : Bool) (payload : Option (List UInt8)) (parsed : MbusData F)
    (link : Option ManufacturerId) (options : DecodeOptions) (c : SecurityContext) (d : List UInt8)
    (readings : List MeterReading)
    (hc : prepareSecurity aes parsed.userData link options.key (List.replicate 512 0) = .ok c)
    (hrec : recordsToShow parsed c = some (DataRecords.new d false)) (he : parsed.applicationError = none)
    (hdec : c.decrypted = true) (hm : Message 7 readings d)
    (hr : ∀ r ∈ readings, Readable r) :
    ∃ o, finish cfg aes protocol frame data normalized stripped payload parsed link options = .ok o ∧
      o.decodeState = "complete".toList ∧ List.Forall₂ Shown readings o.records := by
  obtain ⟨rs, h1, h2⟩ := message_items cfg readings d hm hr
  have h := C54_no_error cfg (DataRecords.new d false) rs h1
  unfold finish
  rw [hc]
  simp only [buildOutput, hrec, h]
  exact ⟨_, rfl, by simp [he, hdec], shown_outputs readings rs h2⟩

/-- C123 for telegrams with a long header whose data the meter encrypted in mode 5 or 7: with its key the readings are
shown as for unencrypted data. -/
theorem C123_sealed_partial (cfg : Cfg) (enc dec : AesBlock) (key : List UInt8)
    (hk : key.length = 16) (hlen : ∀ b, b.length = 16 → (enc key b).length = 16)
    (hinv : ∀ b, b.length = 16 → dec key (enc key b) = b)
    (i0 i1 i2 i3 m0 m1 version device acc st c0 c1 : UInt8) (hb : AllBcd [i0, i1, i2, i3])
    (code : ManufacturerCode) (hcode : ManufacturerCode.fromId (le16 m0 m1) = .ok code)
    (iv : List UInt8) (hiv : CbcIv (c1.toNat % 32) m0 m1 [i0, i1, i2, i3] version device acc iv)
    (blocks : List (List UInt8)) (hbl : ∀ b ∈ blocks, b.length = 16) (hne : blocks ≠ [])
    (tail : List UInt8) (ht : tail.length < 16) (data : List UInt8) (link : Option ManufacturerId)
    (hs : Telegram data link ([0x72, i0, i1, i2, i3, m0, m1, version, device, acc, st, c0, c1] ++
        (cbcEncrypt enc key iv blocks ++ tail)))
    (readings : List MeterReading) (hm : Message 7 readings (blocks.flatten ++ tail))
    (hr : ∀ r ∈ readings, Readable r) (enrich : Bool) :
    ∃ o, decodeBytes cfg dec data ⟨some key, enrich⟩ = .ok o ∧ o.decodeState = "complete".toList ∧
      List.Forall₂ Shown readings o.records := by
  have hsz := telegram_length _ _ _ hs
  have hivl : iv.length = 16 := by cases hiv <;> simp [headerIv]
  rw [List.length_append, List.length_append, cbcEncrypt_length enc key hlen blocks iv hivl hbl] at hsz
  obtain ⟨pr, fr, no, sp, hd⟩ := decode_telegram cfg dec data link _ hs
  have u := (C32_accepts_iff _ _).2 (.long false i0 i1 i2 i3 m0 m1 version device acc st c0 c1
    (cbcEncrypt enc key iv blocks ++ tail) hb)
  rw [show longCi false = 0x72 from rfl] at u
  rw [hd, u]
  exact finish_shown _ _ _ _ _ _ _ _ _ _ _ _ _ readings
    (prepare_long enc dec key hk hlen hinv none _ code hcode iv
      (headerIv_context m0 m1 i0 i1 i2 i3 version device acc st c0 c1 hb code hcode iv hiv)
      blocks hbl hne tail ht (by simp at hsz; omega) link) rfl rfl rfl hm hr

/-- C123 for encrypted wireless telegrams with a short header, where the meter address is in the link layer. -/
theorem C123_sealed_short_partial (cfg : Cfg) (enc dec : AesBlock) (key : List UInt8)
    (hk : key.length = 16) (hlen : ∀ b, b.length = 16 → (enc key b).length = 16)
    (hinv : ∀ b, b.length = 16 → dec key (enc key b) = b)
    (ci acc st c0 c1 : UInt8) (hci : isShortCi ci)
    (link : ManufacturerId) (m0 m1 d0 d1 d2 d3 device : UInt8) (hb : AllBcd [d0, d1, d2, d3])
    (hcode : ManufacturerCode.fromId (le16 m0 m1) = .ok link.manufacturerCode)
    (hid : link.identificationNumber = bcdValue [d0, d1, d2, d3])
    (hdev : link.deviceType = DeviceType.fromByte device)
    (iv : List UInt8) (hiv : CbcIv (c1.toNat % 32) m0 m1 [d0, d1, d2, d3] link.version device acc iv)
    (blocks : List (List UInt8)) (hbl : ∀ b ∈ blocks, b.length = 16) (hne : blocks ≠ [])
    (tail : List UInt8) (ht : tail.length < 16) (data : List UInt8)
    (hs : Telegram data (some link) ([ci, acc, st, c0, c1] ++ (cbcEncrypt enc key iv blocks ++ tail)))
    (readings : List MeterReading) (hm : Message 7 readings (blocks.flatten ++ tail))
    (hr : ∀ r ∈ readings, Readable r) (enrich : Bool) :
    ∃ o, decodeBytes cfg dec data ⟨some key, enrich⟩ = .ok o ∧ o.decodeState = "complete".toList ∧
      List.Forall₂ Shown readings o.records := by
  have hsz := telegram_length _ _ _ hs
  have hivl : iv.length = 16 := by cases hiv <;> simp [headerIv]
  rw [List.length_append, List.length_append, cbcEncrypt_length enc key hlen blocks iv hivl hbl] at hsz
  obtain ⟨pr, fr, no, sp, hd⟩ := decode_telegram cfg dec data (some link) _ hs
  have u := (C32_accepts_iff _ _).2 (.short ci acc st c0 c1 (cbcEncrypt enc key iv blocks ++ tail) hci)
  rw [hd, u]
  have hmm := headerIv_context m0 m1 d0 d1 d2 d3 link.version device acc st c0 c1 hb _ hcode iv hiv
  rw [← hid, ← hdev] at hmm
  obtain ⟨l, hl⟩ := prepare_short enc dec key hk hlen hinv none ⟨acc, st, ⟨le16 c0 c1⟩⟩ link iv hmm
    blocks hbl hne tail ht (by simp at hsz; omega)
  exact finish_shown _ _ _ _ _ _ _ _ _ _ _ _ _ readings hl rfl rfl rfl hm hr

/-- An energy of -1500 Wh in the second tariff as a binary number, a volume flow as BCD, the serial number as text, a
maximum of the current last month, an energy of 1.5 Wh as a real, a date and a volume without data, with fillers. -/
def sentReadings : List MeterReading :=
  [⟨0, 0, 1, 0, [0x03], .number (-1500)⟩, ⟨0, 0, 0, 0, [0x3B, 0x74], .number 1234⟩,
    ⟨0, 0, 0, 0, [0x78], .text ['A', '7']⟩, ⟨1, 1, 0, 0, [0x7D, 0x59], .number 42⟩,
    ⟨0, 0, 0, 0, [0x03], .real 0x3FC00000⟩, ⟨0, 1, 0, 0, [0x6C], .date 15 6 24⟩, ⟨0, 0, 0, 0, [0x13], .nothing⟩]

def sentData : List UInt8 :=
  [0x2F, 0x2F, 0x82, 0x10, 0x03, 0x24, 0xFA, 0x0A, 0xBB, 0x74, 0x34, 0x12, 0x0D, 0x78, 0x02, 0x37, 0x41,
    0x2F, 0x5D, 0xFD, 0x59, 0xE1, 0x2A, 0x05, 0x03, 0x00, 0x00, 0xC0, 0x3F, 0x42, 0x6C, 0x0F, 0x36, 0x00, 0x13]

theorem sent_example : Message 7 sentReadings sentData := by
  have r1 := Sent.record (bcdBytes := 7) ⟨0, 0, 1, 0, [0x03], .number (-1500)⟩ 1 2 _ (by decide) (by decide)
    (by decide) (by decide) (by decide) (by decide) (by decide) (.binary 2 2 (-1500) (by decide) (by decide) (by decide))
  have r2 := Sent.record (bcdBytes := 7) ⟨0, 0, 0, 0, [0x3B, 0x74], .number 1234⟩ 0 10 _ (by decide) (by decide)
    (by decide) (by decide) (by decide) (by decide) (by decide) (.bcd 10 2 1234 (by decide) (by decide))
  have r3 := Sent.record (bcdBytes := 7) ⟨0, 0, 0, 0, [0x78], .text ['A', '7']⟩ 0 13 _ (by decide) (by decide)
    (by decide) (by decide) (by decide) (by decide) (by decide) (.text ['A', '7'] (by decide))
  have r4 := Sent.record (bcdBytes := 7) ⟨1, 1, 0, 0, [0x7D, 0x59], .number 42⟩ 0 13 _ (by decide) (by decide)
    (by decide) (by decide) (by decide) (by decide) (by decide)
    (.variableBinary 1 42 (by decide) (by decide) (by decide) (by decide))
  have r5 := Sent.record (bcdBytes := 7) ⟨0, 0, 0, 0, [0x03], .real 0x3FC00000⟩ 0 5 _ (by decide) (by decide)
    (by decide) (by decide) (by decide) (by decide) (by decide) (.real 0x3FC00000 (by decide))
  have r6 := Sent.record (bcdBytes := 7) ⟨0, 1, 0, 0, [0x6C], .date 15 6 24⟩ 0 2 _ (by decide) (by decide)
    (by decide) (by decide) (by decide) (by decide) (by decide) (.date 15 6 24 (by decide) (by decide) (by decide))
  have r7 := Sent.record (bcdBytes := 7) ⟨0, 0, 0, 0, [0x13], .nothing⟩ 0 0 _ (by decide) (by decide)
    (by decide) (by decide) (by decide) (by decide) (by decide) .nothing
  have := Message.filler _ _ (.filler _ _ (.reading _ _ _ _ r1 (.reading _ _ _ _ r2 (.reading _ _ _ _ r3
    (.filler _ _ (.reading _ _ _ _ r4 (.reading _ _ _ _ r5 (.reading _ _ _ _ r6 (.reading _ _ _ _ r7 .nil)))))))))
  exact this

example (cfg : Cfg) (aes : AesBlock) (options : DecodeOptions) :
    ∃ o, decodeBytes cfg aes (olderWired 0 sentData) options = .ok o ∧ o.decodeState = "complete".toList ∧
      List.Forall₂ Shown sentReadings o.records :=
  C123_clear_partial cfg aes _ none _ sentData options sentReadings
    (wired_telegram _ ([0x72, 0x78, 0x56, 0x34, 0x12, 0x93, 0x15, 0x33, 0x03, 0x2A, 0x00, 0x00, 0] ++ sentData)
      (.rspUd false false) (.primary 5) (by decide +kernel))
    (.long false 0x78 0x56 0x34 0x12 0x93 0x15 0x33 0x03 0x2A 0x00 0x00 0 _ (by decide +kernel) (by decide))
    sent_example (by decide +kernel)

/-- The same readings with three bytes of the manufacturer after them. -/
example (cfg : Cfg) (aes : AesBlock) (options : DecodeOptions) :
    ∃ o rs last, decodeBytes cfg aes (olderWired 0 (sentData ++ [0x0F, 1, 2, 3])) options = .ok o ∧
      o.decodeState = "complete".toList ∧ o.records = rs ++ [last] ∧ List.Forall₂ Shown sentReadings rs ∧
      last.function = "Manufacturer specific".toList ∧ last.value = ⟨"manufacturer_specific".toList, none⟩ ∧
      last.unit = none ∧ last.quantities = [] ∧ ShowsBytes last [0x0F, 1, 2, 3] :=
  C123_tail_partial cfg aes _ none _ sentData 0x0F [1, 2, 3] options sentReadings
    (wired_telegram _ ([0x72, 0x78, 0x56, 0x34, 0x12, 0x93, 0x15, 0x33, 0x03, 0x2A, 0x00, 0x00, 0] ++
      (sentData ++ [0x0F, 1, 2, 3])) (.rspUd false false) (.primary 5) (by decide +kernel)) (.inl rfl)
    (.long false 0x78 0x56 0x34 0x12 0x93 0x15 0x33 0x03 0x2A 0x00 0x00 0 _ (by decide +kernel) (by decide))
    sent_example (by decide +kernel)

/-- The same readings, in two blocks and a rest, of a telegram in mode 5; here with byte-wise complement as the
block cipher. -/
example : ∃ o, decodeBytes cfgRelease (fun _ b => b.map (~~~ ·))
      (olderWired 5 (cbcEncrypt (fun _ b => b.map (~~~ ·)) (List.replicate 16 1)
        (headerIv 0x93 0x15 [0x78, 0x56, 0x34, 0x12] 0x33 0x03 0x2A) [sentData.take 16, (sentData.drop 16).take 16] ++ sentData.drop 32))
      ⟨some (List.replicate 16 1), true⟩ = .ok o ∧ o.decodeState = "complete".toList ∧
      List.Forall₂ Shown sentReadings o.records :=
  C123_sealed_partial cfgRelease (fun _ b => b.map (~~~ ·)) (fun _ b => b.map (~~~ ·))
    (List.replicate 16 1) (by simp) (by simp) (by intro b _; simp [Function.comp_def])
    0x78 0x56 0x34 0x12 0x93 0x15 0x33 0x03 0x2A 0 0 5 (by decide +kernel) ⟨69, 76, 83⟩ (by decide +kernel) _ (.address rfl)
    [sentData.take 16, (sentData.drop 16).take 16] (by decide) (by simp) (sentData.drop 32) (by decide) _ none
    (wired_telegram _ _ (.rspUd false false) (.primary 5) (by decide +kernel))
    sentReadings (by simpa [sentData] using sent_example) (by decide +kernel) true

/-- One record, alone in a telegram. -/
theorem single_record (cfg : Cfg) (aes : AesBlock) (options : DecodeOptions) (record : List UInt8)
    (link : Option ManufacturerId) (data payload : List UInt8) (ht : Telegram data link payload)
    (hc : ClearData payload record) (rec : DataRecord) (hp : DataRecord.parse cfg false record = .ok rec)
    (hraw : rec.rawBytes = record) (hb : ∀ b ∈ record.head?, b.toNat % 16 ≠ 15) :
    ∃ o, decodeBytes cfg aes data options = .ok o ∧ o.records = [recordOutput 0 rec] := by
  obtain ⟨⟨rest, _⟩, hne⟩ := raw_prefix cfg false record rec hp
  have hi : parseDataRecords cfg false record = [rec].map .ok := by
    rw [C27_items]
    cases record with
    | nil => rw [hraw] at hne; exact absurd rfl hne
    | cons b record =>
      have hsk : ¬ isSkipped b := fun h => hb b (by simp) h.1
      exact .record b record [] rec _ hsk hp (by rw [hraw]; simp) hne .nil
  obtain ⟨o, h1, h2, _⟩ := (clear_decode cfg aes data link payload record options ht hc).1 [rec] hi
  exact ⟨o, h1, h2⟩

/-- C123 is false for other readings.  A volume of storage number 2 is shown with storage number 32, an energy in MWh
(FB 00) with a unit that is no energy and a real of 1 kWh as 1 Wh, and the decoding crashes on an energy with five combinable codes. -/
theorem C123_fails (cfg : Cfg) (aes : AesBlock) (options : DecodeOptions) :
    (∀ r ∈ [(⟨0, 2, 0, 0, [0x13], .number 5⟩ : MeterReading), ⟨0, 0, 0, 0, [0x7B, 0x00], .number 5⟩,
        ⟨0, 0, 0, 0, [0x06], .real 0x3F800000⟩],
      ∃ record data payload, Sent 9 r record ∧ Telegram data none payload ∧ ClearData payload record ∧
        (codeMeanings r.codes).isSome ∧
        ∃ o, decodeBytes cfg aes data options = .ok o ∧ ¬ List.Forall₂ Shown [r] o.records) ∧
    ∃ r record data payload, Sent 9 r record ∧ Telegram data none payload ∧ ClearData payload record ∧
      (codeMeanings r.codes).isSome ∧ decodeBytes cfg aes data options = .panic := by
  have tel : ∀ record, WiredFrame.tryFrom cfgRelease (olderWired 0 record) = .ok (.longFrame (.rspUd false false) (.primary 5)
      ([0x72, 0x78, 0x56, 0x34, 0x12, 0x93, 0x15, 0x33, 0x03, 0x2A, 0x00, 0x00, 0] ++ record)) →
      Telegram (olderWired 0 record) none
        ([0x72, 0x78, 0x56, 0x34, 0x12, 0x93, 0x15, 0x33, 0x03, 0x2A, 0x00, 0x00, 0] ++ record) ∧
      ClearData ([0x72, 0x78, 0x56, 0x34, 0x12, 0x93, 0x15, 0x33, 0x03, 0x2A, 0x00, 0x00, 0] ++ record) record := by
    intro record h
    exact ⟨wired_telegram _ _ (.rspUd false false) (.primary 5) h,
      .long false 0x78 0x56 0x34 0x12 0x93 0x15 0x33 0x03 0x2A 0x00 0x00 0 _ (by decide +kernel) (by decide)⟩
  have field := Field.binary (bcdBytes := 9) 1 1 5 (by decide) (by decide) (by decide)
  have parse : ∀ (data : List UInt8) (p : DataRecord → Bool),
      (DataRecord.parse cfg false data).toOption.any (fun r => decide (r.rawBytes = data) && p r) = true →
      ∃ r, DataRecord.parse cfg false data = .ok r ∧ r.rawBytes = data ∧ p r = true := by
    intro data p h
    cases hp : DataRecord.parse cfg false data with
    | ok r => rw [hp] at h; exact ⟨r, rfl, by simpa [Res.toOption] using h⟩
    | err e => rw [hp] at h; simp [Res.toOption] at h
    | panic => rw [hp] at h; simp [Res.toOption] at h
  refine ⟨?_, ?_⟩
  · intro r hr
    simp only [List.mem_cons, List.not_mem_nil, or_false] at hr
    rcases hr with rfl | rfl | rfl
    · have hsent := Sent.record (bcdBytes := 9) ⟨0, 2, 0, 0, [0x13], .number 5⟩ 1 1 _ (by decide) (by decide)
        (by decide) (by decide) (by decide) (by decide) (by decide) field
      obtain ⟨t1, t2⟩ := tel [0x81, 0x01, 0x13, 0x05] (by decide +kernel)
      obtain ⟨rec, p1, p2, p3⟩ := parse [0x81, 0x01, 0x13, 0x05] (fun r => (recordOutput 0 r).storageNumber == 32) (by
        obtain ⟨oc, tf⟩ := cfg; cases oc <;> cases tf <;> decide +kernel)
      obtain ⟨o, h1, h2⟩ := single_record cfg aes options _ _ _ _ t1 t2 rec p1 p2 (by simp)
      refine ⟨_, _, _, hsent, t1, t2, by decide +kernel, o, h1, ?_⟩
      rw [h2]
      rintro (_ | ⟨h, _⟩)
      have hst := h.2.1
      rw [show (recordOutput 0 rec).storageNumber = 32 from eq_of_beq p3] at hst
      exact absurd hst (by decide)
    · have hsent := Sent.record (bcdBytes := 9) ⟨0, 0, 0, 0, [0x7B, 0x00], .number 5⟩ 0 1 _ (by decide) (by decide)
        (by decide) (by decide) (by decide) (by decide) (by decide) field
      obtain ⟨t1, t2⟩ := tel [0x01, 0xFB, 0x00, 0x05] (by decide +kernel)
      obtain ⟨rec, p1, p2, p3⟩ := parse [0x01, 0xFB, 0x00, 0x05] (fun r => (recordOutput 0 r).unit ==
        some (unitOutput [⟨.watt, 3⟩, ⟨.hour, -1⟩])) (by
        obtain ⟨oc, tf⟩ := cfg; cases oc <;> cases tf <;> decide +kernel)
      obtain ⟨o, h1, h2⟩ := single_record cfg aes options _ _ _ _ t1 t2 rec p1 p2 (by simp)
      refine ⟨_, _, _, hsent, t1, t2, by decide +kernel, o, h1, ?_⟩
      rw [h2]
      rintro (_ | ⟨h, _⟩)
      obtain ⟨_, _, _, _, es, h3, _, _, _, h4⟩ := h
      have h5 : codeMeanings [0x7B, 0x00] = some [{ units := [⟨.watt, 1⟩, ⟨.hour, 1⟩], labels := [.energy], scale := 5 }] := by
        decide +kernel
      have h6 : [{ units := [⟨.watt, 1⟩, ⟨.hour, 1⟩], labels := [.energy], scale := 5 }] = es :=
        Option.some.inj (h5.symm.trans h3)
      subst h6
      obtain ⟨text, h7, h8⟩ := h4 (by simp [total])
      rw [show (recordOutput 0 rec).unit = some (unitOutput [⟨.watt, 3⟩, ⟨.hour, -1⟩]) from eq_of_beq p3] at h7
      cases h7
      have h9 := term_unique (h8 (by decide +kernel)) (unitOutput_term [⟨.watt, 3⟩, ⟨.hour, -1⟩] (by simp) (by decide +kernel))
      revert h9
      decide +kernel
    · have hsent := Sent.record (bcdBytes := 9) ⟨0, 0, 0, 0, [0x06], .real 0x3F800000⟩ 0 5 _ (by decide) (by decide)
        (by decide) (by decide) (by decide) (by decide) (by decide) (.real 0x3F800000 (by decide))
      obtain ⟨t1, t2⟩ := tel [0x05, 0x06, 0x00, 0x00, 0x80, 0x3F] (by decide +kernel)
      obtain ⟨rec, p1, p2, p3⟩ := parse [0x05, 0x06, 0x00, 0x00, 0x80, 0x3F] (fun r =>
        match (recordOutput 0 r).value.value with | some (.real b) => b == 0x3F800000 | _ => false) (by
        obtain ⟨oc, tf⟩ := cfg; cases oc <;> cases tf <;> decide +kernel)
      obtain ⟨o, h1, h2⟩ := single_record cfg aes options _ _ _ _ t1 t2 rec p1 p2 (by simp)
      refine ⟨_, _, _, hsent, t1, t2, by decide +kernel, o, h1, ?_⟩
      rw [h2]
      rintro (_ | ⟨h, _⟩)
      obtain ⟨_, _, _, _, es, h3, h4, _⟩ := h
      have h5 : codeMeanings [0x06] = some [{ units := [⟨.watt, 1⟩, ⟨.hour, 1⟩], labels := [.energy], scale := 3 }] := by
        decide +kernel
      have h6 : [{ units := [⟨.watt, 1⟩, ⟨.hour, 1⟩], labels := [.energy], scale := 3 }] = es :=
        Option.some.inj (h5.symm.trans h3)
      subst h6
      simp only [ShownValue] at h4
      rw [if_neg (by decide)] at h4
      obtain ⟨b, hb, _, hv⟩ := h4
      rw [hb] at p3
      have hb' : b = 0x3F800000 := eq_of_beq p3
      subst hb'
      rw [show (0x3F800000 : UInt32).toNat = 0x3F800000 from rfl] at hv
      norm_num [realValue, total] at hv
  · have hsent := Sent.record (bcdBytes := 9) ⟨0, 0, 0, 0, [0x03, 0x28, 0x28, 0x28, 0x28, 0x28], .number 5⟩ 0 1 _ (by decide)
      (by decide) (by decide) (by decide) (by decide) (by decide) (by decide) field
    obtain ⟨t1, t2⟩ := tel [0x01, 0x83, 0xA8, 0xA8, 0xA8, 0xA8, 0x28, 0x05] (by decide +kernel)
    refine ⟨_, _, _, _, hsent, t1, t2, by decide +kernel, ?_⟩
    apply (clear_decode cfg aes _ _ _ _ options t1 t2).2.2 []
    rw [C27_items]
    have hp : DataRecord.parse cfg false [0x01, 0x83, 0xA8, 0xA8, 0xA8, 0xA8, 0x28, 0x05] = .panic := by
      obtain ⟨oc, tf⟩ := cfg; cases oc <;> cases tf <;> decide +kernel
    have := Items.fail (parse := DataRecord.parse cfg false) 0x01 [0x83, 0xA8, 0xA8, 0xA8, 0xA8, 0x28, 0x05] (by decide)
      (by rw [hp]; simp)
    rwa [hp] at this

end MBus
