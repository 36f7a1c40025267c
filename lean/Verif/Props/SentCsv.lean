import Verif.Spec.SentCsv
import Verif.Props.SentJson
import Verif.Props.CsvText
/-!
# C134: what a meter sends is in the CSV
-/
namespace MBus
open MBus.Spec

theorem shown_csv (env : TextEnv) (r : MeterReading) (o : RecordOutput) (cell : String → Option (List Char))
    (h : Shown r o) (hf : ∀ f ∈ recordColumns env o, cell f.1 = some f.2) : CsvShows env.realText r cell := by
  obtain ⟨h1, h2, h3, h4, es, h5, h6, h7, h8, h9⟩ := h
  have k1 := hf ("function", o.function) (by simp [recordColumns])
  have k2 := hf ("storage_number", (toString o.storageNumber).toList) (by simp [recordColumns])
  have k3 := hf ("tariff", (toString o.tariff).toList) (by simp [recordColumns])
  have k4 := hf ("subunit", (toString o.subunit).toList) (by simp [recordColumns])
  have k5 := hf ("quantities", ['|'].intercalate o.quantities) (by simp [recordColumns])
  have k6 := hf ("value_type", o.value.kind) (by simp [recordColumns])
  have k7 := hf ("value", valueDisplay env o) (by simp [recordColumns])
  have k8 := hf ("unit", o.unit.getD []) (by simp [recordColumns])
  refine ⟨⟨_, h1, k1⟩, by rw [k2, h2], by rw [k3, h3], by rw [k4, h4], es, h5, ?_, ?_, ?_, ?_⟩
  · simp only at k6 k7
    rw [k6, k7]
    unfold valueDisplay
    generalize o.value = v at h6
    generalize r.content = c at h6
    cases c with
    | number i =>
      obtain ⟨text, rfl, h⟩ := h6
      exact ⟨rfl, text, rfl, h⟩
    | text t => cases h6; exact ⟨rfl, rfl⟩
    | real bits =>
      simp only [ShownValue] at h6
      simp only [CsvValue]
      split at h6
      · rename_i hi
        rw [if_pos hi]
        subst h6
        exact ⟨rfl, rfl⟩
      · rename_i hi
        rw [if_neg hi]
        obtain ⟨b, rfl, h⟩ := h6
        exact ⟨rfl, b, rfl, h⟩
    | date d m y => cases h6; exact ⟨rfl, rfl⟩
    | dateTime => cases h6; exact ⟨rfl, rfl⟩
    | nothing =>
      cases h6
      refine ⟨rfl, ?_⟩
      have e1 : ¬ "none".toList = "manufacturer_specific".toList := by decide +kernel
      simp only [if_neg e1, if_true]
  · simp only at k5
    rw [k5, h7]
  · intro hu
    rw [k8, h8 hu]
    rfl
  · intro hu
    obtain ⟨text, h, h'⟩ := h9 hu
    exact ⟨text, by rw [k8, h]; rfl, h'⟩

theorem decoded_csv (cfg : Cfg) (env : TextEnv) (aes : AesBlock) (data : List UInt8) (options : DecodeOptions)
    (readings : List MeterReading) (o : DecodedOutput)
    (h : decodeBytes cfg aes data options = .ok o) (hs : o.decodeState = "complete".toList)
    (hr : List.Forall₂ Shown readings o.records) :
    ∃ text, renderCsv env o = some text ∧ CsvReadings env.realText readings text := by
  have hl : readings.length = o.records.length := hr.length_eq
  have hidx := C89_indices cfg aes data options o h
  have hi : (o.records.map (·.index)).Nodup := hidx ▸ List.nodup_range
  obtain ⟨text, e, g⟩ := C113_csv env o
  obtain ⟨h1, h2⟩ := C92_rows env o
  refine ⟨text, e, _, _, g, C92_distinct env o hi, by rw [h1, hl], h2.trans h1.symm, ?_, ?_, ?_⟩
  · have := C92_frame env o hi "decode_state" o.decodeState (by simp [frameColumns])
    rw [← hs]
    exact this
  · have := C92_frame env o hi "record_count" (toString o.records.length).toList (by simp [frameColumns])
    rw [hl]
    exact this
  · intro i hi'
    have hi'' : i < o.records.length := by omega
    have hx : o.records[i].index = i := by
      have := congrArg (fun l => l[i]?) hidx
      simp [hi''] at this
      exact this
    refine shown_csv env _ o.records[i] _ (List.Forall₂.get hr hi' hi'') (fun f hf => ?_)
    have := C92_record env o hi o.records[i] (List.getElem_mem hi'') f.1 f.2 hf
    rw [hx] at this
    exact this

theorem csv_everywhere (cfg : Cfg) (env : CliEnv) (aes : AesBlock) (text : List Char) (data : List UInt8)
    (keyText : Option (List Char)) (key : Option (List UInt8)) (enrichment : Bool) (readings : List MeterReading)
    (ht : Spelled text data) (hk : KeyGiven keyText key)
    (h : ∃ o, decodeBytes cfg aes data ⟨key, enrichment⟩ = .ok o ∧ o.decodeState = "complete".toList ∧
      List.Forall₂ Shown readings o.records) :
    AnsweredWell cfg env aes text keyText enrichment "csv" (CsvReadings env.front.text.realText readings) := by
  obtain ⟨o, h1, h2, h3⟩ := h
  obtain ⟨out, j1, j2⟩ := decoded_csv cfg env.front.text aes data ⟨key, enrichment⟩ readings o h1 h2 h3
  exact answered_well cfg env aes text data keyText key enrichment "csv" .csv (by decide +kernel) _ ht hk
    (fun width => ⟨out, by simp [renderBytes, h1, renderDecoded, Res.mapErr, j1], j2⟩)

/-- C134: for a telegram with unencrypted data, given as text in any spelling, the command line program, JavaScript and
Python give a CSV text with exactly the readings the meter sent.  Missing are the readings that are shown wrong
(`C123_fails`). -/
theorem C134_clear_partial (cfg : Cfg) (env : CliEnv) (aes : AesBlock) (text : List Char) (data : List UInt8)
    (link : Option ManufacturerId) (payload d : List UInt8) (keyText : Option (List Char)) (key : Option (List UInt8))
    (enrichment : Bool) (readings : List MeterReading) (hx : Spelled text data) (hk : KeyGiven keyText key)
    (ht : Telegram data link payload) (hd : ClearData payload d) (hm : Message 7 readings d)
    (hr : ∀ r ∈ readings, Readable r) :
    AnsweredWell cfg env aes text keyText enrichment "csv" (CsvReadings env.front.text.realText readings) :=
  csv_everywhere cfg env aes text data keyText key enrichment readings hx hk
    (C123_clear_partial cfg aes data link payload d ⟨key, enrichment⟩ readings ht hd hm hr)

/-- The readings of `sentReadings` in a telegram typed as pairs of digits, without a key. -/
example (cfg : Cfg) (front : FrontEnv) (aes : AesBlock) (enrichment : Bool) :
    AnsweredWell cfg (oneFile front "t.hex".toList []) aes (hexString (olderWired 0 sentData)) none enrichment
      "csv" (CsvReadings front.text.realText sentReadings) :=
  C134_clear_partial cfg _ aes _ (olderWired 0 sentData) none _ sentData none none enrichment sentReadings
    ((decode_iff _ _).1 (by decide +kernel)) .none
    (wired_telegram _ ([0x72, 0x78, 0x56, 0x34, 0x12, 0x93, 0x15, 0x33, 0x03, 0x2A, 0x00, 0x00, 0] ++ sentData)
      (.rspUd false false) (.primary 5) (by decide +kernel))
    (.long false 0x78 0x56 0x34 0x12 0x93 0x15 0x33 0x03 0x2A 0x00 0x00 0 _ (by decide +kernel) (by decide))
    sent_example (by decide +kernel)

/-- C134 for telegrams with a long header whose data the meter encrypted with AES-128 in mode 5 or 7. -/
theorem C134_aes_partial (cfg : Cfg) (env : CliEnv) (text keyText : List Char) (key : List UInt8) (hkey : KeyText keyText key)
    (i0 i1 i2 i3 m0 m1 version device acc st c0 c1 : UInt8) (hb : AllBcd [i0, i1, i2, i3])
    (code : ManufacturerCode) (hcode : ManufacturerCode.fromId (le16 m0 m1) = .ok code)
    (iv : List UInt8) (hiv : CbcIv (c1.toNat % 32) m0 m1 [i0, i1, i2, i3] version device acc iv)
    (blocks : List (List UInt8)) (hbl : ∀ b ∈ blocks, b.length = 16) (hne : blocks ≠ [])
    (tail : List UInt8) (ht : tail.length < 16) (data : List UInt8) (link : Option ManufacturerId)
    (hx : Spelled text data)
    (hs : Telegram data link ([0x72, i0, i1, i2, i3, m0, m1, version, device, acc, st, c0, c1] ++
        (cbcEncrypt Aes.encrypt key iv blocks ++ tail)))
    (readings : List MeterReading) (hm : Message 7 readings (blocks.flatten ++ tail))
    (hr : ∀ r ∈ readings, Readable r) (enrich : Bool) :
    AnsweredWell cfg env Aes.aes128 text (some keyText) enrich "csv" (CsvReadings env.front.text.realText readings) :=
  csv_everywhere cfg env _ text data _ (some key) enrich readings hx (.key keyText key hkey)
    (C123_aes_partial cfg key hkey.1 i0 i1 i2 i3 m0 m1 version device acc st c0 c1 hb code hcode iv hiv blocks hbl hne tail
      ht data link hs readings hm hr enrich)

set_option maxRecDepth 20000 in
/-- The same readings encrypted with the key of the project's tests, typed with blanks between the bytes. -/
example (cfg : Cfg) (front : FrontEnv) :
    AnsweredWell cfg (oneFile front "t.hex".toList []) Aes.aes128
      (hexSpaced (olderWired 5 (cbcEncrypt Aes.encrypt exampleKey (headerIv 0x93 0x15 [0x78, 0x56, 0x34, 0x12] 0x33 0x03 0x2A)
        [sentData.take 16, (sentData.drop 16).take 16] ++ sentData.drop 32)))
      (some "0102030405060708090a0B0c0D0E0F11".toList) true "csv" (CsvReadings front.text.realText sentReadings) :=
  C134_aes_partial cfg _ _ _ exampleKey (((C115_cli_key _).1 _).1 (by decide +kernel))
    0x78 0x56 0x34 0x12 0x93 0x15 0x33 0x03 0x2A 0 0 5 (by decide +kernel) ⟨69, 76, 83⟩ (by decide +kernel) _ (.address rfl)
    [sentData.take 16, (sentData.drop 16).take 16] (by decide) (by simp) (sentData.drop 32) (by decide)
    (olderWired 5 (cbcEncrypt Aes.encrypt exampleKey (headerIv 0x93 0x15 [0x78, 0x56, 0x34, 0x12] 0x33 0x03 0x2A)
        [sentData.take 16, (sentData.drop 16).take 16] ++ sentData.drop 32)) none
    ((decode_iff _ _).1 (by decide +kernel))
    (wired_telegram _ _ (.rspUd false false) (.primary 5) (by decide +kernel))
    sentReadings (by simpa [sentData] using sent_example) (by decide +kernel) true

/-- C134 for encrypted wireless telegrams with a short header. -/
theorem C134_aes_short_partial (cfg : Cfg) (env : CliEnv) (text keyText : List Char) (key : List UInt8)
    (hkey : KeyText keyText key) (ci acc st c0 c1 : UInt8) (hci : isShortCi ci)
    (link : ManufacturerId) (m0 m1 d0 d1 d2 d3 device : UInt8) (hb : AllBcd [d0, d1, d2, d3])
    (hcode : ManufacturerCode.fromId (le16 m0 m1) = .ok link.manufacturerCode)
    (hid : link.identificationNumber = bcdValue [d0, d1, d2, d3])
    (hdev : link.deviceType = DeviceType.fromByte device)
    (iv : List UInt8) (hiv : CbcIv (c1.toNat % 32) m0 m1 [d0, d1, d2, d3] link.version device acc iv)
    (blocks : List (List UInt8)) (hbl : ∀ b ∈ blocks, b.length = 16) (hne : blocks ≠ [])
    (tail : List UInt8) (ht : tail.length < 16) (data : List UInt8) (hx : Spelled text data)
    (hs : Telegram data (some link)
      ([ci, acc, st, c0, c1] ++ (cbcEncrypt Aes.encrypt key iv blocks ++ tail)))
    (readings : List MeterReading) (hm : Message 7 readings (blocks.flatten ++ tail))
    (hr : ∀ r ∈ readings, Readable r) (enrich : Bool) :
    AnsweredWell cfg env Aes.aes128 text (some keyText) enrich "csv" (CsvReadings env.front.text.realText readings) :=
  csv_everywhere cfg env _ text data _ (some key) enrich readings hx (.key keyText key hkey)
    (C123_aes_short_partial cfg key hkey.1 ci acc st c0 c1 hci link m0 m1 d0 d1 d2 d3 device hb hcode hid hdev iv hiv
      blocks hbl hne tail ht data hs readings hm hr enrich)

set_option maxRecDepth 20000 in
example (cfg : Cfg) (front : FrontEnv) :
    AnsweredWell cfg (oneFile front "t.hex".toList []) Aes.aes128 (hexString sealedWireless)
      (some "0102030405060708090a0B0c0D0E0F11".toList) true "csv" (CsvReadings front.text.realText sentReadings) :=
  C134_aes_short_partial cfg _ _ _ exampleKey (((C115_cli_key _).1 _).1 (by decide +kernel))
    0x7A 0x2A 0 0x20 0x05 (Or.inl rfl)
    ⟨⟨71, 87, 70⟩, 12345678, .waterMeter, 0x3C, false⟩ 0xE6 0x1E 0x78 0x56 0x34 0x12 0x07
    (by decide +kernel) (by decide +kernel) (by decide +kernel) (by decide +kernel) _ (.address rfl)
    [sentData.take 16, (sentData.drop 16).take 16] (by decide) (by simp) (sentData.drop 32) (by decide) sealedWireless
    ((decode_iff _ _).1 (by decide +kernel)) (isWireless_telegram _ _ _ (by decide +kernel))
    sentReadings (by simpa [sentData] using sent_example) (by decide +kernel) true

end MBus
