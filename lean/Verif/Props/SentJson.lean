import Verif.Spec.SentJson
import Verif.Props.Sent
import Verif.Props.Aes
import Verif.Props.Json
import Verif.Props.Api
/-!
# C133: what a meter sends is what the user reads
-/
namespace MBus
open MBus.Spec

theorem shown_json (env : TextEnv) (r : MeterReading) (o : RecordOutput) (found : List Step → Option Doc)
    (h : Shown r o) (hf : ∀ f ∈ recordFields env o, found f.1 = f.2) : JsonShows env.realText r found := by
  obtain ⟨h1, h2, h3, h4, es, h5, h6, h7, h8, h9⟩ := h
  have k1 := hf ([.key "function"], some (.str o.function)) (by simp [recordFields])
  have k2 := hf ([.key "storage_number"], some (number o.storageNumber)) (by simp [recordFields])
  have k3 := hf ([.key "tariff"], some (number o.tariff)) (by simp [recordFields])
  have k4 := hf ([.key "subunit"], some (number o.subunit)) (by simp [recordFields])
  have k5 := hf ([.key "quantities"], some (.arr (o.quantities.map Doc.str))) (by simp [recordFields])
  have k6 := hf ([.key "value", .key "kind"], some (.str o.value.kind)) (by simp [recordFields])
  have k7 := hf ([.key "unit"], o.unit.map Doc.str) (by simp [recordFields])
  have k8 : ∀ f ∈ valueFields env o.value.value, found ([.key "value", .key "value"] ++ f.1) = f.2 := by
    intro f hv
    exact hf ([.key "value", .key "value"] ++ f.1, f.2) (by
      unfold recordFields below
      exact List.mem_append_right _ (List.mem_map.2 ⟨f, hv, rfl⟩))
  refine ⟨⟨_, h1, k1⟩, by rw [k2, h2], by rw [k3, h3], by rw [k4, h4], es, h5, ?_, ?_, ?_, ?_⟩
  · simp only at k6
    rw [k6]
    generalize o.value = v at h6 k8
    generalize r.content = c at h6
    have one : ∀ x, valueFields env v.value = [([], x)] → found [.key "value", .key "value"] = x := by
      intro x hx
      have := k8 ([], x) (by rw [hx]; simp)
      simpa using this
    cases c with
    | number i =>
      obtain ⟨text, rfl, h⟩ := h6
      exact ⟨rfl, text, one _ rfl, h⟩
    | text t => cases h6; exact ⟨rfl, one _ rfl⟩
    | real bits =>
      simp only [ShownValue] at h6
      simp only [JsonValue]
      split at h6
      · rename_i hi
        rw [if_pos hi]
        subst h6
        exact ⟨rfl, one _ rfl⟩
      · rename_i hi
        rw [if_neg hi]
        obtain ⟨b, rfl, h⟩ := h6
        exact ⟨rfl, b, one _ rfl, h⟩
    | date d m y => cases h6; exact ⟨rfl, one _ rfl⟩
    | dateTime => cases h6; exact ⟨rfl, one _ rfl⟩
    | nothing => cases h6; exact ⟨rfl, one _ rfl⟩
  · simp only at k5
    rw [k5, h7, List.map_map]
    rfl
  · intro hu
    rw [k7, h8 hu]
    rfl
  · intro hu
    obtain ⟨text, h, h'⟩ := h9 hu
    exact ⟨text, by rw [k7, h]; rfl, h'⟩

theorem decoded_readings (cfg : Cfg) (env : TextEnv) (aes : AesBlock) (data : List UInt8) (options : DecodeOptions)
    (henv : ∀ bits, FiniteReal bits → NumberText (env.realText bits)) (readings : List MeterReading) (o : DecodedOutput)
    (h : decodeBytes cfg aes data options = .ok o) (hs : o.decodeState = "complete".toList)
    (hr : List.Forall₂ Shown readings o.records) :
    JsonReadings env.realText readings (renderJson env o) ∧
      JsonReadings env.realText readings (compactJson (o.doc env)) := by
  obtain ⟨d, h1, h2, -, h4⟩ := C112_json cfg env aes data options o henv h
  have hl : readings.length = o.records.length := hr.length_eq
  have key : follow [.key "decode_state"] d = some (.str "complete".toList) ∧
      (∀ i (h : i < readings.length),
        JsonShows env.realText readings[i] (fun path => follow (.key "records" :: .at i :: path) d)) ∧
      ∀ i, readings.length ≤ i → follow [.key "records", .at i] d = none := by
    refine ⟨?_, ?_, ?_⟩
    · rw [← hs]
      exact h4.fields ([.key "decode_state"], some (.str o.decodeState)) (by simp [telegramFields])
    · intro i hi
      have hi' : i < o.records.length := by omega
      refine shown_json env _ o.records[i] _ ?_ ?_
      · exact List.Forall₂.get hr hi hi'
      · intro f hf
        exact h4.elements ([.key "records"], o.records.map (recordFields env)) (by simp [telegramLists]) i
          (by simpa using hi') f (by simpa using hf)
    · intro i hi
      exact h4.ends ([.key "records"], o.records.map (recordFields env)) (by simp [telegramLists]) i (by simp; omega)
  exact ⟨⟨d, fun d' => ⟨fun h => json_eq h h1, fun h => h ▸ h1⟩, key⟩,
    ⟨d, fun d' => ⟨fun h => json_eq h h2, fun h => h ▸ h2⟩, key⟩⟩

theorem answered_well (cfg : Cfg) (env : CliEnv) (aes : AesBlock) (text : List Char) (data : List UInt8)
    (keyText : Option (List Char)) (key : Option (List UInt8)) (enrichment : Bool) (format : String) (fmt : OutputFormat)
    (hf : OutputFormat.fromStr format.toList = some fmt) (Good : List Char → Prop)
    (ht : Spelled text data) (hk : KeyGiven keyText key)
    (h : ∀ width, ∃ out, renderBytes cfg env.front aes data fmt ⟨⟨key, enrichment⟩, width⟩ = .ok out ∧ Good out) :
    AnsweredWell cfg env aes text keyText enrichment format Good := by
  have hd := (decode_iff text data).2 ht
  have hr : ∀ width, ∃ out, renderHex cfg env.front aes text fmt ⟨⟨key, enrichment⟩, width⟩ = .ok out ∧ Good out := by
    intro width
    simp only [renderHex, hd, Res.mapErr]
    exact h width
  have hk' : (keyText = none ∧ key = none) ∨ ∃ t k, keyText = some t ∧ key = some k ∧ KeyText t k := by
    cases hk with
    | none => exact .inl ⟨rfl, rfl⟩
    | key t k hkt => exact .inr ⟨t, k, rfl, rfl, hkt⟩
  have hsame := fun width => C115_same cfg env.front aes text _ fmt hf keyText key hk' width none enrichment
  refine ⟨?_, ?_, ?_⟩
  · intro file data' width detected hboth hi
    obtain ⟨out, h1, h2⟩ := hr (width.or detected)
    refine ⟨out, (C128_success cfg env aes file data' hboth _ _ _).2 ⟨rfl, text, fmt, key, hi, hf, hk, ?_⟩, h2⟩
    unfold cliRenderOptions
    simp only [Bool.not_not]
    cases width <;> exact h1
  · intro width
    obtain ⟨out, h1, h2⟩ := hr width
    refine ⟨out, ?_, h2⟩
    have := (hsame width).2.1
    rw [Option.or_none] at this
    rw [this, h1]
  · intro width
    obtain ⟨out, h1, h2⟩ := hr width
    refine ⟨out, ?_, h2⟩
    have := (hsame width).2.2
    rw [Option.or_none] at this
    rw [this, h1]
    rfl

theorem read_everywhere (cfg : Cfg) (env : CliEnv) (aes : AesBlock) (text : List Char) (data : List UInt8)
    (keyText : Option (List Char)) (key : Option (List UInt8)) (enrichment : Bool) (readings : List MeterReading)
    (henv : ∀ bits, FiniteReal bits → NumberText (env.front.text.realText bits))
    (ht : Spelled text data) (hk : KeyGiven keyText key)
    (h : ∃ o, decodeBytes cfg aes data ⟨key, enrichment⟩ = .ok o ∧ o.decodeState = "complete".toList ∧
      List.Forall₂ Shown readings o.records) :
    ReadEverywhere cfg env aes text keyText enrichment readings := by
  obtain ⟨o, h1, h2, h3⟩ := h
  obtain ⟨j1, j2⟩ := decoded_readings cfg env.front.text aes data ⟨key, enrichment⟩ henv readings o h1 h2 h3
  refine ⟨answered_well cfg env aes text data keyText key enrichment "json" .json (by decide +kernel) _ ht hk
    (fun width => ⟨_, by simp [renderBytes, h1, renderDecoded, Res.mapErr], j1⟩), _, ?_, j2⟩
  have hp : pyKey (keyText.map .text) = .ok key := by
    cases hk with
    | none => rfl
    | key t k hkt => exact (C115_same_key t k (((C115_cli_key t).1 k).2 hkt)).2.1
  simp [pyParse, pyBytes_text, (decode_iff text data).2 ht, hp, h1, Res.mapErr]

/-- C133: for a telegram with unencrypted data, given as text in any spelling, the command line program, JavaScript and
Python give a JSON text with exactly the readings the meter sent.  Missing are the readings that are shown wrong
(`C123_fails`). -/
theorem C133_clear_partial (cfg : Cfg) (env : CliEnv) (aes : AesBlock) (text : List Char) (data : List UInt8)
    (link : Option ManufacturerId) (payload d : List UInt8) (keyText : Option (List Char)) (key : Option (List UInt8))
    (enrichment : Bool) (readings : List MeterReading)
    (henv : ∀ bits, FiniteReal bits → NumberText (env.front.text.realText bits))
    (hx : Spelled text data) (hk : KeyGiven keyText key)
    (ht : Telegram data link payload) (hd : ClearData payload d) (hm : Message 7 readings d)
    (hr : ∀ r ∈ readings, Readable r) :
    ReadEverywhere cfg env aes text keyText enrichment readings :=
  read_everywhere cfg env aes text data keyText key enrichment readings henv hx hk
    (C123_clear_partial cfg aes data link payload d ⟨key, enrichment⟩ readings ht hd hm hr)

/-- The readings of `sentReadings` in a telegram typed as pairs of digits, without a key. -/
example (cfg : Cfg) (front : FrontEnv) (hf : front.text = sampleEnv) (aes : AesBlock) (enrichment : Bool) :
    ReadEverywhere cfg (oneFile front "t.hex".toList []) aes (hexString (olderWired 0 sentData)) none enrichment
      sentReadings :=
  C133_clear_partial cfg _ aes _ (olderWired 0 sentData) none _ sentData none none enrichment sentReadings
    (by intro bits h; show NumberText (front.text.realText bits); rw [hf]; exact sampleEnv_numbers bits h)
    ((decode_iff _ _).1 (by decide +kernel)) .none
    (wired_telegram _ ([0x72, 0x78, 0x56, 0x34, 0x12, 0x93, 0x15, 0x33, 0x03, 0x2A, 0x00, 0x00, 0] ++ sentData)
      (.rspUd false false) (.primary 5) (by decide +kernel))
    (.long false 0x78 0x56 0x34 0x12 0x93 0x15 0x33 0x03 0x2A 0x00 0x00 0 _ (by decide +kernel) (by decide))
    sent_example (by decide +kernel)

/-- C133 for telegrams with a long header whose data the meter encrypted with AES-128 in mode 5 or 7. -/
theorem C133_aes_partial (cfg : Cfg) (env : CliEnv) (text keyText : List Char) (key : List UInt8) (hkey : KeyText keyText key)
    (i0 i1 i2 i3 m0 m1 version device acc st c0 c1 : UInt8) (hb : AllBcd [i0, i1, i2, i3])
    (code : ManufacturerCode) (hcode : ManufacturerCode.fromId (le16 m0 m1) = .ok code)
    (iv : List UInt8) (hiv : CbcIv (c1.toNat % 32) m0 m1 [i0, i1, i2, i3] version device acc iv)
    (blocks : List (List UInt8)) (hbl : ∀ b ∈ blocks, b.length = 16) (hne : blocks ≠ [])
    (tail : List UInt8) (ht : tail.length < 16) (data : List UInt8) (link : Option ManufacturerId)
    (hx : Spelled text data)
    (hs : Telegram data link ([0x72, i0, i1, i2, i3, m0, m1, version, device, acc, st, c0, c1] ++
        (cbcEncrypt Aes.encrypt key iv blocks ++ tail)))
    (readings : List MeterReading) (hm : Message 7 readings (blocks.flatten ++ tail))
    (hr : ∀ r ∈ readings, Readable r) (enrich : Bool)
    (henv : ∀ bits, FiniteReal bits → NumberText (env.front.text.realText bits)) :
    ReadEverywhere cfg env Aes.aes128 text (some keyText) enrich readings :=
  read_everywhere cfg env _ text data _ (some key) enrich readings henv hx (.key keyText key hkey)
    (C123_aes_partial cfg key hkey.1 i0 i1 i2 i3 m0 m1 version device acc st c0 c1 hb code hcode iv hiv blocks hbl hne tail
      ht data link hs readings hm hr enrich)

set_option maxRecDepth 20000 in
/-- The same readings encrypted with the key of the project's tests, typed with blanks between the bytes. -/
example (cfg : Cfg) (front : FrontEnv) (hf : front.text = sampleEnv) :
    ReadEverywhere cfg (oneFile front "t.hex".toList []) Aes.aes128
      (hexSpaced (olderWired 5 (cbcEncrypt Aes.encrypt exampleKey (headerIv 0x93 0x15 [0x78, 0x56, 0x34, 0x12] 0x33 0x03 0x2A)
        [sentData.take 16, (sentData.drop 16).take 16] ++ sentData.drop 32)))
      (some "0102030405060708090a0B0c0D0E0F11".toList) true sentReadings :=
  C133_aes_partial cfg _ _ _ exampleKey (((C115_cli_key _).1 _).1 (by decide +kernel))
    0x78 0x56 0x34 0x12 0x93 0x15 0x33 0x03 0x2A 0 0 5 (by decide +kernel) ⟨69, 76, 83⟩ (by decide +kernel) _ (.address rfl)
    [sentData.take 16, (sentData.drop 16).take 16] (by decide) (by simp) (sentData.drop 32) (by decide)
    (olderWired 5 (cbcEncrypt Aes.encrypt exampleKey (headerIv 0x93 0x15 [0x78, 0x56, 0x34, 0x12] 0x33 0x03 0x2A)
        [sentData.take 16, (sentData.drop 16).take 16] ++ sentData.drop 32)) none
    ((decode_iff _ _).1 (by decide +kernel))
    (wired_telegram _ _ (.rspUd false false) (.primary 5) (by decide +kernel))
    sentReadings (by simpa [sentData] using sent_example) (by decide +kernel) true
    (by intro bits h; show NumberText (front.text.realText bits); rw [hf]; exact sampleEnv_numbers bits h)

/-- C133 for encrypted wireless telegrams with a short header. -/
theorem C133_aes_short_partial (cfg : Cfg) (env : CliEnv) (text keyText : List Char) (key : List UInt8)
    (hkey : KeyText keyText key) (ci acc st c0 c1 : UInt8) (hci : isShortCi ci)
    (link : ManufacturerId) (m0 m1 d0 d1 d2 d3 device : UInt8) (hb : AllBcd [d0, d1, d2, d3])
    (hcode : ManufacturerCode.fromId (le16 m0 m1) = .ok link.manufacturerCode)
    (hid : link.identificationNumber = bcdValue [d0, d1, d2, d3])
    (hdev : link.deviceType = DeviceType.fromByte device)
    (iv : List UInt8) (hiv : CbcIv (c1.toNat % 32) m0 m1 [d0, d1, d2, d3] link.version device acc iv)
    (blocks : List (List UInt8)) (hbl : ∀ b ∈ blocks, b.length = 16) (hne : blocks ≠ [])
    (tail : List UInt8) (ht : tail.length < 16) (data : List UInt8) (hx : Spelled text data)
    (hs : Telegram data (some link)
      ([ci, acc, st, c0, c1] ++ (cbcEncrypt Aes.encrypt key iv blocks ++ tail)))
    (readings : List MeterReading) (hm : Message 7 readings (blocks.flatten ++ tail))
    (hr : ∀ r ∈ readings, Readable r) (enrich : Bool)
    (henv : ∀ bits, FiniteReal bits → NumberText (env.front.text.realText bits)) :
    ReadEverywhere cfg env Aes.aes128 text (some keyText) enrich readings :=
  read_everywhere cfg env _ text data _ (some key) enrich readings henv hx (.key keyText key hkey)
    (C123_aes_short_partial cfg key hkey.1 ci acc st c0 c1 hci link m0 m1 d0 d1 d2 d3 device hb hcode hid hdev iv hiv
      blocks hbl hne tail ht data hs readings hm hr enrich)

/-- The encrypted wireless telegram of the readings. -/
def sealedWireless : List UInt8 :=
  wirelessFrame ([0x7A, 0x2A, 0, 0x20, 0x05] ++
    (cbcEncrypt Aes.encrypt exampleKey (headerIv 0xE6 0x1E [0x78, 0x56, 0x34, 0x12] 0x3C 0x07 0x2A)
      [sentData.take 16, (sentData.drop 16).take 16] ++ sentData.drop 32))

set_option maxRecDepth 20000 in
example (cfg : Cfg) (front : FrontEnv) (hf : front.text = sampleEnv) :
    ReadEverywhere cfg (oneFile front "t.hex".toList []) Aes.aes128 (hexString sealedWireless)
      (some "0102030405060708090a0B0c0D0E0F11".toList) true sentReadings :=
  C133_aes_short_partial cfg _ _ _ exampleKey (((C115_cli_key _).1 _).1 (by decide +kernel))
    0x7A 0x2A 0 0x20 0x05 (Or.inl rfl)
    ⟨⟨71, 87, 70⟩, 12345678, .waterMeter, 0x3C, false⟩ 0xE6 0x1E 0x78 0x56 0x34 0x12 0x07
    (by decide +kernel) (by decide +kernel) (by decide +kernel) (by decide +kernel) _ (.address rfl)
    [sentData.take 16, (sentData.drop 16).take 16] (by decide) (by simp) (sentData.drop 32) (by decide) sealedWireless
    ((decode_iff _ _).1 (by decide +kernel)) (isWireless_telegram _ _ _ (by decide +kernel))
    sentReadings (by simpa [sentData] using sent_example) (by decide +kernel) true
    (by intro bits h; show NumberText (front.text.realText bits); rw [hf]; exact sampleEnv_numbers bits h)

end MBus
