import Verif.Spec.OlderMeter
import Verif.Props.SentStatus
import Verif.Props.LegacyJson
import Verif.Props.Legacy
import Verif.Props.CsvText
import Verif.Props.OlderLink
import Verif.Props.SentXmlHeader
/-!
# C169: the older outputs name the meter that sends, and show what it says about itself
-/
namespace MBus
open MBus.Spec

theorem byte_decimal (b : UInt8) : natText b.toNat = (toString b.toNat).toList := by
  have key : ∀ b : UInt8, natText b.toNat = (toString b.toNat).toList := by decide +kernel
  exact key b

/-- The eleven columns of a telegram in `csv-wide`. -/
theorem wide_columns (cfg : Cfg) (env : FrontEnv) (older : OlderEnv) (aes : AesBlock) (input : List Char)
    (key : Option (List UInt8)) (p : ParsedOutput)
    (h : parseFrameOutput cfg env.text.realDisplay aes (cleanAndConvert input) key = .ok p) :
    ∃ text names values, serializeMbusData cfg env older aes input "csv-wide".toList key = .ok text ∧
      (∀ rows, CsvFile text rows ↔ rows = [names, values]) ∧ names.Nodup ∧ values.length = names.length ∧
      names.length = 11 + 2 * p.summary.records.length ∧
      column (names, values) "Identification Number".toList = some (p.summary.identificationNumber.getD []) ∧
      column (names, values) "Manufacturer".toList = some ((p.summary.manufacturer.map (·.code)).getD []) ∧
      column (names, values) "Access Number".toList = some ((p.summary.accessNumber.map (natText ·.toNat)).getD []) ∧
      column (names, values) "Status".toList = some (p.summary.status.getD []) ∧
      column (names, values) "Version".toList = some ((p.summary.version.map (natText ·.toNat)).getD []) ∧
      column (names, values) "Device Type".toList = some (p.summary.deviceType.getD []) := by
  obtain ⟨names, values, e, n1, n2, n3, -⟩ := C109_columns cfg _ aes input key p h
  have e' : parseToCsv cfg env.text.realDisplay aes input key = .ok [wideHeaders p.summary, wideRow p.summary] := by
    unfold parseToCsv; rw [h]
  rw [e] at e'
  cases e'
  obtain ⟨text, t1, t2⟩ := C113_wide cfg _ aes input key _ e
  refine ⟨text, _, _, ?_, t2, n3, n2, n1, rfl, rfl, rfl, rfl, rfl, rfl⟩
  simp (decide := true) only [serializeMbusData, ↓reduceIte, t1]
  rfl

/-- What the summary of the older outputs says of the meter. -/
theorem older_meter (cfg : Cfg) (rt : UInt32 → List Char) (aes : AesBlock) (haes : BlockSized aes) (data : List UInt8)
    (key : Option (List UInt8)) (enrich : Bool) (o : DecodedOutput) (h : decodeBytes cfg aes data ⟨key, enrich⟩ = .ok o)
    (hr : o.security.decryptionState ≠ "key_missing".toList) (m : SentMeter) (hm : m.Valid) (source : String)
    (hs : SentBy m source data) :
    ∃ p, parseFrameOutput cfg rt aes data key = .ok p ∧ p.summary.identificationNumber = some (eightDigits m.number) ∧
      p.summary.manufacturer.map (·.code) = some (threeLetters m) ∧ p.summary.version = some m.version ∧
      p.summary.deviceType = some (deviceName m.device) := by
  obtain ⟨p, hp, -⟩ := C106_records_partial cfg rt aes haes data key enrich o h hr
  obtain ⟨i, hi, hn⟩ := C139_decoded cfg aes data _ o h m hm source hs
  obtain ⟨-, e1, -, e3, -⟩ := C108_header_partial cfg rt aes haes data key enrich o p h hp
  obtain ⟨e4, e5, e6⟩ := e3 i hi (by
    rw [hn.source]
    cases hs <;> decide +kernel)
  refine ⟨p, hp, ?_, ?_, e4.trans hn.version, e5.trans hn.name⟩
  · rw [e1, hi]
    exact hn.id
  · rw [e6 _ hn.maker]
    rfl

/-- What the summary says of the transport header. -/
theorem older_header (cfg : Cfg) (rt : UInt32 → List Char) (aes : AesBlock) (haes : BlockSized aes) (data : List UInt8)
    (key : Option (List UInt8)) (enrich : Bool) (o : DecodedOutput) (h : decodeBytes cfg aes data ⟨key, enrich⟩ = .ok o)
    (hr : o.security.decryptionState ≠ "key_missing".toList) (hd : SentHeader) (source : String)
    (hs : HasHeader hd source data) :
    ∃ p, parseFrameOutput cfg rt aes data key = .ok p ∧ p.summary.accessNumber = some hd.access ∧
      p.summary.status = some (statusDisplay hd.status.byte) := by
  obtain ⟨p, hp, -⟩ := C106_records_partial cfg rt aes haes data key enrich o h hr
  obtain ⟨e1, e2, -⟩ := C143_decoded cfg aes data _ o h hd source hs
  obtain ⟨-, -, -, -, e3⟩ := C108_header_partial cfg rt aes haes data key enrich o p h hp
  have hk : o.transport.headerKind ≠ some "ell".toList := by
    obtain ⟨link, payload, ht, hs⟩ := hs
    cases hs with
    | long m block =>
      obtain ⟨i0, i1, i2, i3, he, hb, -⟩ := hexString_encodeBcd m.number
      simp only [headerAddress, he, makerBytes, SentHeader.bytes, List.cons_append, List.nil_append] at ht
      rw [C87_long cfg aes data _ o h link false i0 i1 i2 i3 _ _ m.version m.device _ _ _ _ block ht hb]
      show some _ ≠ some _
      decide +kernel
    | short ci block hci =>
      simp only [SentHeader.bytes, List.cons_append, List.nil_append] at ht
      rw [C87_short cfg aes data _ o h link ci _ _ _ _ block hci ht]
      show some _ ≠ some _
      decide +kernel
    | shortEll cc acc ci block hci =>
      rw [(C87_ell_one cfg aes data _ o h link cc acc _ ht).2 ci hd.access hd.status.byte _ _ block hci rfl]
      show some _ ≠ some _
      decide +kernel
  obtain ⟨a1, a2, -⟩ := e3 hk
  refine ⟨p, hp, ?_, ?_⟩
  · rw [a1, e1]; rfl
  · rw [a2, e2]; rfl

/-- C169 for `json-legacy`: every readable telegram, typed in any way the older hex parser reads. -/
theorem C169_json (cfg : Cfg) (env : FrontEnv) (older : OlderEnv) (aes : AesBlock) (haes : BlockSized aes)
    (input : List Char) (key : Option (List UInt8)) (enrich : Bool) (hl : PrintsLiterals older.literal) (o : DecodedOutput)
    (h : decodeBytes cfg aes (cleanAndConvert input) ⟨key, enrich⟩ = .ok o)
    (hr : o.security.decryptionState ≠ "key_missing".toList) (m : SentMeter) (hm : m.Valid) (source : String)
    (hs : SentBy m source (cleanAndConvert input)) :
    ∃ text, serializeMbusData cfg env older aes input "json-legacy".toList key = .ok text ∧ OlderJsonMeter m text := by
  obtain ⟨p, hp, e1, e2, e3, e4⟩ := older_meter cfg env.text.realDisplay aes haes _ key enrich o h hr m hm source hs
  obtain ⟨text, t1, -, t3⟩ := older_reads cfg env older aes input key hl p hp [] (by intro f hf; cases hf)
    (olderFrame_sound cfg _)
  obtain ⟨d, d1, -, -⟩ := C137_json cfg env older aes input key hl text t1
  obtain ⟨-, s⟩ := t3 d ((d1 d).2 rfl)
  refine ⟨text, t1, d, d1, ?_, ?_, ?_, ?_⟩
  · have := s.summary ([.key "summary", .key "identification_number"], p.summary.identificationNumber.map Doc.str)
      (by simp [below, summaryShown])
    rw [e1] at this
    exact this
  · have := s.summary ([.key "summary", .key "manufacturer", .key "code"], p.summary.manufacturer.map (Doc.str ·.code))
      (by simp [below, summaryShown])
    have e : p.summary.manufacturer.map (Doc.str ·.code) = (p.summary.manufacturer.map (·.code)).map Doc.str := by
      rw [Option.map_map]; rfl
    rw [e, e2] at this
    exact this
  · have := s.summary ([.key "summary", .key "version"], p.summary.version.map (number ·.toNat))
      (by simp [below, summaryShown])
    rw [e3] at this
    exact this
  · have := s.summary ([.key "summary", .key "device_type"], p.summary.deviceType.map Doc.str)
      (by simp [below, summaryShown])
    rw [e4] at this
    exact this

/-- C169 for `csv-wide`. -/
theorem C169_csv (cfg : Cfg) (env : FrontEnv) (older : OlderEnv) (aes : AesBlock) (haes : BlockSized aes)
    (input : List Char) (key : Option (List UInt8)) (enrich : Bool) (o : DecodedOutput)
    (h : decodeBytes cfg aes (cleanAndConvert input) ⟨key, enrich⟩ = .ok o)
    (hr : o.security.decryptionState ≠ "key_missing".toList) (m : SentMeter) (hm : m.Valid) (source : String)
    (hs : SentBy m source (cleanAndConvert input)) :
    ∃ text, serializeMbusData cfg env older aes input "csv-wide".toList key = .ok text ∧ OlderCsvMeter m text := by
  obtain ⟨p, hp, e1, e2, e3, e4⟩ := older_meter cfg env.text.realDisplay aes haes _ key enrich o h hr m hm source hs
  obtain ⟨text, names, values, t1, t2, t3, t4, -, k1, k2, -, -, k5, k6⟩ := wide_columns cfg env older aes input key p hp
  rw [e1] at k1
  rw [e2] at k2
  rw [e3, Option.map_some, byte_decimal] at k5
  rw [e4] at k6
  exact ⟨text, t1, names, values, t2, t3, t4, k1, k2, k5, k6⟩

/-- C169 for the access number and the status, in `json-legacy` and `csv-wide`.  Missing: a state of the application other
than no error, which is shown in wrong words, see `C143_application_fails`; it is the same text in the older outputs. -/
theorem C169_header_partial (cfg : Cfg) (env : FrontEnv) (older : OlderEnv) (aes : AesBlock) (haes : BlockSized aes)
    (input : List Char) (key : Option (List UInt8)) (enrich : Bool) (hl : PrintsLiterals older.literal) (o : DecodedOutput)
    (h : decodeBytes cfg aes (cleanAndConvert input) ⟨key, enrich⟩ = .ok o)
    (hr : o.security.decryptionState ≠ "key_missing".toList) (hd : SentHeader) (source : String)
    (hs : HasHeader hd source (cleanAndConvert input)) (ha : hd.status.application = 0) :
    (∃ text, serializeMbusData cfg env older aes input "json-legacy".toList key = .ok text ∧ OlderJsonHeader hd text) ∧
      ∃ text, serializeMbusData cfg env older aes input "csv-wide".toList key = .ok text ∧ OlderCsvHeader hd text := by
  have hw : SaysAlarms hd.status (statusDisplay hd.status.byte) := by
    rw [header_words, SaysAlarms, ha]
    simp only [Fin.val_zero, true_and]
    rfl
  obtain ⟨p, hp, e1, e2⟩ := older_header cfg env.text.realDisplay aes haes _ key enrich o h hr hd source hs
  constructor
  · obtain ⟨text, t1, -, t3⟩ := older_reads cfg env older aes input key hl p hp [] (by intro f hf; cases hf)
      (olderFrame_sound cfg _)
    obtain ⟨d, d1, -, -⟩ := C137_json cfg env older aes input key hl text t1
    obtain ⟨-, s⟩ := t3 d ((d1 d).2 rfl)
    refine ⟨text, t1, d, d1, ?_, _, ?_, hw⟩
    · have := s.summary ([.key "summary", .key "access_number"], p.summary.accessNumber.map (number ·.toNat))
        (by simp [below, summaryShown])
      rw [e1] at this
      exact this
    · have := s.summary ([.key "summary", .key "status"], p.summary.status.map Doc.str) (by simp [below, summaryShown])
      rw [e2] at this
      exact this
  · obtain ⟨text, names, values, t1, t2, t3, t4, -, -, -, k3, k4, -⟩ := wide_columns cfg env older aes input key p hp
    rw [e1, Option.map_some, byte_decimal] at k3
    rw [e2] at k4
    exact ⟨text, t1, names, values, t2, t3, t4, k3, _, k4, hw⟩

theorem unquoted_letters (m : SentMeter) (hm : m.Valid) : Unquoted (threeLetters m) := by
  obtain ⟨-, h1, h2, h3⟩ := hm
  have key : ∀ i : Fin 27, 1 ≤ i.val →
      Unquoted ["ABCDEFGHIJKLMNOPQRSTUVWXYZ".toList[i.val - 1]?.getD ' '] := by decide +kernel
  have k := fun (i : Nat) (h : IsLetter i) => key ⟨i, by unfold IsLetter at h; omega⟩ (by unfold IsLetter at h; exact h.1)
  intro c hc
  simp only [threeLetters, List.map_cons, List.map_nil, List.mem_cons, List.not_mem_nil, or_false] at hc
  rcases hc with rfl | rfl | rfl
  · exact k _ h1 _ (.head _)
  · exact k _ h2 _ (.head _)
  · exact k _ h3 _ (.head _)

theorem decimal_text (n : Nat) : natText n = (toString n).toList := by
  simp [natText, toString, Nat.repr]

/-- C169 for the older diagram of wired telegrams with a long header. -/
theorem C169_diagram_wired (cfg : Cfg) (rt : UInt32 → List Char) (data : List UInt8) (ls : List DiagramLine)
    (h : mermaidOld cfg rt data = .ok ls) (m : SentMeter) (hm : m.Valid) (acc st c0 c1 : UInt8) (block : List UInt8)
    (ht : Telegram data none (0x72 :: headerAddress m ++ [acc, st, c0, c1] ++ block)) :
    ∀ l ∈ olderMeterLabels m false, l ∈ ls.filterMap oldLabel := by
  obtain ⟨i0, i1, i2, i3, he, hb, hd⟩ := hexString_encodeBcd m.number
  simp only [headerAddress, he, makerBytes, List.cons_append, List.nil_append] at ht
  generalize hp : (0x72 : UInt8) :: _ = payload at ht
  cases ht with
  | wired fn a _ hg =>
    rw [← hp] at hg
    obtain ⟨h1, h2⟩ := C111_device cfg rt data fn a i0 i1 i2 i3 _ _ m.version m.device acc st c0 c1 block hb ls hg h
    have hc := (C07_manufacturer_from_id (le16 (UInt8.ofNat (flagId m.letter1 m.letter2 m.letter3 % 256))
      (UInt8.ofNat (flagId m.letter1 m.letter2 m.letter3 / 256))) (letters m.letter1 m.letter2 m.letter3)).2
      ⟨_, _, _, hm.2.1, hm.2.2.1, hm.2.2.2, by rw [le16_value, maker_value m hm], rfl⟩
    have h3 := (h2 _ hc).1
    rw [display_letters _ _ _ hm.2.1 hm.2.2.1 hm.2.2.2, three_letters m hm, escape_plain (unquoted_letters m hm)] at h3
    intro l hl
    simp only [olderMeterLabels, Bool.false_eq_true, if_false, List.mem_cons, List.not_mem_nil, or_false] at hl
    rcases hl with rfl | rfl | rfl | rfl
    · exact h1 _ (by rw [hd]; simp)
    · exact h3
    · exact h1 _ (by rw [byte_decimal]; simp)
    · exact h1 _ (by rw [device_word]; simp)

/-- C169 for the older diagram of wireless telegrams and the address in their link layer. -/
theorem C169_diagram_wireless (cfg : Cfg) (rt : UInt32 → List Char) (data : List UInt8) (ls : List DiagramLine)
    (h : mermaidOld cfg rt data = .ok ls) (m : SentMeter) (hm : m.Valid) (l c ci : UInt8) (rest : List UInt8)
    (f : WirelessFrame) (hw : ∀ g, ¬ WiredTelegram data g) (hn : Normalized data (l :: c :: linkAddress m ++ ci :: rest))
    (hf : WirelessTelegram (l :: c :: linkAddress m ++ ci :: rest) f) (hci : ci.toNat / 16 ≠ 10) :
    ∀ l ∈ olderMeterLabels m true, l ∈ ls.filterMap oldLabel := by
  have h1 := (C111_wireless cfg rt data _ f ls hw hn hf h).1
  have hnum := meter_number m hm
  obtain ⟨i0, i1, i2, i3, he, hb, hd⟩ := hexString_encodeBcd m.number
  rw [he] at hnum
  simp only [linkAddress, he, makerBytes, List.cons_append, List.nil_append] at hf
  generalize hx : l :: c :: _ = bytes at hf
  cases hf with
  | mk l' c' m0 m1 d0 d1 d2 d3 ver dev ci' rest' payload i j k fn hl hfn hi hj hk hmk hbcd hp =>
    simp only [List.cons.injEq] at hx
    obtain ⟨rfl, rfl, rfl, rfl, rfl, rfl, rfl, rfl, rfl, rfl, rfl, rfl⟩ := hx
    rw [maker_value m hm] at hmk
    have hdev : deviceByte ci m.device = m.device := by
      unfold deviceByte
      rw [if_neg]
      omega
    have e : i = m.letter1 ∧ j = m.letter2 ∧ k = m.letter3 := by
      obtain ⟨-, g1, g2, g3⟩ := hm
      unfold IsLetter flagId at *
      omega
    obtain ⟨rfl, rfl, rfl⟩ := e
    simp only [hdev, hnum, device_word, decimal_text, display_letters _ _ _ hi hj hk, three_letters m hm,
      escape_plain (unquoted_letters m hm)] at h1
    intro l hl
    simp only [olderMeterLabels, if_true, List.mem_cons, List.not_mem_nil, or_false] at hl
    refine h1 l ?_
    simp only [List.mem_cons, List.not_mem_nil, or_false]
    tauto

/-- C169 is false of busy applications: the summary says `Counter binary signed`. -/
theorem C169_fails (cfg : Cfg) (rt : UInt32 → List Char) (aes : AesBlock) (haes : BlockSized aes) (data : List UInt8)
    (key : Option (List UInt8)) (enrich : Bool) (o : DecodedOutput) (h : decodeBytes cfg aes data ⟨key, enrich⟩ = .ok o)
    (hr : o.security.decryptionState ≠ "key_missing".toList) (hd : SentHeader) (source : String)
    (hs : HasHeader hd source data) (hb : hd.status = ⟨1, false, false, false, false, false, false⟩) :
    ∃ p, parseFrameOutput cfg rt aes data key = .ok p ∧ p.summary.status = some "Counter binary signed".toList := by
  obtain ⟨p, hp, -, e⟩ := older_header cfg rt aes haes data key enrich o h hr hd source hs
  refine ⟨p, hp, ?_⟩
  rw [e, hb]
  decide +kernel

/-- The wired telegram of a gas meter with two alarms is readable. -/
theorem alarm_readable (cfg : Cfg) (aes : AesBlock) (b : UInt8) (hb : b = 0x0C ∨ b = 0x01) :
    ∃ o, decodeBytes cfg aes (alarmWired b) ⟨none, true⟩ = .ok o ∧ o.security.decryptionState ≠ "key_missing".toList := by
  rw [decode_any_aes cfg aes (fun _ b => b)]
  obtain ⟨oc, tf⟩ := cfg
  rcases hb with rfl | rfl <;> cases oc <;> cases tf <;>
    exact checked _ (fun o : DecodedOutput => o.security.decryptionState ≠ _) (by decide +kernel)

theorem alarm_typed (b : UInt8) (hb : b = 0x0C ∨ b = 0x01) : cleanAndConvert (hexString (alarmWired b)) = alarmWired b := by
  rcases hb with rfl | rfl <;> decide +kernel

/-- It is shown with its number, maker, version and medium, -/
example (cfg : Cfg) (env : FrontEnv) (older : OlderEnv) (aes : AesBlock) (haes : BlockSized aes)
    (hl : PrintsLiterals older.literal) :
    (∃ text, serializeMbusData cfg env older aes (hexString (alarmWired 0x0C)) "json-legacy".toList none = .ok text ∧
      OlderJsonMeter ⟨12345678, 5, 12, 19, 0x33, 0x03⟩ text) ∧
    ∃ text, serializeMbusData cfg env older aes (hexString (alarmWired 0x0C)) "csv-wide".toList none = .ok text ∧
      OlderCsvMeter ⟨12345678, 5, 12, 19, 0x33, 0x03⟩ text := by
  obtain ⟨o, ho, hr⟩ := alarm_readable cfg aes 0x0C (.inl rfl)
  rw [← alarm_typed 0x0C (.inl rfl)] at ho
  have hs : SentBy ⟨12345678, 5, 12, 19, 0x33, 0x03⟩ "tpl.long" (cleanAndConvert (hexString (alarmWired 0x0C))) := by
    rw [alarm_typed 0x0C (.inl rfl)]
    exact .long _ none 0x2A 0x0C 0 0 sentData (wired_telegram (alarmWired 0x0C)
      ([0x72, 0x78, 0x56, 0x34, 0x12, 0x93, 0x15, 0x33, 0x03, 0x2A, 0x0C, 0x00, 0] ++ sentData)
      (.rspUd false false) (.primary 5) (by decide +kernel))
  have hm : SentMeter.Valid ⟨12345678, 5, 12, 19, 0x33, 0x03⟩ :=
    ⟨by norm_num, by constructor <;> norm_num, by constructor <;> norm_num, by constructor <;> norm_num⟩
  exact ⟨C169_json cfg env older aes haes _ none true hl o ho hr _ hm _ hs,
    C169_csv cfg env older aes haes _ none true o ho hr _ hm _ hs⟩

/-- and with its access number and its alarms. -/
example (cfg : Cfg) (env : FrontEnv) (older : OlderEnv) (aes : AesBlock) (haes : BlockSized aes)
    (hl : PrintsLiterals older.literal) :
    ∃ text, serializeMbusData cfg env older aes (hexString (alarmWired 0x0C)) "csv-wide".toList none = .ok text ∧
      OlderCsvHeader ⟨0x2A, ⟨0, true, true, false, false, false, false⟩, 0⟩ text := by
  obtain ⟨o, ho, hr⟩ := alarm_readable cfg aes 0x0C (.inl rfl)
  rw [← alarm_typed 0x0C (.inl rfl)] at ho
  exact (C169_header_partial cfg env older aes haes _ none true hl o ho hr
    ⟨0x2A, ⟨0, true, true, false, false, false, false⟩, 0⟩ "tpl.long" (by
      rw [alarm_typed 0x0C (.inl rfl)]
      exact ⟨none, _, sent_status_telegram, .long _ sentData⟩) rfl).2

/-- The same meter while its application is busy: `C169_fails` is about telegrams that exist. -/
example (cfg : Cfg) (rt : UInt32 → List Char) (aes : AesBlock) (haes : BlockSized aes) :
    ∃ p, parseFrameOutput cfg rt aes (alarmWired 0x01) none = .ok p ∧
      p.summary.status = some "Counter binary signed".toList := by
  obtain ⟨o, ho, hr⟩ := alarm_readable cfg aes 0x01 (.inr rfl)
  have ht := wired_telegram (alarmWired 0x01)
    ([0x72, 0x78, 0x56, 0x34, 0x12, 0x93, 0x15, 0x33, 0x03, 0x2A, 0x01, 0x00, 0] ++ sentData)
    (.rspUd false false) (.primary 5) (by decide +kernel)
  have e : 0x72 :: headerAddress ⟨12345678, 5, 12, 19, 0x33, 0x03⟩ ++
      (SentHeader.mk 0x2A ⟨1, false, false, false, false, false, false⟩ 0).bytes ++ sentData =
      [0x72, 0x78, 0x56, 0x34, 0x12, 0x93, 0x15, 0x33, 0x03, 0x2A, 0x01, 0x00, 0] ++ sentData := by decide +kernel
  rw [← e] at ht
  exact C169_fails cfg rt aes haes _ none true o ho hr ⟨0x2A, ⟨1, false, false, false, false, false, false⟩, 0⟩ "tpl.long"
    ⟨none, _, ht, .long _ sentData⟩ rfl

/-- The diagram of the gas meter. -/
example (cfg : Cfg) (rt : UInt32 → List Char) (ls : List DiagramLine)
    (h : mermaidOld cfg rt (alarmWired 0x0C) = .ok ls) : "ID: 12345678".toList ∈ ls.filterMap oldLabel ∧
      "Manufacturer: ELS".toList ∈ ls.filterMap oldLabel := by
  have key := C169_diagram_wired cfg rt _ ls h ⟨12345678, 5, 12, 19, 0x33, 0x03⟩
    ⟨by norm_num, by constructor <;> norm_num, by constructor <;> norm_num, by constructor <;> norm_num⟩
    0x2A 0x0C 0 0 sentData (wired_telegram (alarmWired 0x0C)
      ([0x72, 0x78, 0x56, 0x34, 0x12, 0x93, 0x15, 0x33, 0x03, 0x2A, 0x0C, 0x00, 0] ++ sentData)
      (.rspUd false false) (.primary 5) (by decide +kernel))
  exact ⟨key _ (by decide +kernel), key _ (by decide +kernel)⟩

example : ∃ ls, mermaidOld ⟨false, false⟩ (fun _ => []) (alarmWired 0x0C) = .ok ls ∧
    "ID: 12345678".toList ∈ ls.filterMap oldLabel :=
  checked _ (fun ls : List DiagramLine => _ ∈ ls.filterMap oldLabel) (by decide +kernel)

/-- The diagram of a water meter that sends its number in the link layer. -/
example (cfg : Cfg) (rt : UInt32 → List Char) (ls : List DiagramLine)
    (h : mermaidOld cfg rt (wirelessFrame ([0x7A, 0x2A, 0, 0x10, 0x05] ++ List.replicate 16 0x5A)) = .ok ls) :
    "Manufacturer: GWF".toList ∈ ls.filterMap oldLabel ∧
      "ID: IdentificationNumber { number: 12345678 }".toList ∈ ls.filterMap oldLabel := by
  have hn : Normalized (wirelessFrame ([0x7A, 0x2A, 0, 0x10, 0x05] ++ List.replicate 16 0x5A))
      (0x1E :: 0x44 :: linkAddress ⟨12345678, 7, 23, 6, 0x3C, 0x07⟩ ++
        0x7A :: ([0x2A, 0, 0x10, 0x05] ++ List.replicate 16 0x5A)) := (withoutFormatA_iff _ _).1 (by decide +kernel)
  have key := C169_diagram_wireless cfg rt _ ls h ⟨12345678, 7, 23, 6, 0x3C, 0x07⟩
    ⟨by norm_num, by constructor <;> norm_num, by constructor <;> norm_num, by constructor <;> norm_num⟩
    0x1E 0x44 0x7A ([0x2A, 0, 0x10, 0x05] ++ List.replicate 16 0x5A)
    ⟨0x44, some (.sndNr), ⟨⟨71, 87, 70⟩, 12345678, .waterMeter, 0x3C, false⟩, [0x7A, 0x2A, 0, 0x10, 0x05] ++ List.replicate 16 0x5A⟩
    (by
      intro g hg
      have := (C01_wired_accepts_exactly_telegrams ⟨false, false⟩ _ _).2 hg
      have e : WiredFrame.tryFrom ⟨false, false⟩ (wirelessFrame ([0x7A, 0x2A, 0, 0x10, 0x05] ++ List.replicate 16 0x5A)) =
        .err .invalidStartByte := by decide +kernel
      rw [e] at this
      cases this)
    hn ((C12_wireless_accepts_exactly_telegrams _ _).1 (by decide +kernel)) (by decide)
  exact ⟨key _ (by decide +kernel), key _ (by decide +kernel)⟩

end MBus
