import Verif.Spec.SentIdentity
import Verif.Props.SentCsv
/-!
# C139: the meter that sends is the meter the user reads
-/
namespace MBus
open MBus.Spec

theorem encodeBcd_four (n : Nat) : encodeBcd 4 n =
    [UInt8.ofNat (n % 10 + 16 * (n / 10 % 10)), UInt8.ofNat (n / 100 % 10 + 16 * (n / 100 / 10 % 10)),
     UInt8.ofNat (n / 100 / 100 % 10 + 16 * (n / 100 / 100 / 10 % 10)),
     UInt8.ofNat (n / 100 / 100 / 100 % 10 + 16 * (n / 100 / 100 / 100 / 10 % 10))] := rfl

theorem hexString_bcd (a b : Nat) (ha : a < 10) (hb : b < 10) (rest : List UInt8) :
    hexString (UInt8.ofNat (a + 16 * b) :: rest) = Char.ofNat (48 + b) :: Char.ofNat (48 + a) :: hexString rest := by
  have key : ∀ a : Fin 10, ∀ b : Fin 10, hexString [UInt8.ofNat (a.val + 16 * b.val)] =
      [Char.ofNat (48 + b.val), Char.ofNat (48 + a.val)] := by decide +kernel
  have h := key ⟨a, ha⟩ ⟨b, hb⟩
  simp only at h
  simp only [hexString, List.flatMap_cons, List.flatMap_nil, List.append_nil] at h ⊢
  rw [h]
  rfl

theorem hexString_encodeBcd (n : Nat) : ∃ i0 i1 i2 i3, encodeBcd 4 n = [i0, i1, i2, i3] ∧ AllBcd [i0, i1, i2, i3] ∧
    hexString [i3, i2, i1, i0] = eightDigits n := by
  refine ⟨_, _, _, _, encodeBcd_four n, ?_, ?_⟩
  · rw [← encodeBcd_four]
    exact encodeBcd_isBcd 4 n
  · rw [hexString_bcd _ _ (by omega) (by omega), hexString_bcd _ _ (by omega) (by omega),
      hexString_bcd _ _ (by omega) (by omega), hexString_bcd _ _ (by omega) (by omega)]
    simp only [eightDigits, List.range_eq_range', List.range', List.map_cons, List.map_nil, Nat.div_div_eq_div_mul]
    norm_num [hexString]

theorem three_letters (m : SentMeter) (hm : m.Valid) :
    letterText m.letter1 m.letter2 m.letter3 = threeLetters m := by
  obtain ⟨-, h1, h2, h3⟩ := hm
  have key : ∀ i : Fin 27, 1 ≤ i.val →
      Char.ofNat (64 + i.val) = "ABCDEFGHIJKLMNOPQRSTUVWXYZ".toList[i.val - 1]?.getD ' ' := by decide +kernel
  unfold IsLetter at *
  have k := fun (i : Nat) (h : 1 ≤ i ∧ i ≤ 26) => key ⟨i, by omega⟩ h.1
  simp only at k
  simp only [letterText, threeLetters, List.map_cons, List.map_nil, k _ h1, k _ h2, k _ h3]

theorem device_name (code : UInt8) : (DeviceType.fromByte code).display = deviceName code := by
  have key : ∀ n : Fin 256, (DeviceType.fromByte (UInt8.ofNat n.val)).display = deviceName (UInt8.ofNat n.val) := by
    decide +kernel
  have := key ⟨code.toNat, code.toNat_lt⟩
  simpa using this

theorem maker_value (m : SentMeter) (hm : m.Valid) :
    (UInt8.ofNat (flagId m.letter1 m.letter2 m.letter3 % 256)).toNat +
      256 * (UInt8.ofNat (flagId m.letter1 m.letter2 m.letter3 / 256)).toNat =
      flagId m.letter1 m.letter2 m.letter3 := by
  obtain ⟨-, h1, h2, h3⟩ := hm
  have : flagId m.letter1 m.letter2 m.letter3 < 65536 := by unfold IsLetter flagId at *; omega
  simp only [UInt8.toNat_ofNat']
  omega

theorem names_of_shows (m : SentMeter) (hm : m.Valid) (source : String) (i : MeterIdentity) (i0 i1 i2 i3 : UInt8)
    (he : hexString [i3, i2, i1, i0] = eightDigits m.number) (hs : i.source = source.toList)
    (h : ShowsAddress i [i3, i2, i1, i0] (flagId m.letter1 m.letter2 m.letter3) m.version m.device) :
    NamesMeter m source i where
  source := hs
  id := by rw [h.id_digits, he]
  maker := (h.manufacturer _).2 ⟨_, _, _, hm.2.1, hm.2.2.1, hm.2.2.2, rfl, (three_letters m hm).symm⟩
  version := h.version
  name := by rw [h.device_name, device_name]
  code := h.device_code

/-- C139: whenever the library decodes a telegram from a meter, the structured output names that meter. -/
theorem C139_decoded (cfg : Cfg) (aes : AesBlock) (data : List UInt8) (options : DecodeOptions) (o : DecodedOutput)
    (h : decodeBytes cfg aes data options = .ok o) (m : SentMeter) (hm : m.Valid) (source : String)
    (hs : SentBy m source data) : ∃ i, o.meter.identity = some i ∧ NamesMeter m source i := by
  obtain ⟨i0, i1, i2, i3, he, hb, hd⟩ := hexString_encodeBcd m.number
  cases hs with
  | long data link acc st c0 c1 block ht =>
    simp only [headerAddress, he, makerBytes, List.cons_append, List.nil_append] at ht
    obtain ⟨i, h1, h2, h3⟩ := C86_long cfg aes data options o h link false i0 i1 i2 i3 _ _ m.version m.device acc st c0 c1
      block ht hb
    rw [maker_value m hm] at h3
    exact ⟨i, h1, names_of_shows m hm _ i i0 i1 i2 i3 hd h2 h3⟩
  | link data l c ci rest f hw hn hf hna hci =>
    simp only [linkAddress, he, makerBytes, List.cons_append, List.nil_append] at hn hf
    obtain ⟨i, h1, h2, -, h3⟩ := C86_link cfg aes data options o h hw l c _ _ i0 i1 i2 i3 m.version m.device ci rest hn f hf
      hna.1 hna.2
    have hdev : deviceByte ci m.device = m.device := by
      unfold deviceByte
      rw [if_neg]
      omega
    rw [maker_value m hm, hdev] at h3
    exact ⟨i, h1, names_of_shows m hm _ i i0 i1 i2 i3 hd h2 h3⟩

theorem meter_json (cfg : Cfg) (env : TextEnv) (aes : AesBlock) (data : List UInt8) (options : DecodeOptions)
    (henv : ∀ bits, FiniteReal bits → NumberText (env.realText bits)) (o : DecodedOutput)
    (h : decodeBytes cfg aes data options = .ok o) (m : SentMeter) (source : String) (i : MeterIdentity)
    (hi : o.meter.identity = some i) (hn : NamesMeter m source i) :
    JsonMeter m source (renderJson env o) ∧ JsonMeter m source (compactJson (o.doc env)) := by
  obtain ⟨d, h1, h2, -, h4⟩ := C112_json cfg env aes data options o henv h
  have hf : ∀ f ∈ identityFields (some i), follow ([.key "meter", .key "identity"] ++ f.1) d = f.2 := by
    intro f hf
    exact h4.fields (_, f.2) (by
      unfold telegramFields below
      exact List.mem_append_right _ (List.mem_map.2 ⟨f, hi ▸ hf, rfl⟩))
  have key : let found := fun name => follow [.key "meter", .key "identity", .key name] d
      found "source" = some (.str source.toList) ∧ found "id" = some (.str (eightDigits m.number)) ∧
      found "manufacturer_code" = some (.str (threeLetters m)) ∧ found "version" = some (number m.version.toNat) ∧
      found "device_type" = some (.str (deviceName m.device)) ∧
      found "device_type_code" = some (number m.device.toNat) := by
    simp only [identityFields, List.forall_mem_cons, List.cons_append, List.nil_append, Option.map_some, Option.bind_some,
      hn.source, hn.id, hn.maker, hn.version, hn.name, hn.code] at hf
    obtain ⟨k1, k2, k3, k4, k5, k6, -⟩ := hf
    exact ⟨k1, k2, k3, k4, k5, k6⟩
  exact ⟨⟨d, fun d' => ⟨fun h => json_eq h h1, fun h => h ▸ h1⟩, key⟩,
    ⟨d, fun d' => ⟨fun h => json_eq h h2, fun h => h ▸ h2⟩, key⟩⟩

theorem meter_csv (cfg : Cfg) (env : TextEnv) (aes : AesBlock) (data : List UInt8) (options : DecodeOptions)
    (o : DecodedOutput) (h : decodeBytes cfg aes data options = .ok o) (m : SentMeter) (source : String)
    (i : MeterIdentity) (hi : o.meter.identity = some i) (hn : NamesMeter m source i) :
    ∃ text, renderCsv env o = some text ∧ CsvMeter m source text := by
  have hx : (o.records.map (·.index)).Nodup := C89_indices cfg aes data options o h ▸ List.nodup_range
  obtain ⟨text, e, g⟩ := C113_csv env o
  obtain ⟨h1, h2⟩ := C92_rows env o
  have k := fun n v hv => C92_frame env o hx n v hv
  refine ⟨text, e, _, _, g, C92_distinct env o hx, h2.trans h1.symm, k "meter_id" _ ?_, k "manufacturer_code" _ ?_,
    k "identity_source" _ ?_⟩ <;>
    simp [frameColumns, hi, hn.id, hn.maker, hn.source]

/-- C139: for a telegram from a meter, given as text in any spelling and with or without a key, the JSON texts of the
command line program, JavaScript and Python name exactly that meter: its eight digits, the letters of its manufacturer,
its version and its device type.  This holds whenever the library decodes the telegram, whatever its data. -/
theorem C139_json (cfg : Cfg) (env : CliEnv) (aes : AesBlock) (text : List Char) (data : List UInt8)
    (keyText : Option (List Char)) (key : Option (List UInt8)) (enrichment : Bool) (m : SentMeter) (source : String)
    (henv : ∀ bits, FiniteReal bits → NumberText (env.front.text.realText bits))
    (hx : Spelled text data) (hk : KeyGiven keyText key) (hm : m.Valid) (hs : SentBy m source data)
    (h : ∃ o, decodeBytes cfg aes data ⟨key, enrichment⟩ = .ok o) :
    AnsweredWell cfg env aes text keyText enrichment "json" (JsonMeter m source) ∧
      ∃ out, pyParse cfg env.front aes (.text text) (keyText.map .text) enrichment = .ok out ∧ JsonMeter m source out := by
  obtain ⟨o, ho⟩ := h
  obtain ⟨i, hi, hn⟩ := C139_decoded cfg aes data _ o ho m hm source hs
  obtain ⟨j1, j2⟩ := meter_json cfg env.front.text aes data _ henv o ho m source i hi hn
  refine ⟨answered_well cfg env aes text data keyText key enrichment "json" .json (by decide +kernel) _ hx hk
    (fun width => ⟨_, by simp [renderBytes, ho, renderDecoded, Res.mapErr], j1⟩), _, ?_, j2⟩
  have hp : pyKey (keyText.map .text) = .ok key := by
    cases hk with
    | none => rfl
    | key t k hkt => exact (C115_same_key t k (((C115_cli_key t).1 k).2 hkt)).2.1
  simp [pyParse, pyBytes_text, (decode_iff text data).2 hx, hp, ho, Res.mapErr]

/-- C139 for the CSV texts. -/
theorem C139_csv (cfg : Cfg) (env : CliEnv) (aes : AesBlock) (text : List Char) (data : List UInt8)
    (keyText : Option (List Char)) (key : Option (List UInt8)) (enrichment : Bool) (m : SentMeter) (source : String)
    (hx : Spelled text data) (hk : KeyGiven keyText key) (hm : m.Valid) (hs : SentBy m source data)
    (h : ∃ o, decodeBytes cfg aes data ⟨key, enrichment⟩ = .ok o) :
    AnsweredWell cfg env aes text keyText enrichment "csv" (CsvMeter m source) := by
  obtain ⟨o, ho⟩ := h
  obtain ⟨i, hi, hn⟩ := C139_decoded cfg aes data _ o ho m hm source hs
  obtain ⟨out, j1, j2⟩ := meter_csv cfg env.front.text aes data _ o ho m source i hi hn
  exact answered_well cfg env aes text data keyText key enrichment "csv" .csv (by decide +kernel) _ hx hk
    (fun width => ⟨out, by simp [renderBytes, ho, renderDecoded, Res.mapErr, j1], j2⟩)

theorem decimal_digit_eq (a b : Nat) (ha : a < 10) (hb : b < 10) (h : Char.ofNat (48 + a) = Char.ofNat (48 + b)) : a = b := by
  have key : ∀ a b : Fin 10, Char.ofNat (48 + a.val) = Char.ofNat (48 + b.val) → a = b := by decide +kernel
  exact congrArg Fin.val (key ⟨a, ha⟩ ⟨b, hb⟩ h)

theorem eightDigits_injective (n n' : Nat) (h : n < 10 ^ 8) (h' : n' < 10 ^ 8) (he : eightDigits n = eightDigits n') :
    n = n' := by
  simp only [eightDigits, List.range_eq_range', List.range', List.map_cons, List.map_nil, List.cons.injEq, and_true] at he
  obtain ⟨e0, e1, e2, e3, e4, e5, e6, e7⟩ := he
  have f0 := decimal_digit_eq _ _ (Nat.mod_lt _ (by norm_num)) (Nat.mod_lt _ (by norm_num)) e0
  have f1 := decimal_digit_eq _ _ (Nat.mod_lt _ (by norm_num)) (Nat.mod_lt _ (by norm_num)) e1
  have f2 := decimal_digit_eq _ _ (Nat.mod_lt _ (by norm_num)) (Nat.mod_lt _ (by norm_num)) e2
  have f3 := decimal_digit_eq _ _ (Nat.mod_lt _ (by norm_num)) (Nat.mod_lt _ (by norm_num)) e3
  have f4 := decimal_digit_eq _ _ (Nat.mod_lt _ (by norm_num)) (Nat.mod_lt _ (by norm_num)) e4
  have f5 := decimal_digit_eq _ _ (Nat.mod_lt _ (by norm_num)) (Nat.mod_lt _ (by norm_num)) e5
  have f6 := decimal_digit_eq _ _ (Nat.mod_lt _ (by norm_num)) (Nat.mod_lt _ (by norm_num)) e6
  have f7 := decimal_digit_eq _ _ (Nat.mod_lt _ (by norm_num)) (Nat.mod_lt _ (by norm_num)) e7
  norm_num at f0 f1 f2 f3 f4 f5 f6 f7 h h'
  omega

theorem threeLetters_injective (m m' : SentMeter) (h : m.Valid) (h' : m'.Valid) (he : threeLetters m = threeLetters m') :
    m.letter1 = m'.letter1 ∧ m.letter2 = m'.letter2 ∧ m.letter3 = m'.letter3 := by
  obtain ⟨-, h1, h2, h3⟩ := h
  obtain ⟨-, g1, g2, g3⟩ := h'
  have key : ∀ a b : Fin 27, 1 ≤ a.val → 1 ≤ b.val → "ABCDEFGHIJKLMNOPQRSTUVWXYZ".toList[a.val - 1]?.getD ' ' =
      "ABCDEFGHIJKLMNOPQRSTUVWXYZ".toList[b.val - 1]?.getD ' ' → a = b := by decide +kernel
  have k : ∀ a b : Nat, IsLetter a → IsLetter b → "ABCDEFGHIJKLMNOPQRSTUVWXYZ".toList[a - 1]?.getD ' ' =
      "ABCDEFGHIJKLMNOPQRSTUVWXYZ".toList[b - 1]?.getD ' ' → a = b := fun a b ha hb h =>
    congrArg Fin.val (key ⟨a, Nat.lt_succ_of_le ha.2⟩ ⟨b, Nat.lt_succ_of_le hb.2⟩ ha.1 hb.1 h)
  simp only [threeLetters, List.map_cons, List.map_nil, List.cons.injEq, and_true] at he
  exact ⟨k _ _ h1 g1 he.1, k _ _ h2 g2 he.2.1, k _ _ h3 g3 he.2.2⟩

/-- C139: the reader of a JSON text knows the meter: no text names two. -/
theorem C139_one_meter (m m' : SentMeter) (hm : m.Valid) (hm' : m'.Valid) (source source' : String) (text : List Char)
    (h : JsonMeter m source text) (h' : JsonMeter m' source' text) : m = m' := by
  obtain ⟨d, h0, -, h1, h2, h3, -, h4⟩ := h
  obtain ⟨d', g0, -, g1, g2, g3, -, g4⟩ := h'
  cases (h0 d').1 ((g0 d').2 rfl)
  rw [h1] at g1
  rw [h2] at g2
  rw [h3] at g3
  rw [h4] at g4
  simp only [Option.some.injEq, Doc.str.injEq] at g1 g2
  have e1 := eightDigits_injective _ _ hm.1 hm'.1 g1
  obtain ⟨e2, e3, e4⟩ := threeLetters_injective m m' hm hm' g2
  have num : ∀ a b : UInt8, some (number a.toNat) = some (number b.toNat) → a = b := by
    intro a b h
    simp only [number, Option.some.injEq, Doc.num.injEq] at h
    have := congrArg natOf h
    rw [natOf_decimal, natOf_decimal] at this
    exact UInt8.toNat_inj.1 this
  obtain ⟨n, a, b, c, v, t⟩ := m
  obtain ⟨n', a', b', c', v', t'⟩ := m'
  simp only at e1 e2 e3 e4 g3 g4
  subst e1 e2 e3 e4
  rw [num _ _ g3, num _ _ g4]

/-- The gas meter 12345678 of ELS in a wired telegram, typed as pairs of digits. -/
example (cfg : Cfg) (front : FrontEnv) (hf : front.text = sampleEnv) (aes : AesBlock) (enrichment : Bool) :
    AnsweredWell cfg (oneFile front "t.hex".toList []) aes (hexString (olderWired 0 sentData)) none enrichment "json"
      (JsonMeter ⟨12345678, 5, 12, 19, 0x33, 0x03⟩ "tpl.long") := by
  have ht := wired_telegram (olderWired 0 sentData)
    ([0x72, 0x78, 0x56, 0x34, 0x12, 0x93, 0x15, 0x33, 0x03, 0x2A, 0x00, 0x00, 0] ++ sentData)
    (.rspUd false false) (.primary 5) (by decide +kernel)
  obtain ⟨o, ho, -⟩ := C123_clear_partial cfg aes _ none _ sentData ⟨none, enrichment⟩ sentReadings ht
    (.long false 0x78 0x56 0x34 0x12 0x93 0x15 0x33 0x03 0x2A 0x00 0x00 0 _ (by decide +kernel) (by decide))
    sent_example (by decide +kernel)
  exact (C139_json cfg _ aes _ (olderWired 0 sentData) none none enrichment ⟨12345678, 5, 12, 19, 0x33, 0x03⟩ "tpl.long"
    (by intro bits h; show NumberText (front.text.realText bits); rw [hf]; exact sampleEnv_numbers bits h)
    ((decode_iff _ _).1 (by decide +kernel)) .none ⟨by norm_num, by constructor <;> norm_num, by constructor <;> norm_num, by constructor <;> norm_num⟩
    (.long _ none 0x2A 0 0 0 sentData ht) ⟨o, ho⟩).1

theorem sentBy_link (m : SentMeter) (data : List UInt8) (e : FrameError) (r : Option (List UInt8) × List UInt8)
    (h : WiredFrame.tryFrom cfgRelease data = .err e) (hs : stripFormatACrcs data (List.replicate 512 0) = .ok r)
    (l c ci : UInt8) (rest : List UInt8) (hr : r.1.getD data = l :: c :: linkAddress m ++ ci :: rest) (f : WirelessFrame)
    (hf : WirelessFrame.tryFrom (l :: c :: linkAddress m ++ ci :: rest) = .ok f)
    (a st : UInt8) (cf : ConfigurationField) (ell : Option ExtendedLinkLayer) (d : List UInt8)
    (hb : UserDataBlock.tryFrom f.data = .ok (.short ell ⟨a, st, cf⟩ d)) (hci : ci.toNat / 16 ≠ 10) :
    SentBy m "link.wireless" data := by
  obtain ⟨frame, hn⟩ := normalized_exists data
  obtain ⟨r', b, hr', he⟩ := normalized_strip data frame hn
  rw [hs] at hr'
  cases hr'
  rw [hr] at he
  subst he
  refine .link data l c ci rest f ?_ hn ((C12_wireless_accepts_exactly_telegrams _ _).1 hf) ⟨?_, ?_⟩ hci
  · intro g hg
    rw [← C01_wired_accepts_exactly_telegrams cfgRelease, h] at hg
    cases hg
  · intro _ _ _ hk
    rw [← C32_accepts_iff, hb] at hk
    cases hk
  · intro _ _ _ _ _ _ hk
    rw [← C32_accepts_iff, hb] at hk
    cases hk

/-- The water meter 12345678 of GWF in an encrypted wireless telegram, without a key. -/
example (cfg : Cfg) (env : CliEnv) (aes : AesBlock) :
    AnsweredWell cfg env aes (hexString (wirelessFrame ([0x7A, 0x2A, 0, 0x10, 0x05] ++ List.replicate 16 0x5A))) none true "csv"
      (CsvMeter ⟨12345678, 7, 23, 6, 0x3C, 0x07⟩ "link.wireless") := by
  refine C139_csv cfg env aes _ (wirelessFrame ([0x7A, 0x2A, 0, 0x10, 0x05] ++ List.replicate 16 0x5A)) none none true
    ⟨12345678, 7, 23, 6, 0x3C, 0x07⟩ "link.wireless" ((decode_iff _ _).1 (by decide +kernel)) .none
    ⟨by norm_num, by constructor <;> norm_num, by constructor <;> norm_num, by constructor <;> norm_num⟩ ?_ ?_
  · exact sentBy_link _ _ .invalidStartByte (none, List.replicate 512 0) (by decide +kernel) (by decide +kernel) 0x1E 0x44
      0x7A ([0x2A, 0, 0x10, 0x05] ++ List.replicate 16 0x5A) (by decide +kernel)
      ⟨0x44, some (.sndNr), ⟨⟨71, 87, 70⟩, 12345678, .waterMeter, 0x3C, false⟩, [0x7A, 0x2A, 0, 0x10, 0x05] ++ List.replicate 16 0x5A⟩
      (by decide +kernel) 0x2A 0 ⟨0x0510⟩ none (List.replicate 16 0x5A) (by decide +kernel) (by decide)
  · rw [decode_any_aes cfg aes (fun _ b => b)]
    have key : (match decodeBytes cfg (fun _ b => b)
        (wirelessFrame ([0x7A, 0x2A, 0, 0x10, 0x05] ++ List.replicate 16 0x5A)) ⟨none, true⟩ with
      | .ok _ => true
      | _ => false) = true := by
      obtain ⟨oc, tf⟩ := cfg
      cases oc <;> cases tf <;> decide +kernel
    split at key
    · rename_i o ho
      exact ⟨o, ho⟩
    · cases key

end MBus
