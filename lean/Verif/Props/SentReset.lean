import Verif.Spec.SentReset
import Verif.Props.SentFixed
import Verif.Props.LegacyJson
/-!
# C167: a telegram that resets a meter is shown as one, without readings
-/
namespace MBus
open MBus.Spec MBus.Xml MBus.Spec.Xml

theorem reset_block (b : UInt8) (rest : List UInt8) :
    Block (0x50 :: b :: rest) (.reset (ApplicationResetSubcode.ofByte b)) :=
  (C32_accepts_iff _ _).1 (tryFrom_reset b rest)

theorem key_presence {keyText : Option (List Char)} {key : Option (List UInt8)} (h : KeyGiven keyText key) :
    keyText.isSome = key.isSome := by
  cases h <;> rfl

theorem follow_below {path : List Step} {d : Doc} (h : follow path d = none) (more : List Step) :
    follow (path ++ more) d = none := by
  rw [follow_append, h]
  rfl

/-- What is decoded of a telegram without readings. -/
def Bare (kind : Option String) (wired keyGiven : Bool) (o : DecodedOutput) : Prop :=
  o.records = [] ∧ o.decodeState = "complete".toList ∧
    o.diagnostics = (if keyGiven then [⟨"info".toList, "security.key_unused".toList, "security".toList,
      "a key was supplied for a cleartext frame and was not used".toList, none⟩] else []) ∧
    o.transport.headerKind = kind.map String.toList ∧ o.transport.accessNumbers = [] ∧ o.transport.statuses = [] ∧
    o.meter.alternateIdentities = [] ∧ (wired = true → o.meter.identity = none)

theorem reset_decoded (cfg : Cfg) (aes : AesBlock) (data : List UInt8) (options : DecodeOptions) (wired : Bool)
    (hs : ResetSent wired data) :
    ∃ o, decodeBytes cfg aes data options = .ok o ∧ Bare (some "application_reset") wired options.key.isSome o := by
  obtain ⟨link, b, rest, ht, hw⟩ := hs
  have hb := reset_block b rest
  obtain ⟨protocol, frame, normalized, stripped, hdec⟩ := decode_telegram cfg aes data link _ ht
  have hok : ∃ o, decodeBytes cfg aes data options = .ok o := by
    rw [hdec, (C32_accepts_iff _ _).2 hb]
    exact ⟨_, rfl⟩
  obtain ⟨o, ho⟩ := hok
  refine ⟨o, ho, ?_⟩
  rw [hdec, (C32_accepts_iff _ _).2 hb] at ho
  obtain ⟨c, outs, err, h1, h2, -, -, h3, h4, -, h6, h5, -⟩ := finish_ok _ _ _ _ _ _ _ _ _ _ _ _ ho
  cases h1
  cases h2
  have m1 : o.meter = (meterAndTransport (some (.reset (ApplicationResetSubcode.ofByte b))) link).1 := congrArg Prod.fst h3
  have m2 : o.transport = (meterAndTransport (some (.reset (ApplicationResetSubcode.ofByte b))) link).2 :=
    congrArg Prod.snd h3
  refine ⟨h4, h5, ?_, ?_, ?_, ?_, ?_, ?_⟩
  · rw [h6]
    show [] ++ (if options.key.isSome then _ else []) ++ [] = _
    rw [List.append_nil, List.nil_append]
  · rw [m2]; rfl
  · rw [m2]; rfl
  · rw [m2]; rfl
  · rw [m1]; rfl
  · intro h
    rw [m1, hw.1 h]
    rfl

theorem bare_json (cfg : Cfg) (env : CliEnv) (aes : AesBlock) (text : List Char) (data : List UInt8)
    (keyText : Option (List Char)) (key : Option (List UInt8)) (enrichment : Bool) (kind : Option String) (wired : Bool)
    (henv : ∀ bits, FiniteReal bits → NumberText (env.front.text.realText bits))
    (hx : Spelled text data) (hk : KeyGiven keyText key)
    (hs : ∃ o, decodeBytes cfg aes data ⟨key, enrichment⟩ = .ok o ∧ Bare kind wired key.isSome o) :
    AnsweredWell cfg env aes text keyText enrichment "json" (JsonBare kind wired keyText.isSome) := by
  obtain ⟨o, ho, e1, e2, e3, e4, e5, e6, e7, e8⟩ := hs
  obtain ⟨d, h1, -, -, h4⟩ := C112_json cfg env.front.text aes data ⟨key, enrichment⟩ o henv ho
  have hkey := key_presence hk
  refine answered_well cfg env aes text data keyText key enrichment "json" .json (by decide +kernel) _ hx hk
    (fun width => ⟨_, by simp [renderBytes, ho, renderDecoded, Res.mapErr],
      d, fun d' => ⟨fun h => json_eq h h1, fun h => h ▸ h1⟩, ?_, ?_, ?_, ?_, ?_, ?_⟩)
  · have := h4.fields ([.key "decode_state"], some (Doc.str o.decodeState)) (by simp [telegramFields])
    rw [e2] at this
    exact this
  · have := h4.fields ([.key "transport", .key "header_kind"], o.transport.headerKind.map Doc.str)
      (by simp [telegramFields])
    rw [e4, Option.map_map] at this
    exact this
  · have k : ∀ l ∈ telegramLists env.front.text o, l.2 = [] → follow (l.1 ++ [.at 0]) d = none :=
      fun l hl e => h4.ends l hl 0 (by rw [e]; exact Nat.le_refl 0)
    simp only [telegramLists, List.forall_mem_cons, e1, e5, e6, e7, List.map_nil, true_imp_iff] at k
    obtain ⟨k1, -, k3, k4, k5, -⟩ := k
    simp only [List.forall_mem_cons]
    exact ⟨k1, k4, k5, k3, by simp⟩
  · rw [hkey]
    by_cases h : key.isSome = true
    · have := h4.elements ([.key "diagnostics"], _) (by
        unfold telegramLists; exact List.mem_cons_of_mem _ List.mem_cons_self) 0 (by simp [e3, h])
      simp only [e3, h, if_true, List.map_cons, List.map_nil, List.getElem_cons_zero] at this
      rw [if_pos h]
      exact this ([.key "code"], _) (by simp [diagnosticFields])
    · have := h4.ends ([.key "diagnostics"], _) (by
        unfold telegramLists; exact List.mem_cons_of_mem _ List.mem_cons_self) 0 (by simp [e3, h])
      rw [if_neg h]
      exact follow_below this [.key "code"]
  · rw [hkey]
    exact h4.ends ([.key "diagnostics"], _) (by
      unfold telegramLists; exact List.mem_cons_of_mem _ List.mem_cons_self) _ (by
        by_cases h : key.isSome = true <;> simp [e3, h])
  · intro h
    have hf : ∀ f ∈ identityFields o.meter.identity, follow ([.key "meter", .key "identity"] ++ f.1) d = f.2 := by
      intro f hf
      exact h4.fields (_, f.2) (by
        unfold telegramFields below
        exact List.mem_append_right _ (List.mem_map.2 ⟨f, hf, rfl⟩))
    rw [e8 h] at hf
    simp only [identityFields, List.forall_mem_cons, List.cons_append, List.nil_append, Option.bind_none,
      Option.map_none] at hf
    obtain ⟨k1, k2, k3, k4, k5, -⟩ := hf
    simp only [List.forall_mem_cons]
    exact ⟨k1, k2, k3, k4, k5, by simp⟩

theorem bare_csv (cfg : Cfg) (env : CliEnv) (aes : AesBlock) (text : List Char) (data : List UInt8)
    (keyText : Option (List Char)) (key : Option (List UInt8)) (enrichment : Bool) (kind : Option String) (wired : Bool)
    (hx : Spelled text data) (hk : KeyGiven keyText key)
    (hs : ∃ o, decodeBytes cfg aes data ⟨key, enrichment⟩ = .ok o ∧ Bare kind wired key.isSome o) :
    AnsweredWell cfg env aes text keyText enrichment "csv" (CsvBare wired keyText.isSome) := by
  obtain ⟨o, h, e1, e2, e3, e4, e5, e6, e7, e8⟩ := hs
  have hn : (o.records.map (·.index)).Nodup := C89_indices cfg aes data _ o h ▸ List.nodup_range
  obtain ⟨out, e, g⟩ := C113_csv env.front.text o
  obtain ⟨h1, h2⟩ := C92_rows env.front.text o
  have k := fun n v hv => C92_frame env.front.text o hn n v hv
  have hkey := key_presence hk
  refine answered_well cfg env aes text data keyText key enrichment "csv" .csv (by decide +kernel) _ hx hk
    (fun width => ⟨out, by simp [renderBytes, h, renderDecoded, Res.mapErr, e], _, _, g,
      C92_distinct env.front.text o hn, h2.trans h1.symm, ?_, ?_, ?_, ?_, ?_⟩)
  · refine k "record_count" _ ?_
    have : (toString ([] : List RecordOutput).length).toList = ['0'] := by decide +kernel
    simp only [frameColumns, e1, this]
    simp
  · refine k "decode_state" _ ?_
    simp [frameColumns, e2]
  · simp only [List.forall_mem_cons]
    refine ⟨k "access_numbers" _ ?_, k "status_codes" _ ?_, by simp⟩ <;> simp [frameColumns, e5, e6]
  · refine k "diagnostic_codes" _ ?_
    rw [hkey]
    generalize "security.key_unused".toList = code at *
    by_cases h : key.isSome = true <;> simp [frameColumns, e3, h]
  · intro hw
    simp only [List.forall_mem_cons]
    refine ⟨k "meter_id" _ ?_, k "manufacturer_code" _ ?_, k "identity_source" _ ?_, by simp⟩ <;>
      simp [frameColumns, e8 hw]

/-- C167: the JSON texts of the command line program, JavaScript and Python, for a reset typed in any spelling, with or
without a key, on any line.  Missing: wired telegrams with the control field 53, whose data the decoder does not look at,
see `C167_fails`. -/
theorem C167_json_partial (cfg : Cfg) (env : CliEnv) (aes : AesBlock) (text : List Char) (data : List UInt8)
    (keyText : Option (List Char)) (key : Option (List UInt8)) (enrichment : Bool) (wired : Bool)
    (henv : ∀ bits, FiniteReal bits → NumberText (env.front.text.realText bits))
    (hx : Spelled text data) (hk : KeyGiven keyText key) (hs : ResetSent wired data) :
    AnsweredWell cfg env aes text keyText enrichment "json" (JsonReset wired keyText.isSome) :=
  bare_json cfg env aes text data keyText key enrichment _ wired henv hx hk (reset_decoded cfg aes data _ wired hs)

/-- C167 for the CSV texts. -/
theorem C167_csv_partial (cfg : Cfg) (env : CliEnv) (aes : AesBlock) (text : List Char) (data : List UInt8)
    (keyText : Option (List Char)) (key : Option (List UInt8)) (enrichment : Bool) (wired : Bool)
    (hx : Spelled text data) (hk : KeyGiven keyText key) (hs : ResetSent wired data) :
    AnsweredWell cfg env aes text keyText enrichment "csv" (CsvBare wired keyText.isSome) :=
  bare_csv cfg env aes text data keyText key enrichment _ wired hx hk (reset_decoded cfg aes data _ wired hs)

theorem reset_named (b : UInt8) : ∃ name, resetNames[b.toNat % 16]? = some name ∧
    resetShown (ApplicationResetSubcode.ofByte b) = [([.key name], some (number b.toNat))] := by
  have hb := reset_block b []
  have : ∃ mk, resetSubcodes[b.toNat % 16]? = some mk ∧ ApplicationResetSubcode.ofByte b = mk b := by
    generalize hd : ([0x50, b] : List UInt8) = data at hb
    generalize ApplicationResetSubcode.ofByte b = code at *
    generalize hc : UserDataBlock.reset code = blk at hb
    cases hb <;> cases hc
    · cases hd
      exact ⟨_, by assumption, rfl⟩
    · cases hd
  obtain ⟨mk, h, e⟩ := this
  rw [e]
  · have hn : b.toNat % 16 < 16 := Nat.mod_lt _ (by decide)
    generalize b.toNat % 16 = n at *
    have : n = 0 ∨ n = 1 ∨ n = 2 ∨ n = 3 ∨ n = 4 ∨ n = 5 ∨ n = 6 ∨ n = 7 ∨ n = 8 ∨ n = 9 ∨ n = 10 ∨ n = 11 ∨ n = 12 ∨
      n = 13 ∨ n = 14 ∨ n = 15 := by omega
    rcases this with rfl | rfl | rfl | rfl | rfl | rfl | rfl | rfl | rfl | rfl | rfl | rfl | rfl | rfl | rfl | rfl <;>
      (cases h; exact ⟨_, rfl, rfl⟩)

/-- C167 for the older JSON: it shows which data the meter shall send, by name and with the byte. -/
theorem C167_older_partial (cfg : Cfg) (env : FrontEnv) (older : OlderEnv) (aes : AesBlock) (input : List Char)
    (key : Option (List UInt8)) (hl : PrintsLiterals older.literal) (fn : Function) (a : Address) (b : UInt8)
    (rest : List UInt8) (h : WiredTelegram (cleanAndConvert input) (.longFrame fn a (0x50 :: b :: rest))) :
    ∃ text d name, serializeMbusData cfg env older aes input "json-legacy".toList key = .ok text ∧
      (∀ d', JsonText text d' ↔ d' = d) ∧ resetNames[b.toNat % 16]? = some name ∧
      follow [.key "user_data", .key "ResetAtApplicationLevel", .key "subcode", .key name] d = some (number b.toNat) ∧
      follow [.key "data_records"] d = some .null ∧ follow [.key "summary", .key "records", .at 0] d = none ∧
      follow [.key "summary", .key "identification_number"] d = none := by
  have hx := (C01_wired_accepts_exactly_telegrams cfg _ _).2 h
  have hb := reset_block b rest
  have hu := (C32_accepts_iff _ _).2 hb
  have hp : ∃ p, parseFrameOutput cfg env.text.realDisplay aes (cleanAndConvert input) key = .ok p ∧
      p.jsonRecords = none ∧ p.summary.records = [] ∧ p.summary.identificationNumber = none := by
    unfold parseFrameOutput MbusData.tryFromWired MbusData.ofPayload
    rw [hx, Res.bind_ok]
    simp only [hu]
    cases key <;> exact ⟨_, rfl, rfl, rfl, rfl⟩
  obtain ⟨p, hp, p1, p2, p3⟩ := hp
  obtain ⟨text, t1, -, t3⟩ := C137_wired cfg env older aes input key hl p hp _ h
    (some (.reset (ApplicationResetSubcode.ofByte b))) (by
      intro blk
      constructor
      · rintro h
        cases h
        exact ⟨_, _, _, rfl, hb⟩
      · rintro ⟨_, _, _, e, hb'⟩
        cases e
        have := (C32_accepts_iff _ _).2 hb'
        rw [hu] at this
        cases this
        rfl)
  obtain ⟨d, d1, -, -⟩ := C137_json cfg env older aes input key hl text t1
  obtain ⟨-, s⟩ := t3 d ((d1 d).2 rfl)
  obtain ⟨name, n1, n2⟩ := reset_named b
  refine ⟨text, d, name, t1, d1, n1, ?_, s.noRecords p1, ?_, ?_⟩
  · exact s.userData ([.key "user_data", .key "ResetAtApplicationLevel", .key "subcode", .key name], some (number b.toNat))
      (by simp [below, nullable, userDataShown, n2])
  · have := s.summaryRecords.2 0 (by rw [p2]; exact Nat.le_refl 0)
    exact this
  · have := s.summary ([.key "summary", .key "identification_number"], p.summary.identificationNumber.map Doc.str)
      (by simp [below, summaryShown])
    rw [p3] at this
    exact this

/-- C167 for the XML reports, which are reports of meters: there is none for a reset on a wired line. -/
theorem C167_xml_partial (cfg : Cfg) (env : XmlEnv) (aes : AesBlock) (data : List UInt8) (key : Option (List UInt8))
    (hs : ResetSent true data) : ∃ e, renderFromBytes cfg env aes data key = .err e := by
  obtain ⟨link, b, rest, ht, hw⟩ := hs
  have hl := hw.1 rfl
  have hu := (C32_accepts_iff _ _).2 (reset_block b rest)
  generalize hp : (0x50 :: b :: rest : List UInt8) = payload at ht hu
  cases ht with
  | wireless f frame _ _ _ => cases hl
  | wired fn address _ hw =>
    have hf := (C01_wired_accepts_exactly_telegrams cfg data _).2 hw
    unfold renderFromBytes MbusData.tryFromWired MbusData.ofPayload
    rw [hf, Res.bind_ok]
    simp only [hu]
    exact ⟨_, rfl⟩

/-! ## What is false -/

/-- C167 is false of resets with the control field 53, where the frame count bit is clear: nothing says that the
telegram is a reset, only that it is complete. -/
theorem C167_fails (cfg : Cfg) (aes : AesBlock) :
    ∃ o, decodeBytes cfg aes (longFrameBytes 0x68 0x53 0xFE [0x50, 0x12]) ⟨none, false⟩ = .ok o ∧
      (o.transport.headerKind = none ∧ o.decodeState = "complete".toList ∧ o.diagnostics = []) := by
  rw [decode_any_aes cfg aes (fun _ b => b)]
  cases cfg with
  | mk x y => cases x <;> cases y <;> exact checked _ (fun o : DecodedOutput => _ ∧ _ ∧ _) (by decide +kernel)

/-! ## The hypotheses are met -/

theorem sample_reset : WiredTelegram (longFrameBytes 0x68 0x73 0xFE [0x50, 0x12])
    (.longFrame (.sndUd true) (.broadcast true) [0x50, 0x12]) :=
  (C01_wired_accepts_exactly_telegrams cfgRelease _ _).1 (by decide +kernel)

/-- A reset to simple billing values, sent to any meter. -/
example : ResetSent true (longFrameBytes 0x68 0x73 0xFE [0x50, 0x12]) ∧ resetNames[(0x12 : UInt8).toNat % 16]? =
    some "SimpleBilling" :=
  ⟨⟨none, 0x12, [], .wired _ _ _ sample_reset, by simp⟩, by decide⟩

/-- Typed as pairs of digits: the JSON, and the older JSON with the name. -/
example (cfg : Cfg) (front : FrontEnv) (hf : front.text = sampleEnv) (aes : AesBlock) (enrichment : Bool) :
    AnsweredWell cfg (oneFile front "t.hex".toList []) aes (hexString (longFrameBytes 0x68 0x73 0xFE [0x50, 0x12])) none
      enrichment "json" (JsonReset true false) :=
  C167_json_partial cfg _ aes _ _ none none enrichment true
    (by intro bits h; show NumberText (front.text.realText bits); rw [hf]; exact sampleEnv_numbers bits h)
    ((decode_iff _ _).1 (by decide +kernel)) .none ⟨none, 0x12, [], .wired _ _ _ sample_reset, by simp⟩

example : WiredTelegram (cleanAndConvert (hexString (longFrameBytes 0x68 0x73 0xFE [0x50, 0x12])))
    (.longFrame (.sndUd true) (.broadcast true) [0x50, 0x12]) :=
  (C01_wired_accepts_exactly_telegrams cfgRelease _ _).1 (by decide +kernel)

end MBus
