import Verif.Spec.SentFixed
import Verif.Props.SentStatus
import Verif.Props.SentXml
import Verif.Props.XmlUnits
import Verif.Props.XmlNames
/-!
# C146: what a meter with the fixed data structure sends is what the user reads
-/
namespace MBus
open MBus.Spec MBus.Xml MBus.Spec.Xml

theorem fixed_status_words (s : SentStatus) : statusDisplay s.byte =
    if s.fixedWords = [] then "No Error(s)".toList else commaSeparated s.fixedWords := by
  rw [header_words]
  have e1 : (["Counter binary signed"] : List String).filter (fun _ => s.application.val % 2 = 1) =
      if s.application.val % 2 = 1 then ["Counter binary signed"] else [] := by split <;> simp [*]
  have e2 : (["Counter fixed date"] : List String).filter (fun _ => s.application.val / 2 = 1) =
      if s.application.val / 2 = 1 then ["Counter fixed date"] else [] := by split <;> simp [*]
  have e3 : (s.application.val = 0 ∧ s.raised = []) ↔ s.fixedWords = [] := by
    have := s.application.isLt
    unfold SentStatus.fixedWords
    by_cases h1 : s.application.val % 2 = 1 <;> by_cases h2 : s.application.val / 2 = 1 <;> simp [h1, h2] <;> omega
  rw [e1, e2]
  by_cases h : s.fixedWords = []
  · rw [if_pos h, if_pos (e3.2 h)]
  · rw [if_neg h, if_neg (fun g => h (e3.1 g))]
    rfl

theorem fixed_unit_bytes (u : Fin 64) (k : Nat) (hk : k < 4) :
    (UInt8.ofNat (u.val + 64 * k)).toNat % 64 = u.val ∧ (UInt8.ofNat (u.val + 64 * k)).toNat / 64 = k := by
  have := u.isLt
  simp only [UInt8.toNat_ofNat']
  omega

theorem fixed_stored_bit (s : SentStatus) : (s.byte &&& 0x40 != 0) = s.own2 := by
  obtain ⟨a, b1, b2, b3, b4, b5, b6⟩ := s
  revert a b1 b2 b3 b4 b5 b6
  decide +kernel

theorem be16_parts (a b : UInt8) : (le16 b a >>> 8).toUInt8 = a ∧ (le16 b a &&& 0xFF).toUInt8 = b := by
  have h1 := a.toNat_lt
  have h2 := b.toNat_lt
  constructor <;> apply UInt8.toNat_inj.1
  · simp only [le16, UInt16.toNat_toUInt8, UInt16.toNat_shiftRight, UInt16.toNat_ofNat']
    simp only [Nat.shiftRight_eq_div_pow]
    have : (8 : UInt16).toNat = 8 := rfl
    rw [this]
    norm_num
    omega
  · simp only [le16, UInt16.toNat_toUInt8, UInt16.toNat_and, UInt16.toNat_ofNat']
    have : (255 : UInt16).toNat = 2 ^ 8 - 1 := rfl
    rw [this, Nat.and_two_pow_sub_one_eq_mod]
    omega

theorem fixed_block (m : SentFixed) (hm : m.Valid) (hb : m.binary = false) (rest : List UInt8) :
    Block (0x73 :: m.bytes ++ rest)
      (.fixed m.number m.access m.status.byte
        (le16 (UInt8.ofNat (m.unit2.val + 64 * (m.medium.val / 4))) (UInt8.ofNat (m.unit1.val + 64 * (m.medium.val % 4))))
        m.counter1 m.counter2) := by
  have hc : ∀ v, m.counterBytes v = encodeBcd 4 v := fun v => by unfold SentFixed.counterBytes; rw [hb]; rfl
  have key : ∀ v, v < 10 ^ 8 → ∃ i0 i1 i2 i3, encodeBcd 4 v = [i0, i1, i2, i3] ∧ AllBcd [i0, i1, i2, i3] ∧
      bcdValue [i0, i1, i2, i3] = v := by
    intro v hv
    obtain ⟨i0, i1, i2, i3, h1, h2, -⟩ := hexString_encodeBcd v
    refine ⟨i0, i1, i2, i3, h1, h2, ?_⟩
    rw [← h1, bcdValue_encodeBcd]
    omega
  obtain ⟨i0, i1, i2, i3, e1, g1, v1⟩ := key m.number hm.1
  obtain ⟨a0, a1, a2, a3, e2, g2, v2⟩ := key m.counter1 hm.2.1
  obtain ⟨b0, b1, b2, b3, e3, g3, v3⟩ := key m.counter2 hm.2.2
  have := Block.fixed 0x73 i0 i1 i2 i3 m.access m.status.byte (UInt8.ofNat (m.unit1.val + 64 * (m.medium.val % 4)))
    (UInt8.ofNat (m.unit2.val + 64 * (m.medium.val / 4))) a0 a1 a2 a3 b0 b1 b2 b3 rest (.inl rfl) g1 g2 g3
  rw [v1, v2, v3] at this
  simp only [SentFixed.bytes, SentFixed.middle, hc, e1, e2, e3]
  exact this

/-- A telegram with the fixed data structure is always decoded: completely, and without records. -/
theorem fixed_decoded (cfg : Cfg) (aes : AesBlock) (data : List UInt8) (options : DecodeOptions)
    (link : Option ManufacturerId) (payload : List UInt8) (id : Nat) (access status : UInt8) (u : UInt16) (c1 c2 : Nat)
    (ht : Telegram data link payload) (hb : Block payload (.fixed id access status u c1 c2)) :
    ∃ o, decodeBytes cfg aes data options = .ok o ∧ o.records = [] ∧ o.decodeState = "complete".toList ∧
      (o.meter, o.transport) = meterAndTransport (some (.fixed id access status u c1 c2)) link := by
  obtain ⟨protocol, frame, normalized, stripped, hdec⟩ := decode_telegram cfg aes data link payload ht
  have hok : ∃ o, decodeBytes cfg aes data options = .ok o := by
    rw [hdec, (C32_accepts_iff _ _).2 hb]
    exact ⟨_, rfl⟩
  obtain ⟨o, ho⟩ := hok
  refine ⟨o, ho, ?_⟩
  rw [hdec, (C32_accepts_iff _ _).2 hb] at ho
  obtain ⟨c, outs, err, h1, h2, -, -, h3, h4, -, -, h5, -⟩ := finish_ok _ _ _ _ _ _ _ _ _ _ _ _ ho
  cases h1
  cases h2
  exact ⟨h4, h5, h3⟩

theorem fixed_identity (cfg : Cfg) (aes : AesBlock) (data : List UInt8) (options : DecodeOptions) (m : SentFixed)
    (hm : m.Valid) (hb : m.binary = false) (hs : FixedFrom m data) :
    ∃ o, decodeBytes cfg aes data options = .ok o ∧ o.records = [] ∧ o.decodeState = "complete".toList ∧
      (∃ device, o.meter = ⟨some ⟨"application.fixed".toList, some (eightDigits m.number), none, none, device, none⟩, []⟩) ∧
      o.transport.accessNumbers = [("application.fixed".toList, m.access)] ∧
      o.transport.statuses = [⟨"application.fixed".toList, hexDigits 2 m.status.byte.toNat,
        if m.status.fixedWords = [] then "No Error(s)".toList else commaSeparated m.status.fixedWords⟩] := by
  obtain ⟨link, rest, ht⟩ := hs
  obtain ⟨o, h1, h2, h3, h4⟩ := fixed_decoded cfg aes data options link _ _ _ _ _ _ _ ht (fixed_block m hm hb rest)
  obtain ⟨i0, i1, i2, i3, e, g, v⟩ := hexString_encodeBcd m.number
  have hid : idDisplay m.number = eightDigits m.number := by
    rw [← v, ← idDisplay_bcd i0 i1 i2 i3 g, ← e, bcdValue_encodeBcd]
    congr 1
    have := hm.1
    omega
  have m1 : o.meter = (meterAndTransport _ link).1 := congrArg Prod.fst h4
  have m2 : o.transport = (meterAndTransport _ link).2 := congrArg Prod.snd h4
  rw [← fixed_status_words, ← hexDigits_byte, ← hid]
  exact ⟨o, h1, h2, h3, ⟨_, m1⟩, by rw [m2]; rfl, by rw [m2]; rfl⟩

/-- What the JSON texts show of one identity, access number and status. -/
theorem single_header_json (cfg : Cfg) (env : TextEnv) (aes : AesBlock) (data : List UInt8) (options : DecodeOptions)
    (henv : ∀ bits, FiniteReal bits → NumberText (env.realText bits)) (o : DecodedOutput)
    (h : decodeBytes cfg aes data options = .ok o) (source state id raw words : List Char) (access : UInt8)
    (device : Option (List Char)) (hr : o.records = []) (hst : o.decodeState = state)
    (e0 : o.meter.identity = some ⟨source, some id, none, none, device, none⟩)
    (e1 : o.transport.accessNumbers = [(source, access)]) (e2 : o.transport.statuses = [⟨source, raw, words⟩]) :
    ∃ d, JsonText (renderJson env o) d ∧ JsonText (compactJson (o.doc env)) d ∧
      follow [.key "decode_state"] d = some (.str state) ∧ follow [.key "records", .at 0] d = none ∧
      follow [.key "meter", .key "identity", .key "source"] d = some (.str source) ∧
      follow [.key "meter", .key "identity", .key "id"] d = some (.str id) ∧
      follow [.key "meter", .key "identity", .key "manufacturer_code"] d = none ∧
      follow [.key "meter", .key "identity", .key "version"] d = none ∧
      follow [.key "transport", .key "access_numbers", .at 0, .key "value"] d = some (number access.toNat) ∧
      follow [.key "transport", .key "access_numbers", .at 1] d = none ∧
      follow [.key "transport", .key "statuses", .at 0, .key "raw"] d = some (.str raw) ∧
      follow [.key "transport", .key "statuses", .at 0, .key "display"] d = some (.str words) ∧
      follow [.key "transport", .key "statuses", .at 1] d = none := by
  obtain ⟨d, h1, h2, -, h4⟩ := C112_json cfg env aes data options o henv h
  have hf : ∀ f ∈ identityFields o.meter.identity, follow ([.key "meter", .key "identity"] ++ f.1) d = f.2 := by
    intro f hf
    exact h4.fields (_, f.2) (by
      unfold telegramFields below
      exact List.mem_append_right _ (List.mem_map.2 ⟨f, hf, rfl⟩))
  have r0 := h4.ends ([.key "records"], _) (by unfold telegramLists; exact List.mem_cons_self) 0 (by simp [hr])
  have q0 := h4.fields ([.key "decode_state"], some (Doc.str o.decodeState)) (by simp [telegramFields])
  have a0 := h4.elements ([.key "transport", .key "access_numbers"], _) (by
    unfold telegramLists; exact List.mem_cons_of_mem _ (List.mem_cons_of_mem _ (List.mem_cons_of_mem _ List.mem_cons_self)))
    0 (by simp [e1])
  have a1 := h4.ends ([.key "transport", .key "access_numbers"], _) (by
    unfold telegramLists; exact List.mem_cons_of_mem _ (List.mem_cons_of_mem _ (List.mem_cons_of_mem _ List.mem_cons_self)))
    1 (by simp [e1])
  have s0 := h4.elements ([.key "transport", .key "statuses"], _) (by
    unfold telegramLists; exact List.mem_cons_of_mem _ (List.mem_cons_of_mem _ (List.mem_cons_of_mem _
      (List.mem_cons_of_mem _ List.mem_cons_self)))) 0 (by simp [e2])
  have s1 := h4.ends ([.key "transport", .key "statuses"], _) (by
    unfold telegramLists; exact List.mem_cons_of_mem _ (List.mem_cons_of_mem _ (List.mem_cons_of_mem _
      (List.mem_cons_of_mem _ List.mem_cons_self)))) 1 (by simp [e2])
  simp only [e1, e2, List.map_cons, List.map_nil, List.getElem_cons_zero, List.forall_mem_cons, List.cons_append,
    List.nil_append] at a0 a1 s0 s1
  rw [hst] at q0
  rw [e0] at hf
  simp only [identityFields, List.forall_mem_cons, List.cons_append, List.nil_append, Option.map_some, Option.bind_some,
    Option.map_none] at hf
  obtain ⟨k1, k2, k3, k4, -⟩ := hf
  exact ⟨d, h1, h2, q0, r0, k1, k2, k3, k4, a0.2.1, a1, s0.2.1, s0.2.2.1, s1⟩

theorem fixed_json (cfg : Cfg) (env : TextEnv) (aes : AesBlock) (data : List UInt8) (options : DecodeOptions)
    (henv : ∀ bits, FiniteReal bits → NumberText (env.realText bits)) (m : SentFixed)
    (hm : m.Valid) (hb : m.binary = false) (hs : FixedFrom m data) :
    ∃ o, decodeBytes cfg aes data options = .ok o ∧ JsonFixed m (renderJson env o) ∧
      JsonFixed m (compactJson (o.doc env)) ∧
      ∃ d, JsonText (renderJson env o) d ∧ follow [.key "decode_state"] d = some (.str "complete".toList) ∧
        follow [.key "records", .at 0] d = none := by
  obtain ⟨o, h, hr, hst, ⟨device, e0⟩, e1, e2⟩ := fixed_identity cfg aes data options m hm hb hs
  obtain ⟨d, h1, h2, q0, r0, k1, k2, k3, k4, a0, a1, s0, s1, s2⟩ := single_header_json cfg env aes data options henv o h
    _ _ _ _ _ _ device hr hst (by rw [e0]) e1 e2
  exact ⟨o, h, ⟨d, fun d' => ⟨fun h => json_eq h h1, fun h => h ▸ h1⟩, k1, k2, k3, k4, ⟨a0, a1⟩, s0, s1, s2⟩,
    ⟨d, fun d' => ⟨fun h => json_eq h h2, fun h => h ▸ h2⟩, k1, k2, k3, k4, ⟨a0, a1⟩, s0, s1, s2⟩,
    d, h1, q0, r0⟩

/-- C146: for a telegram with the fixed data structure, given as text in any spelling and with or without a key, the JSON
texts of the command line program, JavaScript and Python show the eight digits of the meter, its access number, the code of
its status and the words of exactly what the status says.  Missing: the medium and the counters, see
`C146_counters_fails`; counters in binary code, see `C146_binary_fails`; the CI field 77, see `C146_reversed_fails`. -/
theorem C146_json_partial (cfg : Cfg) (env : CliEnv) (aes : AesBlock) (text : List Char) (data : List UInt8)
    (keyText : Option (List Char)) (key : Option (List UInt8)) (enrichment : Bool) (m : SentFixed)
    (henv : ∀ bits, FiniteReal bits → NumberText (env.front.text.realText bits))
    (hx : Spelled text data) (hk : KeyGiven keyText key) (hm : m.Valid) (hb : m.binary = false) (hs : FixedFrom m data) :
    AnsweredWell cfg env aes text keyText enrichment "json" (JsonFixed m) ∧
      ∃ out, pyParse cfg env.front aes (.text text) (keyText.map .text) enrichment = .ok out ∧ JsonFixed m out := by
  obtain ⟨o, ho, j1, j2, -⟩ := fixed_json cfg env.front.text aes data ⟨key, enrichment⟩ henv m hm hb hs
  refine ⟨answered_well cfg env aes text data keyText key enrichment "json" .json (by decide +kernel) _ hx hk
    (fun width => ⟨_, by simp [renderBytes, ho, renderDecoded, Res.mapErr], j1⟩), _, ?_, j2⟩
  have hp : pyKey (keyText.map .text) = .ok key := by
    cases hk with
    | none => rfl
    | key t k hkt => exact (C115_same_key t k (((C115_cli_key t).1 k).2 hkt)).2.1
  simp [pyParse, pyBytes_text, (decode_iff text data).2 hx, hp, ho, Res.mapErr]

/-- C146 for the CSV texts: the eight digits, the access number and the code of the status. -/
theorem C146_csv_partial (cfg : Cfg) (env : CliEnv) (aes : AesBlock) (text : List Char) (data : List UInt8)
    (keyText : Option (List Char)) (key : Option (List UInt8)) (enrichment : Bool) (m : SentFixed)
    (hx : Spelled text data) (hk : KeyGiven keyText key) (hm : m.Valid) (hb : m.binary = false) (hs : FixedFrom m data) :
    AnsweredWell cfg env aes text keyText enrichment "csv" (CsvFixed m) := by
  obtain ⟨o, h, -, -, ⟨device, e0⟩, e1, e2⟩ := fixed_identity cfg aes data ⟨key, enrichment⟩ m hm hb hs
  have hsrc : "application.fixed:".toList = "application.fixed".toList ++ [':'] := by decide +kernel
  unfold CsvFixed
  rw [hsrc]
  generalize "application.fixed".toList = source at *
  generalize (if m.status.fixedWords = [] then "No Error(s)".toList else commaSeparated m.status.fixedWords) = words at *
  have hn : (o.records.map (·.index)).Nodup := C89_indices cfg aes data _ o h ▸ List.nodup_range
  obtain ⟨out, e, g⟩ := C113_csv env.front.text o
  obtain ⟨h1, h2⟩ := C92_rows env.front.text o
  have k := fun n v hv => C92_frame env.front.text o hn n v hv
  refine answered_well cfg env aes text data keyText key enrichment "csv" .csv (by decide +kernel) _ hx hk
    (fun width => ⟨out, by simp [renderBytes, h, renderDecoded, Res.mapErr, e], _, _, g,
      C92_distinct env.front.text o hn, h2.trans h1.symm, k "meter_id" _ ?_, k "manufacturer_code" _ ?_,
      k "access_numbers" _ ?_, k "status_codes" _ ?_⟩) <;>
    simp [frameColumns, e0, e1, e2]

theorem fixed_rendered (cfg : Cfg) (env : XmlEnv) (aes : AesBlock) (data : List UInt8)
    (link : Option ManufacturerId) (payload : List UInt8) (id : Nat) (access status : UInt8) (u : UInt16) (c1 c2 : Nat)
    (ht : Telegram data link payload) (hb : Block payload (.fixed id access status u c1 c2)) (key : Option (List UInt8)) :
    renderFromBytes cfg env aes data key = .ok (renderFixed id access status u c1 c2) := by
  have hu := (C32_accepts_iff _ _).2 hb
  rcases render_telegram cfg env aes data link payload _ ht hb key with ⟨hl, -⟩ | ⟨f, -, -, hr⟩
  · subst hl
    cases ht with
    | wired fn address _ hw =>
      have hf := (C01_wired_accepts_exactly_telegrams cfg data _).2 hw
      unfold renderFromBytes MbusData.tryFromWired MbusData.ofPayload
      rw [hf, Res.bind_ok]
      simp only [hu]
  · rw [hr]
    rfl

/-- The report of any telegram with the fixed data structure and BCD counters. -/
theorem fixed_xml (cfg : Cfg) (env : XmlEnv) (aes : AesBlock) (data : List UInt8) (key : Option (List UInt8))
    (m : SentFixed) (hm : m.Valid) (hb : m.binary = false) (hs : FixedFrom m data) :
    ∃ text, renderFromBytes cfg env aes data key = .ok text ∧
      let function := leaf "Function".toList (if m.status.own2 then "Stored value" else "Actual value").toList
      let unit := fun u : Fin 64 => leaf "Unit".toList (fixedUnit (UInt8.ofNat u.val)).toList
      IsReport text
        [leaf "Id".toList (decimal m.number), leaf "Medium".toList (fixedMedia[m.medium.val]?.getD "").toList,
          leaf "AccessNumber".toList (decimal m.access.toNat), leaf "Status".toList (hexDigits 2 m.status.byte.toNat)]
        [(0, [function, unit m.unit1, leaf "Value".toList (decimal m.counter1)]),
          (1, [function, unit m.unit2, leaf "Value".toList (decimal m.counter2)])] := by
  obtain ⟨link, rest, ht⟩ := hs
  refine ⟨_, fixed_rendered cfg env aes data link _ _ _ _ _ _ _ ht (fixed_block m hm hb rest) key, ?_⟩
  have := fixed_report m.number m.access m.status.byte
    (le16 (UInt8.ofNat (m.unit2.val + 64 * (m.medium.val / 4))) (UInt8.ofNat (m.unit1.val + 64 * (m.medium.val % 4))))
    m.counter1 m.counter2
  rw [(be16_parts _ _).1, (be16_parts _ _).2, fixed_stored_bit] at this
  have l1 : m.medium.val % 4 < 4 := by omega
  have l2 : m.medium.val / 4 < 4 := by have := m.medium.isLt; omega
  have hmed : fixedMedium (UInt8.ofNat (m.unit1.val + 64 * (m.medium.val % 4)))
      (UInt8.ofNat (m.unit2.val + 64 * (m.medium.val / 4))) = fixedMedia[m.medium.val]?.getD "" := by
    have := C82_fixed_medium (UInt8.ofNat (m.unit1.val + 64 * (m.medium.val % 4)))
      (UInt8.ofNat (m.unit2.val + 64 * (m.medium.val / 4)))
    rw [(fixed_unit_bytes _ _ l1).2, (fixed_unit_bytes _ _ l2).2, Nat.mod_add_div] at this
    rw [← this]
    rfl
  have hunit : ∀ (u : Fin 64) (k : Fin 4), fixedUnit (UInt8.ofNat (u.val + 64 * k.val)) = fixedUnit (UInt8.ofNat u.val) := by
    decide +kernel
  have hu1 := hunit m.unit1 ⟨_, l1⟩
  have hu2 := hunit m.unit2 ⟨_, l2⟩
  simp only at hu1 hu2
  rw [hmed] at this
  simp only [List.zipIdx_cons, List.zipIdx_nil, List.map_cons, List.map_nil, hu1, hu2, ← hexDigits_byte] at this ⊢
  exact this

/-- C146 for the XML reports: the identification number, the medium, the access number, the status, and the two counters,
each with its unit and whether it is the actual one or was stored.  Missing: the units with the codes 0D and 0E (C79),
counters in binary code, see `C146_binary_fails`, and the CI field 77, see `C146_reversed_fails`.  The report takes the
mark of stored values from another bit of the status; here this bit, the second flag of the manufacturer, has the same
value, see `C146_stored_fails`. -/
theorem C146_xml_partial (cfg : Cfg) (env : CliEnv) (aes : AesBlock) (text : List Char) (data : List UInt8)
    (keyText : Option (List Char)) (key : Option (List UInt8)) (enrichment : Bool) (m : SentFixed)
    (hx : Spelled text data) (hk : KeyGiven keyText key) (hm : m.Valid) (hb : m.binary = false) (hs : FixedFrom m data)
    (hu : ∀ u ∈ [m.unit1, m.unit2], u.val ≠ 0x0D ∧ u.val ≠ 0x0E) (ho : m.status.own2 = m.stored) :
    AnsweredWell cfg env aes text keyText enrichment "xml" (XmlFixed m) := by
  obtain ⟨out, h1, h2⟩ := fixed_xml cfg env.front.xml aes data key m hm hb hs
  refine answered_well cfg env aes text data keyText key enrichment "xml" .xml (by decide +kernel) _ hx hk
    (fun width => ⟨out, by simp [renderBytes, h1, Res.mapErr], ?_⟩)
  have key : ∀ u ∈ [m.unit1, m.unit2], fixedUnit (UInt8.ofNat u.val) = fixedUnits[u.val]?.getD "" := by
    intro u h
    have e := fixed_unit_bytes u 0 (by omega)
    have := C79_fixed_units_partial (UInt8.ofNat u.val) (by simpa using e.1.trans_ne (hu u h).1)
      (by simpa using e.1.trans_ne (hu u h).2)
    have e1 : (UInt8.ofNat u.val).toNat % 64 = u.val := by simpa using e.1
    rw [e1] at this
    rw [this]
    rfl
  simp only [ho, key m.unit1 (by simp), key m.unit2 (by simp)] at h2
  exact h2

/-! ## What is false -/

/-- C146 is false of the counters in the JSON texts: the output of every such telegram is called complete and has no
records, whatever the counters are. -/
theorem C146_counters_fails (cfg : Cfg) (env : TextEnv) (aes : AesBlock) (data : List UInt8) (options : DecodeOptions)
    (henv : ∀ bits, FiniteReal bits → NumberText (env.realText bits)) (m : SentFixed)
    (hm : m.Valid) (hb : m.binary = false) (hs : FixedFrom m data) :
    ∃ o d, decodeBytes cfg aes data options = .ok o ∧ JsonText (renderJson env o) d ∧
      follow [.key "decode_state"] d = some (.str "complete".toList) ∧ follow [.key "records", .at 0] d = none := by
  obtain ⟨o, h, -, -, d, h1, h2, h3⟩ := fixed_json cfg env aes data options henv m hm hb hs
  exact ⟨o, d, h, h1, h2, h3⟩

/-- C146 is false of counters stored at the key date in the XML report: they are called actual values unless a flag of the
manufacturer is raised too, while the words of the status in the structured output say that they are stored. -/
theorem C146_stored_fails (cfg : Cfg) (env : XmlEnv) (aes : AesBlock) (data : List UInt8) (options : DecodeOptions)
    (m : SentFixed) (hm : m.Valid) (hb : m.binary = false) (hs : FixedFrom m data) (hst : m.stored = true)
    (ho : m.status.own2 = false) :
    (∃ text info r0 r1, renderFromBytes cfg env aes data options.key = .ok text ∧ IsReport text info [(0, r0), (1, r1)] ∧
      ∀ r ∈ [r0, r1], leaf "Function".toList "Actual value".toList ∈ r) ∧
    ∃ o words, decodeBytes cfg aes data options = .ok o ∧
      o.transport.statuses.map (·.display) = [commaSeparated words] ∧ "Counter fixed date" ∈ words := by
  obtain ⟨text, h1, h2⟩ := fixed_xml cfg env aes data options.key m hm hb hs
  obtain ⟨o, h3, -, -, -, -, h4⟩ := fixed_identity cfg aes data options m hm hb hs
  have hw : "Counter fixed date" ∈ m.status.fixedWords := by
    have : m.status.application.val / 2 = 1 := of_decide_eq_true hst
    simp [SentStatus.fixedWords, this]
  have hne : m.status.fixedWords ≠ [] := List.ne_nil_of_mem hw
  refine ⟨⟨text, _, _, _, h1, h2, ?_⟩, o, m.status.fixedWords, h3, by rw [h4, if_neg hne]; rfl, hw⟩
  intro r hr
  simp only [List.mem_cons, List.not_mem_nil, or_false] at hr
  rcases hr with rfl | rfl <;> simp [ho]

/-- A meter with counters in binary code: 4660 and 22136. -/
def binaryMeter : SentFixed := ⟨12345678, 0x2A, ⟨1, false, false, false, false, false, false⟩, 7, 0x2C, 0x2C, 0x1234, 0x5678⟩

/-- A water meter with 1234 l and 5678 l stored at the key date. -/
def storedMeter : SentFixed := ⟨12345678, 0x2A, ⟨2, false, false, false, false, false, false⟩, 7, 0x29, 0x29, 1234, 5678⟩

/-- A water meter with a permanent error, 1234 l and 5678 l. -/
def waterMeter : SentFixed := ⟨12345678, 0x2A, ⟨0, false, true, false, false, false, false⟩, 7, 0x29, 0x29, 1234, 5678⟩

theorem fixed_from (m : SentFixed) (a : Address)
    (h : WiredFrame.tryFrom cfgRelease (longFrameBytes 0x68 0x08 0x05 (0x73 :: m.bytes)) =
      .ok (.longFrame (.rspUd false false) a (0x73 :: m.bytes))) :
    FixedFrom m (longFrameBytes 0x68 0x08 0x05 (0x73 :: m.bytes)) :=
  ⟨none, [], by rw [List.append_nil]; exact wired_telegram _ _ _ _ h⟩

/-- C146 is false of binary counters: the report of a meter that sends 4660 and 22136 in binary code shows 1234 and 5678,
as if they were coded in BCD. -/
theorem C146_binary_fails (cfg : Cfg) (env : XmlEnv) (aes : AesBlock) (key : Option (List UInt8)) :
    binaryMeter.Valid ∧ binaryMeter.binary = true ∧ (binaryMeter.counter1, binaryMeter.counter2) = (4660, 22136) ∧
    ∃ data, FixedFrom binaryMeter data ∧ ∃ text info function unit1 unit2,
      renderFromBytes cfg env aes data key = .ok text ∧
      IsReport text info [(0, [function, unit1, leaf "Value".toList "1234".toList]),
        (1, [function, unit2, leaf "Value".toList "5678".toList])] := by
  have hs := fixed_from binaryMeter (.primary 5) (by decide +kernel)
  refine ⟨by decide, by decide, rfl, _, hs, ?_⟩
  have ht : Telegram (longFrameBytes 0x68 0x08 0x05 (0x73 :: binaryMeter.bytes)) none (0x73 :: binaryMeter.bytes) :=
    wired_telegram _ _ (.rspUd false false) (.primary 5) (by decide +kernel)
  have hb : Block (0x73 :: binaryMeter.bytes) (.fixed 12345678 0x2A 1 (le16 0x6C 0xEC) 1234 5678) :=
    Block.fixed 0x73 0x78 0x56 0x34 0x12 0x2A 1 0xEC 0x6C 0x34 0x12 0 0 0x78 0x56 0 0 [] (.inl rfl) (by decide) (by decide)
      (by decide)
  have h := fixed_report 12345678 0x2A 1 (le16 0x6C 0xEC) 1234 5678
  have e1 : decimal 1234 = "1234".toList := by decide +kernel
  have e2 : decimal 5678 = "5678".toList := by decide +kernel
  simp only [List.zipIdx_cons, List.zipIdx_nil, List.map_cons, List.map_nil, e1, e2] at h
  exact ⟨_, _, _, _, _, fixed_rendered cfg env aes _ _ _ _ _ _ _ _ _ ht hb key, h⟩

/-- C146 is false of the CI field 77, where all numbers have their high byte first: the meter 12345678 is shown with the
number 78563412. -/
theorem C146_reversed_fails (cfg : Cfg) (aes : AesBlock) (options : DecodeOptions) :
    waterMeter.number = 12345678 ∧ ∃ data, Telegram data none (0x77 :: waterMeter.reversedBytes) ∧
      ∃ o i, decodeBytes cfg aes data options = .ok o ∧ o.meter.identity = some i ∧ i.id = some "78563412".toList := by
  have ht : Telegram (longFrameBytes 0x68 0x08 0x05 (0x77 :: waterMeter.reversedBytes)) none
      (0x77 :: waterMeter.reversedBytes) := wired_telegram _ _ (.rspUd false false) (.primary 5) (by decide +kernel)
  have hb : Block (0x77 :: waterMeter.reversedBytes) (.fixed 78563412 0x2A 8 (le16 0x69 0xE9) 34120000 78560000) :=
    Block.fixed 0x77 0x12 0x34 0x56 0x78 0x2A 8 0xE9 0x69 0 0 0x12 0x34 0 0 0x56 0x78 [] (.inr rfl) (by decide) (by decide)
      (by decide)
  obtain ⟨o, h1, -, -, h2⟩ := fixed_decoded cfg aes _ options none _ _ _ _ _ _ _ ht hb
  exact ⟨rfl, _, ht, o, _, h1, congrArg (fun p => p.1.identity) h2, by decide +kernel⟩

/-! ## The hypotheses are met -/

/-- The water meter, typed as pairs of digits: JSON and XML. -/
example (cfg : Cfg) (front : FrontEnv) (hf : front.text = sampleEnv) (aes : AesBlock) (enrichment : Bool) :
    AnsweredWell cfg (oneFile front "t.hex".toList []) aes
        (hexString (longFrameBytes 0x68 0x08 0x05 (0x73 :: waterMeter.bytes))) none enrichment "json" (JsonFixed waterMeter) ∧
      AnsweredWell cfg (oneFile front "t.hex".toList []) aes
        (hexString (longFrameBytes 0x68 0x08 0x05 (0x73 :: waterMeter.bytes))) none enrichment "xml" (XmlFixed waterMeter) ∧
      waterMeter.status.fixedWords = ["Permanent error"] ∧ fixedMedia[waterMeter.medium.val]? = some "Water" ∧
      fixedUnits[waterMeter.unit1.val]? = some "l" := by
  have hs := fixed_from waterMeter (.primary 5) (by decide +kernel)
  have hx : Spelled (hexString (longFrameBytes 0x68 0x08 0x05 (0x73 :: waterMeter.bytes)))
      (longFrameBytes 0x68 0x08 0x05 (0x73 :: waterMeter.bytes)) :=
    (decode_iff _ _).1 (by decide +kernel)
  exact ⟨(C146_json_partial cfg _ aes _ _ none none enrichment waterMeter
      (by intro bits h; show NumberText (front.text.realText bits); rw [hf]; exact sampleEnv_numbers bits h)
      hx .none (by decide) (by decide) hs).1,
    C146_xml_partial cfg _ aes _ _ none none enrichment waterMeter hx .none (by decide) (by decide) hs (by decide)
      (by decide), by decide +kernel, by decide +kernel, by decide +kernel⟩

/-- A meter with stored counters: `C146_stored_fails` is about telegrams that exist. -/
example : storedMeter.Valid ∧ storedMeter.binary = false ∧ storedMeter.stored = true ∧ storedMeter.status.own2 = false ∧
    FixedFrom storedMeter (longFrameBytes 0x68 0x08 0x05 (0x73 :: storedMeter.bytes)) :=
  ⟨by decide, by decide, by decide, by decide, fixed_from storedMeter (.primary 5) (by decide +kernel)⟩

end MBus
