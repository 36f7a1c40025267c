import Verif.Spec.SentBytes
import Verif.Props.SentCsv
import Verif.Lemmas.LegacyJson
/-!
# C149: nothing of the data of a telegram is lost in the texts
-/
namespace MBus
open MBus.Spec

theorem rest_before_error (cfg : Cfg) (lsb : Bool) (data : List UInt8) (rs : List DataRecord)
    (x : Res RecordError DataRecord) (hx : ∀ r, x ≠ .ok r) (h : parseDataRecords cfg lsb data = rs.map .ok ++ [x]) :
    ∃ done rest, data = done ++ rest ∧ Tiles done (rs.map (·.rawBytes)) ∧ rest ≠ [] := by
  rw [C27_items] at h
  generalize hi : rs.map Res.ok ++ [x] = items at h
  induction h generalizing rs with
  | nil => simp at hi
  | skip b data items hs _ ih =>
    obtain ⟨d, r, h1, h2, h3⟩ := ih rs hi
    exact ⟨b :: d, r, by simp [h1], .skip _ _ _ hs h2, h3⟩
  | record b data rest r items _ _ hr hne _ ih =>
    cases rs with
    | nil =>
      simp only [List.map_nil, List.nil_append, List.cons.injEq] at hi
      exact absurd hi.1 (hx r)
    | cons r' rs =>
      simp only [List.map_cons, List.cons_append, List.cons.injEq, Res.ok.injEq] at hi
      obtain ⟨rfl, hi⟩ := hi
      obtain ⟨d, rr, h1, h2, h3⟩ := ih rs hi
      exact ⟨r'.rawBytes ++ d, rr, by rw [hr, h1, List.append_assoc], .piece _ _ _ hne h2, h3⟩
  | fail b data _ hf =>
    cases rs with
    | nil => exact ⟨[], b :: data, rfl, .nil, by simp⟩
    | cons r rs =>
      simp only [List.map_cons, List.cons_append, List.cons.injEq] at hi
      exact absurd hi.1.symm (hf r)

theorem items_accounted (cfg : Cfg) (d : List UInt8) (rs : List DataRecord) :
    (parseDataRecords cfg false d = rs.map .ok →
      ∃ pieces, Accounted d pieces "complete".toList ∧ List.Forall₂ ShowsBytes (recordOutputs rs) pieces) ∧
    (∀ e, parseDataRecords cfg false d = rs.map .ok ++ [.err e] →
      ∃ pieces, Accounted d pieces "partial".toList ∧ List.Forall₂ ShowsBytes (recordOutputs rs) pieces) := by
  refine ⟨fun hi => ⟨_, ⟨d, [], by simp, C28_records_tile cfg false d rs hi, .inl ⟨rfl, rfl⟩⟩,
    shown_pieces cfg false d rs (by intro r hr; rw [hi]; simpa using hr)⟩, fun e hi => ?_⟩
  obtain ⟨done, rest, h1, h2, h3⟩ := rest_before_error cfg false d rs _ (by simp) hi
  exact ⟨_, ⟨done, rest, h1, h2, .inr ⟨rfl, h3⟩⟩,
    shown_pieces cfg false d rs (by intro r hr; rw [hi]; simpa using hr)⟩

theorem finish_accounted {F : Type} (cfg : Cfg) (aes : AesBlock) (protocol : List Char) (frame : FrameOutput)
    (data normalized : List UInt8) (stripped : Bool) (payload : Option (List UInt8)) (parsed : MbusData F)
    (link : Option ManufacturerId) (options : DecodeOptions) (c : SecurityContext) (d : List UInt8) (o : DecodedOutput)
    (hc : prepareSecurity aes parsed.userData link options.key (List.replicate 512 0) = .ok c)
    (hrec : recordsToShow parsed c = some (DataRecords.new d false)) (he : parsed.applicationError = none)
    (hdec : c.decrypted = true)
    (h : finish cfg aes protocol frame data normalized stripped payload parsed link options = .ok o) :
    ∃ pieces, Accounted d pieces o.decodeState ∧ List.Forall₂ ShowsBytes o.records pieces := by
  unfold finish at h
  rw [hc] at h
  obtain ⟨rs, hi | ⟨e, hi⟩ | hi⟩ := items_shape cfg d
  · simp only [buildOutput, hrec, C54_no_error cfg (DataRecords.new d false) rs hi, he, hdec] at h
    cases h
    obtain ⟨pieces, h1, h2⟩ := (items_accounted cfg d rs).1 hi
    exact ⟨pieces, by simpa using h1, h2⟩
  · simp only [buildOutput, hrec, C54_reported cfg (DataRecords.new d false) rs e hi, he, hdec] at h
    cases h
    obtain ⟨pieces, h1, h2⟩ := (items_accounted cfg d rs).2 e hi
    exact ⟨pieces, by simpa using h1, h2⟩
  · have hp : collectRecords cfg (some (DataRecords.new d false)) = none := by
      have := collectItems_panic rs [] 0
      rw [← hi] at this
      exact this
    simp only [buildOutput, hrec, hp] at h
    cases h

/-- C149: the records decoded hold the bytes of the data. -/
theorem C149_decoded (cfg : Cfg) (key : Option (List UInt8)) (enrich : Bool) (data d : List UInt8) (o : DecodedOutput)
    (hs : Carries key data d) (h : decodeBytes cfg Aes.aes128 data ⟨key, enrich⟩ = .ok o) :
    ∃ pieces, Accounted d pieces o.decodeState ∧ List.Forall₂ ShowsBytes o.records pieces := by
  cases hs with
  | clear _ _ link payload _ ht hd =>
    obtain ⟨h1, h2, h3⟩ := clear_decode cfg Aes.aes128 data link payload d ⟨key, enrich⟩ ht hd
    obtain ⟨rs, hi | ⟨e, hi⟩ | hi⟩ := items_shape cfg d
    · obtain ⟨o', ho, hr, hs, _⟩ := h1 rs hi
      rw [h] at ho; cases ho
      rw [hr, hs]
      exact (items_accounted cfg d rs).1 hi
    · obtain ⟨o', ho, hr, hs, _⟩ := h2 rs e hi
      rw [h] at ho; cases ho
      rw [hr, hs]
      exact (items_accounted cfg d rs).2 e hi
    · rw [h3 rs hi] at h; cases h
  | long key i0 i1 i2 i3 m0 m1 version device acc st c0 c1 code iv blocks tail _ link hk hb hcode hiv hbl hne ht hs =>
    have hlen : ∀ b, b.length = 16 → (Aes.encrypt key b).length = 16 := fun b hb => Aes.encrypt_length key b hk hb
    have hinv : ∀ b, b.length = 16 → Aes.aes128 key (Aes.encrypt key b) = b := fun b hb => (C124_cipher key b hk hb).2.2
    have hsz := telegram_length _ _ _ hs
    have hivl : iv.length = 16 := by cases hiv <;> simp [headerIv]
    rw [List.length_append, List.length_append, cbcEncrypt_length _ key hlen blocks iv hivl hbl] at hsz
    obtain ⟨pr, fr, no, sp, hd⟩ := decode_telegram cfg Aes.aes128 data link _ hs
    have u := (C32_accepts_iff _ _).2 (.long false i0 i1 i2 i3 m0 m1 version device acc st c0 c1
      (cbcEncrypt Aes.encrypt key iv blocks ++ tail) hb)
    rw [show longCi false = 0x72 from rfl] at u
    rw [hd, u] at h
    exact finish_accounted _ _ _ _ _ _ _ _ _ _ _ _ _ _
      (prepare_long Aes.encrypt Aes.aes128 key hk hlen hinv none _ code hcode iv
        (headerIv_context m0 m1 i0 i1 i2 i3 version device acc st c0 c1 hb code hcode iv hiv)
        blocks hbl hne tail ht (by simp at hsz; omega) link) rfl rfl rfl h
  | short key ci acc st c0 c1 m0 m1 d0 d1 d2 d3 device link iv blocks tail _ hk hci hb hcode hid hdev hiv hbl hne ht hs =>
    have hlen : ∀ b, b.length = 16 → (Aes.encrypt key b).length = 16 := fun b hb => Aes.encrypt_length key b hk hb
    have hinv : ∀ b, b.length = 16 → Aes.aes128 key (Aes.encrypt key b) = b := fun b hb => (C124_cipher key b hk hb).2.2
    have hsz := telegram_length _ _ _ hs
    have hivl : iv.length = 16 := by cases hiv <;> simp [headerIv]
    rw [List.length_append, List.length_append, cbcEncrypt_length _ key hlen blocks iv hivl hbl] at hsz
    obtain ⟨pr, fr, no, sp, hd⟩ := decode_telegram cfg Aes.aes128 data (some link) _ hs
    have u := (C32_accepts_iff _ _).2 (.short ci acc st c0 c1 (cbcEncrypt Aes.encrypt key iv blocks ++ tail) hci)
    rw [hd, u] at h
    have hmm := headerIv_context m0 m1 d0 d1 d2 d3 link.version device acc st c0 c1 hb _ hcode iv hiv
    rw [← hid, ← hdev] at hmm
    obtain ⟨l, hl⟩ := prepare_short Aes.encrypt Aes.aes128 key hk hlen hinv none ⟨acc, st, ⟨le16 c0 c1⟩⟩
      link iv hmm blocks hbl hne tail ht (by simp at hsz; omega)
    exact finish_accounted _ _ _ _ _ _ _ _ _ _ _ _ _ _ hl rfl rfl rfl h

theorem accounted_json (cfg : Cfg) (env : TextEnv) (aes : AesBlock) (data d : List UInt8) (options : DecodeOptions)
    (henv : ∀ bits, FiniteReal bits → NumberText (env.realText bits)) (o : DecodedOutput)
    (h : decodeBytes cfg aes data options = .ok o) (pieces : List (List UInt8))
    (ha : Accounted d pieces o.decodeState) (hp : List.Forall₂ ShowsBytes o.records pieces) :
    JsonBytes d (renderJson env o) ∧ JsonBytes d (compactJson (o.doc env)) := by
  obtain ⟨doc, h1, h2, -, h4⟩ := C112_json cfg env aes data options o henv h
  have hl : o.records.length = pieces.length := hp.length_eq
  have key : follow [.key "decode_state"] doc = some (.str o.decodeState) ∧
      (∀ i (h : i < pieces.length), ∃ header data,
        follow [.key "records", .at i, .key "header_hex"] doc = some (.str header) ∧
        follow [.key "records", .at i, .key "data_hex"] doc = some (.str data) ∧
        SpellsPiece header data pieces[i]) ∧
      ∀ i, pieces.length ≤ i → follow [.key "records", .at i] doc = none := by
    refine ⟨h4.fields ([.key "decode_state"], some (.str o.decodeState)) (by simp [telegramFields]), ?_, ?_⟩
    · intro i hi
      have hi' : i < o.records.length := by omega
      have hf : ∀ f ∈ recordFields env o.records[i], follow (.key "records" :: .at i :: f.1) doc = f.2 := by
        intro f hf
        exact h4.elements ([.key "records"], o.records.map (recordFields env)) (by simp [telegramLists]) i
          (by simpa using hi') f (by simpa using hf)
      exact ⟨_, _, hf ([.key "header_hex"], some (.str o.records[i].headerHex)) (by simp [recordFields]),
        hf ([.key "data_hex"], some (.str o.records[i].dataHex)) (by simp [recordFields]),
        List.Forall₂.get hp hi' hi⟩
    · intro i hi
      exact h4.ends ([.key "records"], o.records.map (recordFields env)) (by simp [telegramLists]) i (by simp; omega)
  exact ⟨⟨pieces, _, ha, doc, fun d' => ⟨fun h => json_eq h h1, fun h => h ▸ h1⟩, key⟩,
    ⟨pieces, _, ha, doc, fun d' => ⟨fun h => json_eq h h2, fun h => h ▸ h2⟩, key⟩⟩

/-- C149: for every telegram that is decoded, encrypted or not, whatever its records are and whether all of them can be
parsed, the JSON texts of all front ends and what Python parses hold the bytes of its data in its records. -/
theorem C149_json (cfg : Cfg) (env : CliEnv) (text : List Char) (data d : List UInt8)
    (keyText : Option (List Char)) (key : Option (List UInt8)) (enrichment : Bool)
    (henv : ∀ bits, FiniteReal bits → NumberText (env.front.text.realText bits))
    (hx : Spelled text data) (hk : KeyGiven keyText key) (hs : Carries key data d)
    (h : ∃ o, decodeBytes cfg Aes.aes128 data ⟨key, enrichment⟩ = .ok o) :
    AnsweredWell cfg env Aes.aes128 text keyText enrichment "json" (JsonBytes d) ∧
      ∃ out, pyParse cfg env.front Aes.aes128 (.text text) (keyText.map .text) enrichment = .ok out ∧
        JsonBytes d out := by
  obtain ⟨o, h1⟩ := h
  obtain ⟨pieces, ha, hp⟩ := C149_decoded cfg key enrichment data d o hs h1
  obtain ⟨j1, j2⟩ := accounted_json cfg env.front.text Aes.aes128 data d ⟨key, enrichment⟩ henv o h1 pieces ha hp
  refine ⟨answered_well cfg env Aes.aes128 text data keyText key enrichment "json" .json (by decide +kernel) _ hx hk
    (fun width => ⟨_, by simp [renderBytes, h1, renderDecoded, Res.mapErr], j1⟩), _, ?_, j2⟩
  have hp : pyKey (keyText.map .text) = .ok key := by
    cases hk with
    | none => rfl
    | key t k hkt => exact (C115_same_key t k (((C115_cli_key t).1 k).2 hkt)).2.1
  simp [pyParse, pyBytes_text, (decode_iff text data).2 hx, hp, h1, Res.mapErr]

/-- C149: so do the CSV texts. -/
theorem C149_csv (cfg : Cfg) (env : CliEnv) (text : List Char) (data d : List UInt8)
    (keyText : Option (List Char)) (key : Option (List UInt8)) (enrichment : Bool)
    (hx : Spelled text data) (hk : KeyGiven keyText key) (hs : Carries key data d)
    (h : ∃ o, decodeBytes cfg Aes.aes128 data ⟨key, enrichment⟩ = .ok o) :
    AnsweredWell cfg env Aes.aes128 text keyText enrichment "csv" (CsvBytes d) := by
  obtain ⟨o, h1⟩ := h
  obtain ⟨pieces, ha, hp⟩ := C149_decoded cfg key enrichment data d o hs h1
  have hl : o.records.length = pieces.length := hp.length_eq
  have hidx := C89_indices cfg _ data _ o h1
  have hi : (o.records.map (·.index)).Nodup := hidx ▸ List.nodup_range
  obtain ⟨out, e, g⟩ := C113_csv env.front.text o
  refine answered_well cfg env Aes.aes128 text data keyText key enrichment "csv" .csv (by decide +kernel) _ hx hk
    (fun width => ⟨out, by simp [renderBytes, h1, renderDecoded, Res.mapErr, e], pieces, _, ha, _, _, g,
      C92_distinct env.front.text o hi, ?_, ?_, ?_⟩)
  · exact C92_frame env.front.text o hi "decode_state" o.decodeState (by simp [frameColumns])
  · rw [← hl]
    exact C92_frame env.front.text o hi "record_count" (toString o.records.length).toList (by simp [frameColumns])
  · intro i hi'
    have hi'' : i < o.records.length := by omega
    have hxi : o.records[i].index = i := by
      have := congrArg (fun l => l[i]?) hidx
      simp [hi''] at this
      exact this
    have k1 := C92_record env.front.text o hi o.records[i] (List.getElem_mem hi'') "header_hex" o.records[i].headerHex
      (by simp [recordColumns])
    have k2 := C92_record env.front.text o hi o.records[i] (List.getElem_mem hi'') "data_hex" o.records[i].dataHex
      (by simp [recordColumns])
    rw [hxi] at k1 k2
    have e1 : ['_'] ++ "header_hex".toList = "_header_hex".toList := by decide +kernel
    have e2 : ['_'] ++ "data_hex".toList = "_data_hex".toList := by decide +kernel
    refine ⟨o.records[i].headerHex, o.records[i].dataHex, ?_, ?_, List.Forall₂.get hp hi'' hi'⟩
    · rw [← e1, ← List.append_assoc]
      exact k1
    · rw [← e2, ← List.append_assoc]
      exact k2

theorem spelled_one (header data : List Char) (p p' : List UInt8) (h : SpellsPiece header data p)
    (h' : SpellsPiece header data p') : p = p' := by
  obtain ⟨a, b, rfl, h1, h2⟩ := h
  obtain ⟨a', b', rfl, h1', h2'⟩ := h'
  rw [tokens_unique _ _ (Nat.le_refl _) _ _ h1 h1', tokens_unique _ _ (Nat.le_refl _) _ _ h2 h2']

theorem jsonPieces_one (pieces pieces' : List (List UInt8)) (state state' text : List Char)
    (h : JsonPieces pieces state text) (h' : JsonPieces pieces' state' text) : pieces = pieces' ∧ state = state' := by
  obtain ⟨doc, h1, h2, h3, h4⟩ := h
  obtain ⟨doc', h1', h2', h3', h4'⟩ := h'
  obtain rfl : doc' = doc := (h1 doc').1 ((h1' doc').2 rfl)
  have short : ∀ (p q : List (List UInt8)) (hp : ∀ i (h : i < p.length), ∃ header data,
      follow [.key "records", .at i, .key "header_hex"] doc' = some (.str header) ∧
      follow [.key "records", .at i, .key "data_hex"] doc' = some (.str data) ∧ SpellsPiece header data p[i])
      (hq : ∀ i, q.length ≤ i → follow [.key "records", .at i] doc' = none), p.length ≤ q.length := by
    intro p q hp hq
    by_contra hl
    obtain ⟨header, -, h, -⟩ := hp q.length (by omega)
    have := follow_append [.key "records", .at q.length] [.key "header_hex"] doc'
    rw [hq _ (Nat.le_refl _)] at this
    simp only [List.cons_append, List.nil_append, Option.bind_none] at this
    rw [this] at h
    cases h
  have hl : pieces.length = pieces'.length :=
    Nat.le_antisymm (short _ _ h3 h4') (short _ _ h3' h4)
  refine ⟨List.ext_getElem hl fun i hi hi' => ?_, ?_⟩
  · obtain ⟨a, b, k1, k2, k3⟩ := h3 i hi
    obtain ⟨a', b', k1', k2', k3'⟩ := h3' i hi'
    rw [k1] at k1'
    rw [k2] at k2'
    cases k1'
    cases k2'
    exact spelled_one _ _ _ _ k3 k3'
  · rw [h2] at h2'
    cases h2'
    rfl

theorem csvPieces_one (pieces pieces' : List (List UInt8)) (state state' text : List Char)
    (h : CsvPieces pieces state text) (h' : CsvPieces pieces' state' text) : pieces = pieces' ∧ state = state' := by
  obtain ⟨names, values, h1, -, h2, h3, h4⟩ := h
  obtain ⟨names', values', h1', -, h2', h3', h4'⟩ := h'
  have e := (h1 _).1 ((h1' _).2 rfl)
  simp only [List.cons.injEq, and_true] at e
  obtain ⟨rfl, rfl⟩ := e
  rw [h3] at h3'
  have hl : pieces.length = pieces'.length := by
    have := congrArg natOf (Option.some.inj h3')
    rwa [← natText_toString, ← natText_toString, natText, natText, toDigits_eq, toDigits_eq, natOf_decimal,
      natOf_decimal] at this
  refine ⟨List.ext_getElem hl fun i hi hi' => ?_, ?_⟩
  · obtain ⟨a, b, k1, k2, k3⟩ := h4 i hi
    obtain ⟨a', b', k1', k2', k3'⟩ := h4' i hi'
    rw [k1] at k1'
    rw [k2] at k2'
    cases k1'
    cases k2'
    exact spelled_one _ _ _ _ k3 k3'
  · rw [h2] at h2'
    cases h2'
    rfl

theorem tiles_flatten (data : List UInt8) (pieces : List (List UInt8)) (h : Tiles data pieces)
    (hf : ∀ b ∈ data, ¬ isSkipped b) : data = pieces.flatten := by
  induction h with
  | nil => rfl
  | skip b data pieces hs _ _ => exact absurd hs (hf b (by simp))
  | piece p data pieces _ _ ih =>
    rw [List.flatten_cons, ← ih (fun b hb => hf b (by simp [hb]))]

theorem accounted_flatten (d : List UInt8) (pieces : List (List UInt8)) (h : Accounted d pieces "complete".toList)
    (hf : ∀ b ∈ d, ¬ isSkipped b) : d = pieces.flatten := by
  obtain ⟨done, rest, rfl, ht, ⟨-, rfl⟩ | ⟨h, -⟩⟩ := h
  · rw [List.append_nil] at hf ⊢
    exact tiles_flatten _ _ ht hf
  · exact absurd h (by decide +kernel)

/-- C149: the reader of a JSON text that calls itself complete knows the data: no two data without filler bytes are in
the same text. -/
theorem C149_json_recover (d d' : List UInt8) (text : List Char) (h : JsonBytes d text) (h' : JsonBytes d' text)
    (hf : ∀ b ∈ d, ¬ isSkipped b) (hf' : ∀ b ∈ d', ¬ isSkipped b) (doc : Doc) (hdoc : JsonText text doc)
    (hs : follow [.key "decode_state"] doc = some (.str "complete".toList)) : d = d' := by
  obtain ⟨pieces, state, h1, h2⟩ := h
  obtain ⟨pieces', state', h1', h2'⟩ := h'
  obtain ⟨rfl, rfl⟩ := jsonPieces_one _ _ _ _ _ h2 h2'
  obtain rfl : state = "complete".toList := by
    obtain ⟨doc', k1, k2, -⟩ := h2
    cases (k1 doc).1 hdoc
    rw [hs] at k2
    cases k2
    rfl
  rw [accounted_flatten _ _ h1 hf, accounted_flatten _ _ h1' hf']

/-- C149: and so does the reader of a CSV text. -/
theorem C149_csv_recover (d d' : List UInt8) (text : List Char) (h : CsvBytes d text) (h' : CsvBytes d' text)
    (hf : ∀ b ∈ d, ¬ isSkipped b) (hf' : ∀ b ∈ d', ¬ isSkipped b) (names values : List (List Char))
    (hrows : CsvFile text [names, values])
    (hs : column (names, values) "decode_state".toList = some "complete".toList) : d = d' := by
  obtain ⟨pieces, state, h1, h2⟩ := h
  obtain ⟨pieces', state', h1', h2'⟩ := h'
  obtain ⟨rfl, rfl⟩ := csvPieces_one _ _ _ _ _ h2 h2'
  obtain rfl : state = "complete".toList := by
    obtain ⟨names', values', k1, -, k2, -⟩ := h2
    have e := (k1 _).1 hrows
    simp only [List.cons.injEq, and_true] at e
    obtain ⟨rfl, rfl⟩ := e
    rw [hs] at k2
    cases k2
    rfl
  rw [accounted_flatten _ _ h1 hf, accounted_flatten _ _ h1' hf']

/-- Readings with fillers and a record at the end that is cut off, typed as pairs of digits, without a key. -/
example (front : FrontEnv) (hf : front.text = sampleEnv) (enrichment : Bool) :
    AnsweredWell cfgDebug (oneFile front "t.hex".toList []) Aes.aes128
      (hexString (olderWired 0 (sentData ++ [0x04, 0x13, 0x01]))) none enrichment "json"
      (JsonBytes (sentData ++ [0x04, 0x13, 0x01])) := by
  have ht := wired_telegram (olderWired 0 (sentData ++ [0x04, 0x13, 0x01]))
    ([0x72, 0x78, 0x56, 0x34, 0x12, 0x93, 0x15, 0x33, 0x03, 0x2A, 0x00, 0x00, 0] ++ (sentData ++ [0x04, 0x13, 0x01]))
    (.rspUd false false) (.primary 5) (by decide +kernel)
  have hd : ClearData _ (sentData ++ [0x04, 0x13, 0x01]) :=
    .long false 0x78 0x56 0x34 0x12 0x93 0x15 0x33 0x03 0x2A 0x00 0x00 0 _ (by decide +kernel) (by decide)
  obtain ⟨o, ho, -⟩ := (clear_decode cfgDebug Aes.aes128 _ none _ _ ⟨none, enrichment⟩ ht hd).2.1
    ((parseDataRecords cfgDebug false (sentData ++ [0x04, 0x13, 0x01])).filterMap Res.toOption)
    (e := .insufficientData) (by decide +kernel)
  exact (C149_json cfgDebug _ _ (olderWired 0 (sentData ++ [0x04, 0x13, 0x01])) _ none none enrichment
    (by intro bits h; show NumberText (front.text.realText bits); rw [hf]; exact sampleEnv_numbers bits h)
    ((decode_iff _ _).1 (by decide +kernel)) .none (.clear _ _ none _ _ ht hd) ⟨o, ho⟩).1

set_option maxRecDepth 20000 in
/-- Encrypted readings of a wireless telegram, with the key of the meter. -/
example (cfg : Cfg) (front : FrontEnv) :
    AnsweredWell cfg (oneFile front "t.hex".toList []) Aes.aes128 (hexString sealedWireless)
      (some "0102030405060708090a0B0c0D0E0F11".toList) true "csv" (CsvBytes sentData) := by
  have hs := isWireless_telegram sealedWireless ⟨⟨71, 87, 70⟩, 12345678, .waterMeter, 0x3C, false⟩
    ([0x7A, 0x2A, 0, 0x20, 0x05] ++ (cbcEncrypt Aes.encrypt exampleKey
      (headerIv 0xE6 0x1E [0x78, 0x56, 0x34, 0x12] 0x3C 0x07 0x2A)
      [sentData.take 16, (sentData.drop 16).take 16] ++ sentData.drop 32)) (by decide +kernel)
  have hc : Carries (some exampleKey) sealedWireless sentData :=
    .short exampleKey 0x7A 0x2A 0 0x20 0x05 0xE6 0x1E 0x78 0x56 0x34 0x12 0x07
      ⟨⟨71, 87, 70⟩, 12345678, .waterMeter, 0x3C, false⟩ _
      [sentData.take 16, (sentData.drop 16).take 16] (sentData.drop 32) sealedWireless
      (by decide) (Or.inl rfl) (by decide +kernel) (by decide +kernel) (by decide +kernel) (by decide +kernel)
      (.address rfl) (by decide) (by simp) (by decide) hs
  obtain ⟨o, ho, -⟩ := C123_aes_short_partial cfg exampleKey (by decide) 0x7A 0x2A 0 0x20 0x05 (Or.inl rfl)
    ⟨⟨71, 87, 70⟩, 12345678, .waterMeter, 0x3C, false⟩ 0xE6 0x1E 0x78 0x56 0x34 0x12 0x07
    (by decide +kernel) (by decide +kernel) (by decide +kernel) (by decide +kernel) _ (.address rfl)
    [sentData.take 16, (sentData.drop 16).take 16] (by decide) (by simp) (sentData.drop 32) (by decide) sealedWireless
    hs sentReadings (by simpa [sentData] using sent_example) (by decide +kernel) true
  exact C149_csv cfg _ _ sealedWireless _ _ (some exampleKey) true ((decode_iff _ _).1 (by decide +kernel))
    (.key _ _ (((C115_cli_key _).1 _).1 (by decide +kernel))) hc ⟨o, ho⟩

end MBus
