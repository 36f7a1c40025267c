import Verif.Spec.SentSecurity
import Verif.Props.SentStatus
import Verif.Props.Aes
import Verif.Lemmas.LegacyJson
/-!
# C144: the reader is told how the telegram is protected and what became of the data
-/
namespace MBus
open MBus.Spec

theorem pairs_hexString (data : List UInt8) : Pairs (hexString data) data := by
  have key : ∀ b : UInt8, ∃ a : Fin 16, ∃ c : Fin 16, hexDigit (upperHexDigit (b.toNat / 16)) = some a.val ∧
      hexDigit (upperHexDigit (b.toNat % 16)) = some c.val ∧ b = UInt8.ofNat (16 * a.val + c.val) := by
    intro b
    have k : ∀ b : UInt8, hexDigit (upperHexDigit (b.toNat / 16)) = some (b.toNat / 16) ∧
      hexDigit (upperHexDigit (b.toNat % 16)) = some (b.toNat % 16) ∧
      b = UInt8.ofNat (16 * (b.toNat / 16) + b.toNat % 16) := by decide +kernel
    exact ⟨⟨b.toNat / 16, by have := b.toNat_lt; omega⟩, ⟨b.toNat % 16, by omega⟩, k b⟩
  induction data with
  | nil => exact .nil
  | cons b rest ih =>
    obtain ⟨a, c, h1, h2, h3⟩ := key b
    have := Pairs.cons _ _ a.val c.val (hexString rest) rest h1 h2 ih
    rw [← h3] at this
    exact this

/-- What became of the data, as the library keeps it. -/
structure FitsReport (mode : Nat) (opening : Opening) (key : Bool) (c : SecurityContext) : Prop where
  name : c.mode.map SecurityMode.display = some (protectionName mode)
  code : c.mode.map SecurityMode.toBits = some (UInt8.ofNat mode)
  small : mode < 32
  key : c.keySupplied = key
  state : match opening with
    | .clear => mode = 0 ∧ c.encrypted = false ∧ c.ellEncrypted = false ∧ c.decrypted = false ∧ c.decryptedPayload = none
    | .locked => mode ≠ 0 ∧ c.encrypted = true ∧ c.decrypted = false ∧ c.decryptedPayload = none
    | .opened plain => mode ≠ 0 ∧ c.encrypted = true ∧ c.decrypted = true ∧ c.decryptedPayload = some plain

theorem finish_protection {F : Type} (cfg : Cfg) (aes : AesBlock) (protocol : List Char) (frame : FrameOutput)
    (data normalized : List UInt8) (stripped : Bool) (payload : List UInt8) (parsed : MbusData F)
    (link : Option ManufacturerId) (options : DecodeOptions) (o : DecodedOutput)
    (h : finish cfg aes protocol frame data normalized stripped (some payload) parsed link options = .ok o)
    (c : SecurityContext) (hc : prepareSecurity aes parsed.userData link options.key (List.replicate 512 0) = .ok c) :
    o.security = ⟨(if c.encrypted then "encrypted" else if c.ellEncrypted then "unknown" else "cleartext").toList,
      c.mode.map SecurityMode.display, c.mode.map SecurityMode.toBits,
      (if !c.encrypted then "not_applicable" else if c.decrypted then "decrypted_unverified" else "key_missing").toList,
      c.keySupplied, if c.encrypted then some (hexString payload) else none, c.decryptedPayload.map hexString⟩ ∧
    ∃ a r, o.diagnostics = a ++ securityDiagnostics c ++ r ∧ (∀ d ∈ a ++ r, d.layer = "application".toList) := by
  unfold finish at h
  rw [hc] at h
  simp only [buildOutput] at h
  rcases hcol : collectRecords cfg (recordsToShow parsed c) with _ | ⟨outs, err⟩
  · simp [hcol] at h
  · simp only [hcol, Res.ok.injEq] at h
    subst h
    refine ⟨rfl, _, _, rfl, ?_⟩
    intro d hd
    rcases List.mem_append.1 hd with hd | hd
    · rw [Option.mem_toList, Option.map_eq_some_iff] at hd
      obtain ⟨e, -, rfl⟩ := hd
      rfl
    · rw [Option.mem_toList, Option.map_eq_some_iff] at hd
      obtain ⟨e, -, rfl⟩ := hd
      rfl

theorem report_json (env : TextEnv) (o : DecodedOutput) (d : Doc) (h : ShowsTelegram env o d) (text : List Char)
    (ht : ∀ d', JsonText text d' ↔ d' = d) (mode : Nat) (opening : Opening) (key : Bool) (c : SecurityContext)
    (hf : FitsReport mode opening key c) (payload : List UInt8)
    (hs : o.security = ⟨(if c.encrypted then "encrypted" else if c.ellEncrypted then "unknown" else "cleartext").toList,
      c.mode.map SecurityMode.display, c.mode.map SecurityMode.toBits,
      (if !c.encrypted then "not_applicable" else if c.decrypted then "decrypted_unverified" else "key_missing").toList,
      c.keySupplied, if c.encrypted then some (hexString payload) else none, c.decryptedPayload.map hexString⟩)
    (a r : List Diagnostic) (hd : o.diagnostics = a ++ securityDiagnostics c ++ r)
    (har : ∀ d ∈ a ++ r, d.layer = "application".toList) : JsonSecurity mode payload opening key text := by
  obtain ⟨hname, hcode, hsmall, hkey, hstate⟩ := hf
  have k1 := h.fields ([.key "security", .key "payload_protection"], some (.str o.security.payloadProtection))
    (by simp [telegramFields])
  have k2 := h.fields ([.key "security", .key "mode"], o.security.mode.map Doc.str) (by simp [telegramFields])
  have k3 := h.fields ([.key "security", .key "mode_code"], o.security.modeCode.map (number ·.toNat)) (by simp [telegramFields])
  have k4 := h.fields ([.key "security", .key "decryption_state"], some (.str o.security.decryptionState))
    (by simp [telegramFields])
  have k5 := h.fields ([.key "security", .key "key_supplied"], some (.bool o.security.keySupplied)) (by simp [telegramFields])
  have k6 := h.fields ([.key "security", .key "encrypted_payload_hex"], o.security.encryptedPayloadHex.map Doc.str)
    (by simp [telegramFields])
  have k7 := h.fields ([.key "security", .key "decrypted_payload_hex"], o.security.decryptedPayloadHex.map Doc.str)
    (by simp [telegramFields])
  rw [hs] at k1 k2 k3 k4 k5 k6 k7
  simp only [hname, hcode, hkey, Option.map_some] at k1 k2 k3 k4 k5 k6 k7
  have hm : (UInt8.ofNat mode).toNat = mode := by simp only [UInt8.toNat_ofNat']; omega
  rw [hm] at k3
  have el : ∀ i (hi : i < o.diagnostics.length), follow [.key "diagnostics", .at i, .key "layer"] d = some (.str o.diagnostics[i].layer) ∧
      follow [.key "diagnostics", .at i, .key "severity"] d = some (.str o.diagnostics[i].severity) ∧
      follow [.key "diagnostics", .at i, .key "code"] d = some (.str o.diagnostics[i].code) := by
    intro i hi
    have := h.elements ([.key "diagnostics"], o.diagnostics.map diagnosticFields) (by
      unfold telegramLists; exact List.mem_cons_of_mem _ List.mem_cons_self) i (by simpa using hi)
    simp only [List.getElem_map, diagnosticFields, List.forall_mem_cons, List.cons_append, List.nil_append] at this
    exact ⟨this.2.2.1, this.1, this.2.1⟩
  have beyond : ∀ i, o.diagnostics.length ≤ i → follow [.key "diagnostics", .at i, .key "layer"] d = none := by
    intro i hi
    have := h.ends ([.key "diagnostics"], o.diagnostics.map diagnosticFields) (by
      unfold telegramLists; exact List.mem_cons_of_mem _ List.mem_cons_self) i (by simpa using hi)
    simp only [List.cons_append, List.nil_append] at this
    rw [show [Step.key "diagnostics", .at i, .key "layer"] = [.key "diagnostics", .at i] ++ [.key "layer"] from rfl,
      follow_append, this]
    rfl
  have ne : "application".toList ≠ "security".toList := by decide +kernel
  have quiet : ∀ i (hi : i < o.diagnostics.length), o.diagnostics[i] ∈ a ++ r →
      follow [.key "diagnostics", .at i, .key "layer"] d ≠ some (.str "security".toList) := by
    intro i hi hmem
    rw [(el i hi).1, har _ hmem]
    simp
  refine ⟨d, ht, ?_, k2, k3, ?_, k5, ?_, ?_, ?_⟩
  · refine k1.trans ?_
    cases opening <;> simp only at hstate <;> simp [hstate]
  · refine k4.trans ?_
    cases opening <;> simp only at hstate <;> simp [hstate, Opening.word]
  · show HexOf _ (follow [.key "security", .key "encrypted_payload_hex"] d)
    rw [k6]
    cases opening <;> simp only at hstate <;> simp only [hstate, if_true, if_false, Bool.false_eq_true, HexOf, Option.map_none, Option.map_some]
    all_goals exact ⟨_, rfl, pairs_hexString _⟩
  · show HexOf _ (follow [.key "security", .key "decrypted_payload_hex"] d)
    rw [k7]
    cases opening <;> simp only at hstate <;> simp only [hstate, HexOf, Option.map_none, Option.map_some]
    exact ⟨_, rfl, pairs_hexString _⟩
  · have one : ∀ (x : Diagnostic) (severity code : String), securityDiagnostics c = [x] → x.layer = "security".toList →
        x.severity = severity.toList → x.code = code.toList →
        ∃ i, follow [.key "diagnostics", .at i, .key "layer"] d = some (.str "security".toList) ∧
          follow [.key "diagnostics", .at i, .key "severity"] d = some (.str severity.toList) ∧
          follow [.key "diagnostics", .at i, .key "code"] d = some (.str code.toList) ∧
          ∀ j, follow [.key "diagnostics", .at j, .key "layer"] d = some (.str "security".toList) → j = i := by
      intro x severity code hx h1 h2 h3
      rw [hx] at hd
      have hlen : a.length < o.diagnostics.length := by rw [hd]; simp
      have hat : o.diagnostics[a.length] = x := by simp [hd]
      obtain ⟨e1, e2, e3⟩ := el a.length hlen
      rw [hat] at e1 e2 e3
      refine ⟨a.length, by rw [e1, h1], by rw [e2, h2], by rw [e3, h3], ?_⟩
      intro j hj
      by_cases hjl : j < o.diagnostics.length
      · by_contra hne
        refine quiet j hjl ?_ hj
        have : o.diagnostics = a ++ x :: r := by rw [hd]; simp
        simp only [this]
        rcases Nat.lt_or_gt_of_ne hne with hlt | hgt
        · rw [List.getElem_append_left hlt]
          exact List.mem_append_left _ (List.getElem_mem _)
        · rw [List.getElem_append_right (by omega)]
          obtain ⟨k, hk⟩ : ∃ k, j - a.length = k + 1 := ⟨j - a.length - 1, by omega⟩
          simp only [hk, List.getElem_cons_succ]
          exact List.mem_append_right _ (List.getElem_mem _)
      · rw [beyond j (by omega)] at hj
        cases hj
    cases opening with
    | clear =>
      simp only at hstate
      obtain ⟨-, h1, -, h2, -⟩ := hstate
      cases key with
      | false =>
        simp only [Opening.remark]
        intro i
        by_cases hi : i < o.diagnostics.length
        · refine quiet i hi ?_
          have : o.diagnostics = a ++ r := by
            rw [hd]; simp only [securityDiagnostics, h1, h2, hkey]; simp
          simp only [this]
          exact List.getElem_mem _
        · show follow [.key "diagnostics", .at i, .key "layer"] d ≠ _
          rw [beyond i (by omega)]
          exact fun h => by cases h
      | true =>
        exact one _ "info" "security.key_unused" (by simp only [securityDiagnostics, h1, h2, hkey]; rfl) rfl rfl rfl
    | locked =>
      simp only at hstate
      obtain ⟨-, h1, h2, -⟩ := hstate
      exact one _ "warning" "security.key_missing" (by simp only [securityDiagnostics, h1, h2]; rfl) rfl rfl rfl
    | opened plain =>
      simp only at hstate
      obtain ⟨-, h1, h2, -⟩ := hstate
      exact one _ "info" "security.decrypted_unverified" (by simp only [securityDiagnostics, h1, h2]; rfl) rfl rfl rfl

/-- Security modes by number. -/
theorem mode_words (n : Nat) (h : n < 32) : (SecurityMode.fromBits (UInt8.ofNat n)).display = protectionName n ∧
    (SecurityMode.fromBits (UInt8.ofNat n)).toBits = UInt8.ofNat n ∧
    ((SecurityMode.fromBits (UInt8.ofNat n)) = .noEncryption ↔ n = 0) := by
  have key : ∀ n : Fin 32, (SecurityMode.fromBits (UInt8.ofNat n.val)).display = protectionName n.val ∧
    (SecurityMode.fromBits (UInt8.ofNat n.val)).toBits = UInt8.ofNat n.val ∧
    ((SecurityMode.fromBits (UInt8.ofNat n.val)) = .noEncryption ↔ n.val = 0) := by decide +kernel
  exact key ⟨n, h⟩

theorem protection_mode (hd : SentHeader) (c0 : UInt8) :
    (⟨le16 c0 (UInt8.ofNat (hd.configuration.val / 256))⟩ : ConfigurationField).securityMode =
      SecurityMode.fromBits (UInt8.ofNat hd.mode) ∧
    (UInt8.ofNat (hd.configuration.val / 256)).toNat % 32 = hd.mode := by
  have hlt := hd.configuration.isLt
  have e : (UInt8.ofNat (hd.configuration.val / 256)).toNat % 32 = hd.mode := by
    simp only [UInt8.toNat_ofNat', SentHeader.mode]
    omega
  refine ⟨?_, e⟩
  have key : ∀ n : Fin 32, SecurityMode.fromBits (UInt8.ofNat n.val) =
      (securityModes[n.val]?).getD (.reservedHigher (UInt8.ofNat n.val)) := by decide +kernel
  rw [C10_security_mode_names]
  have m := mode_bytes c0 (UInt8.ofNat (hd.configuration.val / 256))
  rw [e] at m
  simp only [modeNumber] at m
  rw [m]
  exact (key ⟨hd.mode, Nat.mod_lt _ (by decide)⟩).symm

theorem header_protection (hd : SentHeader) (source : String) (payload : List UInt8) (h : HeaderAt hd source payload) :
    ∃ blk, Block payload blk ∧
      securityFields (some blk) = (decide (hd.mode ≠ 0), some (SecurityMode.fromBits (UInt8.ofNat hd.mode)), false) := by
  have hm := (mode_words hd.mode (Nat.mod_lt _ (by decide))).2.2
  have hne : (SecurityMode.fromBits (UInt8.ofNat hd.mode) != .noEncryption) = decide (hd.mode ≠ 0) := by
    by_cases h0 : hd.mode = 0
    · rw [hm.2 h0, h0]; rfl
    · have : SecurityMode.fromBits (UInt8.ofNat hd.mode) ≠ .noEncryption := fun h => h0 (hm.1 h)
      simp [bne_iff_ne, this, h0]
  cases h with
  | long m block =>
    obtain ⟨i0, i1, i2, i3, he, hb, -⟩ := hexString_encodeBcd m.number
    simp only [headerAddress, he, makerBytes, SentHeader.bytes, List.cons_append, List.nil_append]
    refine ⟨_, Block.long false i0 i1 i2 i3 _ _ m.version m.device _ _ _ _ block hb, ?_⟩
    simp only [securityFields, (protection_mode hd _).1, hne]
  | short ci block hci =>
    simp only [SentHeader.bytes, List.cons_append, List.nil_append]
    refine ⟨_, Block.short ci _ _ _ _ block hci, ?_⟩
    simp [securityFields, (protection_mode hd _).1, hne]
  | shortEll cc acc ci block hci =>
    simp only [SentHeader.bytes, List.cons_append, List.nil_append]
    refine ⟨_, Block.ellI cc acc _ _ _ (Block.short ci _ _ _ _ block hci) rfl, ?_⟩
    simp [securityFields, (protection_mode hd _).1, hne]

/-- What the library keeps about the protection of the payload of a decoded telegram. -/
theorem kept_protection (cfg : Cfg) (aes : AesBlock) (data : List UInt8) (options : DecodeOptions) (o : DecodedOutput)
    (h : decodeBytes cfg aes data options = .ok o) (link : Option ManufacturerId) (payload : List UInt8)
    (ht : Telegram data link payload) (blk : UserDataBlock) (hb : Block payload blk) (c : SecurityContext)
    (hc : prepareSecurity aes (some blk) link options.key (List.replicate 512 0) = .ok c)
    (mode : Nat) (opening : Opening) (key : Bool) (hf : FitsReport mode opening key c) (env : TextEnv)
    (henv : ∀ bits, FiniteReal bits → NumberText (env.realText bits)) :
    JsonSecurity mode payload opening key (renderJson env o) ∧
      JsonSecurity mode payload opening key (compactJson (o.doc env)) := by
  obtain ⟨d, h1, h2, -, h4⟩ := C112_json cfg env aes data options o henv h
  obtain ⟨protocol, frame, normalized, stripped, hdec⟩ := decode_telegram cfg aes data link payload ht
  rw [hdec, (C32_accepts_iff _ _).2 hb] at h
  obtain ⟨hs, a, r, hd, har⟩ := finish_protection _ _ _ _ _ _ _ _ _ _ _ _ h c hc
  exact ⟨report_json env o d h4 _ (fun d' => ⟨fun h => json_eq h h1, fun h => h ▸ h1⟩) mode opening key c hf payload hs a r hd har,
    report_json env o d h4 _ (fun d' => ⟨fun h => json_eq h h2, fun h => h ▸ h2⟩) mode opening key c hf payload hs a r hd har⟩

theorem kept_csv (cfg : Cfg) (aes : AesBlock) (data : List UInt8) (options : DecodeOptions) (o : DecodedOutput)
    (h : decodeBytes cfg aes data options = .ok o) (link : Option ManufacturerId) (payload : List UInt8)
    (ht : Telegram data link payload) (blk : UserDataBlock) (hb : Block payload blk) (c : SecurityContext)
    (hc : prepareSecurity aes (some blk) link options.key (List.replicate 512 0) = .ok c)
    (mode : Nat) (opening : Opening) (key : Bool) (hf : FitsReport mode opening key c) (env : TextEnv) :
    ∃ text, renderCsv env o = some text ∧ CsvSecurity mode opening text := by
  have hx : (o.records.map (·.index)).Nodup := C89_indices cfg aes data options o h ▸ List.nodup_range
  obtain ⟨protocol, frame, normalized, stripped, hdec⟩ := decode_telegram cfg aes data link payload ht
  rw [hdec, (C32_accepts_iff _ _).2 hb] at h
  obtain ⟨hs, -⟩ := finish_protection _ _ _ _ _ _ _ _ _ _ _ _ h c hc
  obtain ⟨text, e, g⟩ := C113_csv env o
  obtain ⟨h1, h2⟩ := C92_rows env o
  have k := fun n v hv => C92_frame env o hx n v hv
  obtain ⟨hname, -, -, -, hstate⟩ := hf
  refine ⟨text, e, _, _, g, C92_distinct env o hx, h2.trans h1.symm, k "security_mode" _ ?_, k "decryption_state" _ ?_⟩
  · have : protectionName mode = o.security.mode.getD [] := by rw [hs]; simp [hname]
    rw [this]
    simp [frameColumns]
  · have : opening.word.toList = o.security.decryptionState := by
      rw [hs]
      cases opening <;> simp only at hstate <;> simp [hstate, Opening.word]
    rw [this]
    simp [frameColumns]

theorem fits_unopened (aes : AesBlock) (hd : SentHeader) (source : String) (payload : List UInt8) (h : HeaderAt hd source payload)
    (link : Option ManufacturerId) (key : Option (List UInt8)) (hk : hd.mode = 0 ∨ key = none) :
    ∃ blk c, Block payload blk ∧ prepareSecurity aes (some blk) link key (List.replicate 512 0) = .ok c ∧
      FitsReport hd.mode (notOpened hd) key.isSome c := by
  obtain ⟨blk, hb, hs⟩ := header_protection hd source payload h
  obtain ⟨w1, w2, -⟩ := mode_words hd.mode (Nat.mod_lt _ (by decide))
  by_cases h0 : hd.mode = 0
  · refine ⟨blk, _, hb, prepareSecurity_clear _ _ _ _ _ (by rw [hs]; simp [h0]), ?_⟩
    rw [hs]
    exact ⟨by simp [w1], by simp [w2], Nat.mod_lt _ (by decide), rfl, by simp [notOpened, h0]⟩
  · have hkn := hk.resolve_left h0
    subst hkn
    refine ⟨blk, _, hb, prepareSecurity_no_key _ _ _ _, ?_⟩
    rw [hs]
    exact ⟨by simp [w1], by simp [w2], Nat.mod_lt _ (by decide), rfl, by simp [notOpened, h0]⟩

theorem parsed_well (cfg : Cfg) (env : CliEnv) (aes : AesBlock) (text : List Char) (data : List UInt8)
    (keyText : Option (List Char)) (key : Option (List UInt8)) (enrichment : Bool)
    (hx : Spelled text data) (hk : KeyGiven keyText key) (o : DecodedOutput)
    (ho : decodeBytes cfg aes data ⟨key, enrichment⟩ = .ok o) (Good : List Char → Prop)
    (h1 : Good (renderJson env.front.text o)) (h2 : Good (compactJson (o.doc env.front.text))) :
    AnsweredWell cfg env aes text keyText enrichment "json" Good ∧
      ∃ out, pyParse cfg env.front aes (.text text) (keyText.map .text) enrichment = .ok out ∧ Good out := by
  refine ⟨answered_well cfg env aes text data keyText key enrichment "json" .json (by decide +kernel) _ hx hk
    (fun width => ⟨_, by simp [renderBytes, ho, renderDecoded, Res.mapErr], h1⟩), _, ?_, h2⟩
  have hp : pyKey (keyText.map .text) = .ok key := by
    cases hk with
    | none => rfl
    | key t k hkt => exact (C115_same_key t k (((C115_cli_key t).1 k).2 hkt)).2.1
  simp [pyParse, pyBytes_text, (decode_iff text data).2 hx, hp, ho, Res.mapErr]

/-- C144: for a telegram that is not encrypted, or is and no key is given, the JSON texts of the command line program,
JavaScript and Python say so: the protection, the code and the name of the security mode, whether a key was given, that
there is nothing to decrypt or the key is missing, the encrypted payload if it is encrypted, no plain data; and the one
remark about security there is to make. -/
theorem C144_unopened_json (cfg : Cfg) (env : CliEnv) (aes : AesBlock) (text : List Char) (data : List UInt8)
    (keyText : Option (List Char)) (key : Option (List UInt8)) (enrichment : Bool) (hd : SentHeader) (source : String)
    (henv : ∀ bits, FiniteReal bits → NumberText (env.front.text.realText bits))
    (hx : Spelled text data) (hk : KeyGiven keyText key) (link : Option ManufacturerId) (payload : List UInt8)
    (ht : Telegram data link payload) (hs : HeaderAt hd source payload) (hu : hd.mode = 0 ∨ key = none)
    (h : ∃ o, decodeBytes cfg aes data ⟨key, enrichment⟩ = .ok o) :
    AnsweredWell cfg env aes text keyText enrichment "json" (JsonSecurity hd.mode payload (notOpened hd) key.isSome) ∧
      ∃ out, pyParse cfg env.front aes (.text text) (keyText.map .text) enrichment = .ok out ∧
        JsonSecurity hd.mode payload (notOpened hd) key.isSome out := by
  obtain ⟨o, ho⟩ := h
  obtain ⟨blk, c, hb, hc, hf⟩ := fits_unopened aes hd source payload hs link key hu
  obtain ⟨j1, j2⟩ := kept_protection cfg aes data _ o ho link payload ht blk hb c hc _ _ _ hf env.front.text henv
  exact parsed_well cfg env aes text data keyText key enrichment hx hk o ho _ j1 j2

/-- C144 for the CSV texts. -/
theorem C144_unopened_csv (cfg : Cfg) (env : CliEnv) (aes : AesBlock) (text : List Char) (data : List UInt8)
    (keyText : Option (List Char)) (key : Option (List UInt8)) (enrichment : Bool) (hd : SentHeader) (source : String)
    (hx : Spelled text data) (hk : KeyGiven keyText key) (link : Option ManufacturerId) (payload : List UInt8)
    (ht : Telegram data link payload) (hs : HeaderAt hd source payload) (hu : hd.mode = 0 ∨ key = none)
    (h : ∃ o, decodeBytes cfg aes data ⟨key, enrichment⟩ = .ok o) :
    AnsweredWell cfg env aes text keyText enrichment "csv" (CsvSecurity hd.mode (notOpened hd)) := by
  obtain ⟨o, ho⟩ := h
  obtain ⟨blk, c, hb, hc, hf⟩ := fits_unopened aes hd source payload hs link key hu
  obtain ⟨out, j1, j2⟩ := kept_csv cfg aes data _ o ho link payload ht blk hb c hc _ _ _ hf env.front.text
  exact answered_well cfg env aes text data keyText key enrichment "csv" .csv (by decide +kernel) _ hx hk
    (fun width => ⟨out, by simp [renderBytes, ho, renderDecoded, Res.mapErr, j1], j2⟩)

theorem maker_code (m : SentMeter) (hm : m.Valid) :
    ManufacturerCode.fromId (le16 (UInt8.ofNat (flagId m.letter1 m.letter2 m.letter3 % 256))
      (UInt8.ofNat (flagId m.letter1 m.letter2 m.letter3 / 256))) = .ok (letters m.letter1 m.letter2 m.letter3) := by
  refine (C07_manufacturer_from_id _ _).2 ⟨_, _, _, hm.2.1, hm.2.2.1, hm.2.2.2, ?_, rfl⟩
  rw [le16_eq, u16le_toNat]
  exact maker_value m hm

theorem sealVector_iv (hd : SentHeader) (m : SentMeter) (hmode : hd.mode = 5 ∨ hd.mode = 7) (i0 i1 i2 i3 : UInt8)
    (he : encodeBcd 4 m.number = [i0, i1, i2, i3]) :
    CbcIv hd.mode (UInt8.ofNat (flagId m.letter1 m.letter2 m.letter3 % 256))
      (UInt8.ofNat (flagId m.letter1 m.letter2 m.letter3 / 256)) [i0, i1, i2, i3] m.version m.device hd.access
      (sealVector hd m) := by
  unfold sealVector
  rcases hmode with h | h
  · rw [if_neg (by omega)]
    have := CbcIv.address (m0 := UInt8.ofNat (flagId m.letter1 m.letter2 m.letter3 % 256))
      (m1 := UInt8.ofNat (flagId m.letter1 m.letter2 m.letter3 / 256)) (ident := [i0, i1, i2, i3]) (version := m.version)
      (device := m.device) (acc := hd.access) h
    simpa [headerIv, linkAddress, makerBytes, he] using this
  · rw [if_pos h]
    exact .zero h

theorem sealVector_length (hd : SentHeader) (m : SentMeter) : (sealVector hd m).length = 16 := by
  obtain ⟨i0, i1, i2, i3, he, -, -⟩ := hexString_encodeBcd m.number
  unfold sealVector
  split <;> simp [linkAddress, makerBytes, he]

theorem fits_opened (c : SecurityContext) (hd : SentHeader) (l : Bool) (plain : List UInt8) (hmode : hd.mode = 5 ∨ hd.mode = 7)
    (c0 : UInt8) (hc : c = ⟨true, some (⟨le16 c0 (UInt8.ofNat (hd.configuration.val / 256))⟩ : ConfigurationField).securityMode,
      l, true, true, some plain⟩) : FitsReport hd.mode (.opened plain) true c := by
  obtain ⟨w1, w2, -⟩ := mode_words hd.mode (Nat.mod_lt _ (by decide))
  subst hc
  rw [(protection_mode hd c0).1]
  refine ⟨by simp [w1], by simp [w2], Nat.mod_lt _ (by decide), rfl, ?_, rfl, rfl, rfl⟩
  omega

theorem long_payload (hd : SentHeader) (m : SentMeter) (i0 i1 i2 i3 : UInt8) (he : encodeBcd 4 m.number = [i0, i1, i2, i3])
    (rest : List UInt8) : 0x72 :: headerAddress m ++ hd.bytes ++ rest =
      [longCi false, i0, i1, i2, i3, UInt8.ofNat (flagId m.letter1 m.letter2 m.letter3 % 256),
        UInt8.ofNat (flagId m.letter1 m.letter2 m.letter3 / 256), m.version, m.device, hd.access, hd.status.byte,
        UInt8.ofNat (hd.configuration.val % 256), UInt8.ofNat (hd.configuration.val / 256)] ++ rest := by
  simp only [headerAddress, he, makerBytes, SentHeader.bytes, longCi, List.cons_append, List.nil_append]
  rfl

theorem fits_long (key : List UInt8) (hk : key.length = 16) (hd : SentHeader) (m : SentMeter) (hm : m.Valid)
    (hmode : hd.mode = 5 ∨ hd.mode = 7) (blocks : List (List UInt8)) (hbl : ∀ b ∈ blocks, b.length = 16)
    (hne : blocks ≠ []) (tail : List UInt8) (ht : tail.length < 16) (data : List UInt8) (link : Option ManufacturerId)
    (hs : Telegram data link (0x72 :: headerAddress m ++ hd.bytes ++
      (cbcEncrypt Aes.encrypt key (sealVector hd m) blocks ++ tail))) :
    ∃ blk c, Block (0x72 :: headerAddress m ++ hd.bytes ++ (cbcEncrypt Aes.encrypt key (sealVector hd m) blocks ++ tail)) blk ∧
      prepareSecurity Aes.aes128 (some blk) link (some key) (List.replicate 512 0) = .ok c ∧
      FitsReport hd.mode (.opened (blocks.flatten ++ tail)) true c := by
  have hlen : ∀ b, b.length = 16 → (Aes.encrypt key b).length = 16 := fun b hb => (C124_cipher key b hk hb).1
  have hsz := telegram_length _ _ _ hs
  have hcl := cbcEncrypt_length Aes.encrypt key hlen blocks _ (sealVector_length hd m) hbl
  simp only [List.length_append, hcl] at hsz
  obtain ⟨i0, i1, i2, i3, he, hb, -⟩ := hexString_encodeBcd m.number
  have hiv := headerIv_context _ _ i0 i1 i2 i3 m.version m.device hd.access hd.status.byte
    (UInt8.ofNat (hd.configuration.val % 256)) (UInt8.ofNat (hd.configuration.val / 256)) hb _ (maker_code m hm) (sealVector hd m)
    (by rw [(protection_mode hd 0).2]; exact sealVector_iv hd m hmode i0 i1 i2 i3 he)
  have hprep := prepare_long Aes.encrypt Aes.aes128 key hk hlen (fun b hb => (C124_cipher key b hk hb).2.2) none
    ⟨bcdValue (idBytes false i0 i1 i2 i3), ManufacturerCode.fromId (le16 (UInt8.ofNat (flagId m.letter1 m.letter2 m.letter3 % 256))
      (UInt8.ofNat (flagId m.letter1 m.letter2 m.letter3 / 256))), m.version, DeviceType.fromByte m.device,
      ⟨hd.access, hd.status.byte, ⟨le16 (UInt8.ofNat (hd.configuration.val % 256)) (UInt8.ofNat (hd.configuration.val / 256))⟩⟩, false⟩ _
    (maker_code m hm) _ hiv blocks hbl hne tail ht (by omega) link
  generalize cbcEncrypt Aes.encrypt key (sealVector hd m) blocks = cipher at *
  have hblk := Block.long false i0 i1 i2 i3 (UInt8.ofNat (flagId m.letter1 m.letter2 m.letter3 % 256))
    (UInt8.ofNat (flagId m.letter1 m.letter2 m.letter3 / 256)) m.version m.device hd.access hd.status.byte
    (UInt8.ofNat (hd.configuration.val % 256)) (UInt8.ofNat (hd.configuration.val / 256)) (cipher ++ tail) hb
  rw [long_payload hd m i0 i1 i2 i3 he]
  exact ⟨_, _, hblk, hprep, fits_opened _ hd false _ hmode _ rfl⟩

/-- C144: for a telegram with a long header whose data the meter encrypted with AES-128 in mode 5 or 7, read with the key,
the JSON texts say that it was encrypted and decrypted without authentication, and show the encrypted payload and the
plain data. -/
theorem C144_opened_json (cfg : Cfg) (env : CliEnv) (text keyText : List Char) (data key : List UInt8) (enrichment : Bool)
    (henv : ∀ bits, FiniteReal bits → NumberText (env.front.text.realText bits))
    (hx : Spelled text data) (hkt : KeyText keyText key) (hk : key.length = 16) (hd : SentHeader) (m : SentMeter) (hm : m.Valid)
    (hmode : hd.mode = 5 ∨ hd.mode = 7) (blocks : List (List UInt8)) (hbl : ∀ b ∈ blocks, b.length = 16)
    (hne : blocks ≠ []) (tail : List UInt8) (ht : tail.length < 16) (link : Option ManufacturerId) (payload : List UInt8)
    (hp : payload = 0x72 :: headerAddress m ++ hd.bytes ++ (cbcEncrypt Aes.encrypt key (sealVector hd m) blocks ++ tail))
    (hs : Telegram data link payload) (h : ∃ o, decodeBytes cfg Aes.aes128 data ⟨some key, enrichment⟩ = .ok o) :
    AnsweredWell cfg env Aes.aes128 text (some keyText) enrichment "json"
        (JsonSecurity hd.mode payload (.opened (blocks.flatten ++ tail)) true) ∧
      ∃ out, pyParse cfg env.front Aes.aes128 (.text text) (some (.text keyText)) enrichment = .ok out ∧
        JsonSecurity hd.mode payload (.opened (blocks.flatten ++ tail)) true out := by
  subst hp
  obtain ⟨o, ho⟩ := h
  obtain ⟨blk, c, hb, hc, hf⟩ := fits_long key hk hd m hm hmode blocks hbl hne tail ht data link hs
  obtain ⟨j1, j2⟩ := kept_protection cfg _ data _ o ho link _ hs blk hb c hc _ _ _ hf env.front.text henv
  exact parsed_well cfg env _ text data (some keyText) (some key) enrichment hx (.key _ _ hkt) o ho _ j1 j2

/-- C144 for the CSV texts of such telegrams. -/
theorem C144_opened_csv (cfg : Cfg) (env : CliEnv) (text keyText : List Char) (data key : List UInt8) (enrichment : Bool)
    (hx : Spelled text data) (hkt : KeyText keyText key) (hk : key.length = 16) (hd : SentHeader) (m : SentMeter) (hm : m.Valid)
    (hmode : hd.mode = 5 ∨ hd.mode = 7) (blocks : List (List UInt8)) (hbl : ∀ b ∈ blocks, b.length = 16)
    (hne : blocks ≠ []) (tail : List UInt8) (ht : tail.length < 16) (link : Option ManufacturerId) (payload : List UInt8)
    (hp : payload = 0x72 :: headerAddress m ++ hd.bytes ++ (cbcEncrypt Aes.encrypt key (sealVector hd m) blocks ++ tail))
    (hs : Telegram data link payload) (h : ∃ o, decodeBytes cfg Aes.aes128 data ⟨some key, enrichment⟩ = .ok o) :
    AnsweredWell cfg env Aes.aes128 text (some keyText) enrichment "csv"
      (CsvSecurity hd.mode (.opened (blocks.flatten ++ tail))) := by
  subst hp
  obtain ⟨o, ho⟩ := h
  obtain ⟨blk, c, hb, hc, hf⟩ := fits_long key hk hd m hm hmode blocks hbl hne tail ht data link hs
  obtain ⟨out, j1, j2⟩ := kept_csv cfg _ data _ o ho link _ hs blk hb c hc _ _ _ hf env.front.text
  exact answered_well cfg env _ text data (some keyText) (some key) enrichment "csv" .csv (by decide +kernel) _ hx (.key _ _ hkt)
    (fun width => ⟨out, by simp [renderBytes, ho, renderDecoded, Res.mapErr, j1], j2⟩)

theorem fits_short (key : List UInt8) (hk : key.length = 16) (hd : SentHeader) (m : SentMeter) (hm : m.Valid)
    (hmode : hd.mode = 5 ∨ hd.mode = 7) (blocks : List (List UInt8)) (hbl : ∀ b ∈ blocks, b.length = 16)
    (hne : blocks ≠ []) (tail : List UInt8) (ht : tail.length < 16) (data : List UInt8) (link : ManufacturerId)
    (hl : LinkOf m link) (ci : UInt8) (hci : isShortCi ci)
    (hs : Telegram data (some link) (ci :: hd.bytes ++ (cbcEncrypt Aes.encrypt key (sealVector hd m) blocks ++ tail))) :
    ∃ blk c, Block (ci :: hd.bytes ++ (cbcEncrypt Aes.encrypt key (sealVector hd m) blocks ++ tail)) blk ∧
      prepareSecurity Aes.aes128 (some blk) (some link) (some key) (List.replicate 512 0) = .ok c ∧
      FitsReport hd.mode (.opened (blocks.flatten ++ tail)) true c := by
  have hlen : ∀ b, b.length = 16 → (Aes.encrypt key b).length = 16 := fun b hb => (C124_cipher key b hk hb).1
  have hsz := telegram_length _ _ _ hs
  have hcl := cbcEncrypt_length Aes.encrypt key hlen blocks _ (sealVector_length hd m) hbl
  simp only [List.length_append, hcl] at hsz
  obtain ⟨i0, i1, i2, i3, he, hb, -⟩ := hexString_encodeBcd m.number
  have hiv := headerIv_context _ _ i0 i1 i2 i3 m.version m.device hd.access hd.status.byte
    (UInt8.ofNat (hd.configuration.val % 256)) (UInt8.ofNat (hd.configuration.val / 256)) hb _ (maker_code m hm) (sealVector hd m)
    (by rw [(protection_mode hd 0).2]; exact sealVector_iv hd m hmode i0 i1 i2 i3 he)
  have hid : bcdValue [i0, i1, i2, i3] = link.identificationNumber := by
    rw [← he, bcdValue_encodeBcd, hl.number]
    exact Nat.mod_eq_of_lt (by have := hm.1; omega)
  rw [hid, ← hl.maker, ← hl.device, ← hl.version] at hiv
  obtain ⟨l, hp⟩ := prepare_short Aes.encrypt Aes.aes128 key hk hlen (fun b hb => (C124_cipher key b hk hb).2.2) none
    ⟨hd.access, hd.status.byte, ⟨le16 (UInt8.ofNat (hd.configuration.val % 256)) (UInt8.ofNat (hd.configuration.val / 256))⟩⟩ link _
    hiv blocks hbl hne tail ht (by omega)
  exact ⟨_, _, Block.short ci hd.access hd.status.byte _ _ _ hci, hp, fits_opened _ hd l _ hmode _ rfl⟩

/-- C144 for wireless telegrams with a short header, whose data are encrypted for the address in the link layer. -/
theorem C144_opened_short_json (cfg : Cfg) (env : CliEnv) (text keyText : List Char) (data key : List UInt8) (enrichment : Bool)
    (henv : ∀ bits, FiniteReal bits → NumberText (env.front.text.realText bits))
    (hx : Spelled text data) (hkt : KeyText keyText key) (hk : key.length = 16) (hd : SentHeader) (m : SentMeter) (hm : m.Valid)
    (hmode : hd.mode = 5 ∨ hd.mode = 7) (blocks : List (List UInt8)) (hbl : ∀ b ∈ blocks, b.length = 16)
    (hne : blocks ≠ []) (tail : List UInt8) (ht : tail.length < 16) (link : ManufacturerId) (hl : LinkOf m link) (ci : UInt8)
    (hci : isShortCi ci) (payload : List UInt8)
    (hp : payload = ci :: hd.bytes ++ (cbcEncrypt Aes.encrypt key (sealVector hd m) blocks ++ tail))
    (hs : Telegram data (some link) payload) (h : ∃ o, decodeBytes cfg Aes.aes128 data ⟨some key, enrichment⟩ = .ok o) :
    AnsweredWell cfg env Aes.aes128 text (some keyText) enrichment "json"
        (JsonSecurity hd.mode payload (.opened (blocks.flatten ++ tail)) true) ∧
      ∃ out, pyParse cfg env.front Aes.aes128 (.text text) (some (.text keyText)) enrichment = .ok out ∧
        JsonSecurity hd.mode payload (.opened (blocks.flatten ++ tail)) true out := by
  subst hp
  obtain ⟨o, ho⟩ := h
  obtain ⟨blk, c, hb, hc, hf⟩ := fits_short key hk hd m hm hmode blocks hbl hne tail ht data link hl ci hci hs
  obtain ⟨j1, j2⟩ := kept_protection cfg _ data _ o ho (some link) _ hs blk hb c hc _ _ _ hf env.front.text henv
  exact parsed_well cfg env _ text data (some keyText) (some key) enrichment hx (.key _ _ hkt) o ho _ j1 j2

/-- The readings of `sentData` in the clear, with a key that is not needed: one remark, that it was not used. -/
example (cfg : Cfg) (front : FrontEnv) (hf : front.text = sampleEnv) (aes : AesBlock) :
    AnsweredWell cfg (oneFile front "t.hex".toList []) aes (hexString (alarmWired 0x0C))
      (some "0102030405060708090a0B0c0D0E0F11".toList) true "json"
      (JsonSecurity 0 ([0x72, 0x78, 0x56, 0x34, 0x12, 0x93, 0x15, 0x33, 0x03, 0x2A, 0x0C, 0x00, 0] ++ sentData) .clear true) := by
  have e : 0x72 :: headerAddress ⟨12345678, 5, 12, 19, 0x33, 0x03⟩ ++
      (SentHeader.mk 0x2A ⟨0, true, true, false, false, false, false⟩ 0).bytes ++ sentData =
      [0x72, 0x78, 0x56, 0x34, 0x12, 0x93, 0x15, 0x33, 0x03, 0x2A, 0x0C, 0x00, 0] ++ sentData := by decide +kernel
  obtain ⟨o, ho, -⟩ := C123_clear_partial cfg aes _ none _ sentData ⟨some exampleKey, true⟩ sentReadings
    (e ▸ sent_status_telegram)
    (.long false 0x78 0x56 0x34 0x12 0x93 0x15 0x33 0x03 0x2A 0x0C 0x00 0 _ (by decide +kernel) (by decide))
    sent_example (by decide +kernel)
  rw [← e]
  exact (C144_unopened_json cfg (oneFile front "t.hex".toList []) aes (hexString (alarmWired 0x0C)) (alarmWired 0x0C)
    (some "0102030405060708090a0B0c0D0E0F11".toList) (some exampleKey) true
    ⟨0x2A, ⟨0, true, true, false, false, false, false⟩, 0⟩ "tpl.long"
    (by intro bits h; show NumberText (front.text.realText bits); rw [hf]; exact sampleEnv_numbers bits h)
    ((decode_iff _ _).1 (by decide +kernel)) (.key _ _ (((C115_cli_key _).1 _).1 (by decide +kernel))) none _
    sent_status_telegram (.long _ sentData) (Or.inl (by decide +kernel)) ⟨o, ho⟩).1

set_option maxRecDepth 20000 in
/-- The same readings encrypted with the key of the project's tests. -/
example (cfg : Cfg) (front : FrontEnv) (hf : front.text = sampleEnv) :
    AnsweredWell cfg (oneFile front "t.hex".toList []) Aes.aes128 (hexString sealedWireless)
      (some "0102030405060708090a0B0c0D0E0F11".toList) true "json"
      (JsonSecurity 5 ([0x7A, 0x2A, 0, 0x20, 0x05] ++
        (cbcEncrypt Aes.encrypt exampleKey (headerIv 0xE6 0x1E [0x78, 0x56, 0x34, 0x12] 0x3C 0x07 0x2A)
          [sentData.take 16, (sentData.drop 16).take 16] ++ sentData.drop 32)) (.opened sentData) true) := by
  have hk := ((C115_cli_key "0102030405060708090a0B0c0D0E0F11".toList).1 exampleKey).1 (by decide +kernel)
  have ht := isWireless_telegram sealedWireless ⟨⟨71, 87, 70⟩, 12345678, .waterMeter, 0x3C, false⟩ ([0x7A, 0x2A, 0, 0x20, 0x05] ++
    (cbcEncrypt Aes.encrypt exampleKey (headerIv 0xE6 0x1E [0x78, 0x56, 0x34, 0x12] 0x3C 0x07 0x2A)
      [sentData.take 16, (sentData.drop 16).take 16] ++ sentData.drop 32)) (by decide +kernel)
  obtain ⟨o, ho, -⟩ := C123_aes_short_partial cfg exampleKey (by decide) 0x7A 0x2A 0 0x20 0x05 (Or.inl rfl)
    ⟨⟨71, 87, 70⟩, 12345678, .waterMeter, 0x3C, false⟩ 0xE6 0x1E 0x78 0x56 0x34 0x12 0x07
    (by decide +kernel) (by decide +kernel) (by decide +kernel) (by decide +kernel) _ (.address rfl)
    [sentData.take 16, (sentData.drop 16).take 16] (by decide) (by simp) (sentData.drop 32) (by decide) sealedWireless ht
    sentReadings (by simpa [sentData] using sent_example) (by decide +kernel) true
  have key := (C144_opened_short_json cfg (oneFile front "t.hex".toList []) (hexString sealedWireless) _ sealedWireless exampleKey true
    (by intro bits h; show NumberText (front.text.realText bits); rw [hf]; exact sampleEnv_numbers bits h)
    ((decode_iff _ _).1 (by decide +kernel)) hk (by decide) ⟨0x2A, ⟨0, false, false, false, false, false, false⟩, 0x0520⟩
    ⟨12345678, 7, 23, 6, 0x3C, 0x07⟩
    ⟨by norm_num, by constructor <;> norm_num, by constructor <;> norm_num, by constructor <;> norm_num⟩ (Or.inl (by decide +kernel))
    [sentData.take 16, (sentData.drop 16).take 16] (by decide) (by simp) (sentData.drop 32) (by decide)
    ⟨⟨71, 87, 70⟩, 12345678, .waterMeter, 0x3C, false⟩
    ⟨by decide +kernel, rfl, rfl, by decide +kernel⟩ 0x7A (Or.inl rfl) _ (by decide +kernel) ht ⟨o, ho⟩).1
  have e : [sentData.take 16, (sentData.drop 16).take 16].flatten ++ sentData.drop 32 = sentData := by decide +kernel
  have e' : (SentHeader.mk 0x2A ⟨0, false, false, false, false, false, false⟩ 0x0520).mode = 5 := by decide +kernel
  rw [e, e'] at key
  exact key

end MBus
