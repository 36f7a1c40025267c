import Verif.Lemmas.OutputFields
import Verif.Lemmas.HexviewFrame
import Verif.Props.OutputRecords
import Verif.Spec.Legacy
/-!
# The older outputs and the structured output on the same telegram
-/
namespace MBus
open Spec

theorem record_items (cfg : Cfg) (lsb : Bool) (d : List UInt8) : ∃ rs : List DataRecord,
    parseDataRecords cfg lsb d = rs.map .ok ∨
    (∃ e, parseDataRecords cfg lsb d = rs.map .ok ++ [.err e]) ∨
    parseDataRecords cfg lsb d = rs.map .ok ++ [.panic] := by
  have h := (C27_items cfg lsb d _).1 rfl
  generalize parseDataRecords cfg lsb d = items at h
  induction h with
  | nil => exact ⟨[], Or.inl rfl⟩
  | skip b data items _ _ ih => exact ih
  | record b data rest r items _ _ _ _ _ ih =>
    obtain ⟨rs, h | ⟨e, h⟩ | h⟩ := ih
    · exact ⟨r :: rs, Or.inl (by simp [h])⟩
    · exact ⟨r :: rs, Or.inr (Or.inl ⟨e, by simp [h]⟩)⟩
    · exact ⟨r :: rs, Or.inr (Or.inr (by simp [h]))⟩
  | fail b data _ hf =>
    cases hx : DataRecord.parse cfg lsb (b :: data) with
    | ok r => exact absurd hx (hf r)
    | err e => exact ⟨[], Or.inr (Or.inl ⟨e, rfl⟩)⟩
    | panic => exact ⟨[], Or.inr (Or.inr rfl)⟩

theorem flatten_ok (rs : List DataRecord) (rest : List (Res RecordError DataRecord)) :
    flattenItems (rs.map .ok ++ rest) = (do
      let more ← flattenItems rest
      .ok (rs ++ more)) := by
  induction rs with
  | nil =>
    simp only [List.map_nil, List.nil_append]
    cases flattenItems rest <;> rfl
  | cons r rs ih =>
    simp only [List.map_cons, List.cons_append, flattenItems, ih]
    cases flattenItems rest <;> rfl

/-- What the two collections of records and the serialisation make of the same iterator. -/
theorem collections (cfg : Cfg) (d : List UInt8) (lsb : Bool) :
    (∃ rs, collectRecords cfg (some (DataRecords.new d lsb)) = some (rs, none) ∧
      flattenItems ((DataRecords.new d lsb).collect cfg) = .ok rs ∧
      (DataRecords.new d lsb).toVec cfg = some rs) ∨
    (∃ rs e, collectRecords cfg (some (DataRecords.new d lsb)) = some (rs, some e) ∧
      flattenItems ((DataRecords.new d lsb).collect cfg) = .ok rs ∧
      (DataRecords.new d lsb).toVec cfg = some []) ∨
    (collectRecords cfg (some (DataRecords.new d lsb)) = none ∧
      flattenItems ((DataRecords.new d lsb).collect cfg) = .panic ∧
      (DataRecords.new d lsb).toVec cfg = none) := by
  obtain ⟨rs, h | ⟨e, h⟩ | h⟩ := record_items cfg lsb d <;> rw [parseDataRecords] at h
  · refine .inl ⟨rs, ?_, ?_, ?_⟩
    · simp only [collectRecords, h]
      have := collectItems_ok rs [] 0
      simpa using this
    · have := flatten_ok rs []
      simp only [List.append_nil] at this
      rw [h, this]
      simp [flattenItems]
    · simp only [DataRecords.toVec, h]
      rw [if_neg (by simp), if_pos (by simp [Res.toOption])]
      simp [List.filterMap_map, Function.comp_def, Res.toOption]
  · refine .inr (.inl ⟨rs, ((rs.map (·.rawBytes.length)).sum, e), ?_, ?_, ?_⟩)
    · simp only [collectRecords, h]
      have := collectItems_spec rs e [] 0
      simpa using this
    · rw [h, flatten_ok]
      simp [flattenItems]
    · simp only [DataRecords.toVec, h]
      rw [if_neg (by simp), if_neg (by simp [Res.toOption])]
  · refine .inr (.inr ⟨?_, ?_, ?_⟩)
    · simp only [collectRecords, h]
      exact collectItems_panic rs [] 0
    · rw [h, flatten_ok]
      rfl
    · simp only [DataRecords.toVec, h]
      rw [if_pos (by simp)]

/-- The two decryption functions of the crate do the same. -/
theorem decrypt_same (aes : AesBlock) (blk : UserDataBlock) (link : Option ManufacturerId)
    (key out : List UInt8) (h : userDataIsEncrypted (some blk) = true) :
    decryptWithKey aes blk link key out =
      ((decryptUserData aes blk link key out).1.mapErr (fun _ => ()),
        (decryptUserData aes blk link key out).2) := by
  cases blk with
  | reset _ => rfl
  | fixed _ _ _ _ _ _ => rfl
  | noTpl _ _ => rfl
  | long ell header block =>
    simp only [userDataIsEncrypted] at h
    simp only [decryptWithKey, decryptUserData, h, Bool.not_true, Bool.false_eq_true, if_false]
    cases header.manufacturer with
    | err e => rfl
    | panic => rfl
    | ok m =>
      simp only
      generalize (StaticKeyProvider.new 1).addKey m.toId
        (UInt32.ofNat header.identificationNumber) key = x
      obtain ⟨x, p⟩ := x
      cases x <;> rfl
  | short ell header block =>
    simp only [userDataIsEncrypted] at h
    have hm : header.configurationField.securityMode ≠ .noEncryption := by
      simpa [ShortTplHeader.isEncrypted] using h
    simp only [decryptWithKey, decryptUserData, h, Bool.not_true, Bool.false_eq_true, if_false]
    rw [if_neg hm]
    cases link with
    | none => rfl
    | some id =>
      simp only
      generalize (StaticKeyProvider.new 1).addKey id.manufacturerCode.toId
        (UInt32.ofNat id.identificationNumber) key = x
      obtain ⟨x, p⟩ := x
      cases x <;> rfl

/-- The security context says whether the payload is encrypted, decrypted, and to what. -/
theorem context (aes : AesBlock) (userData : Option UserDataBlock) (link : Option ManufacturerId)
    (key : Option (List UInt8)) (out : List UInt8) (c : SecurityContext)
    (h : prepareSecurity aes userData link key out = .ok c) :
    c.encrypted = (securityFields userData).1 ∧ c.mode = (securityFields userData).2.1 ∧
    c.ellEncrypted = (securityFields userData).2.2 ∧
    (c.decrypted = false → c.decryptedPayload = none ∧ (c.encrypted = true → key = none)) ∧
    (c.decrypted = true → c.encrypted = true ∧ userDataIsEncrypted userData = true ∧
      ∃ k blk len out' plain, key = some k ∧ userData = some blk ∧
      decryptUserData aes blk link k out = (.ok len, out') ∧ sliceTo? out' len = some plain ∧
      c.decryptedPayload = some plain) := by
  have hsf : userData = none → (securityFields userData).1 = false := by rintro rfl; rfl
  have hue : ∀ e, userData ≠ none → securityFields userData = (true, e) →
      ¬ (e.2 = true ∧ e.1.isNone) → userDataIsEncrypted userData = true := by
    intro e hn h1 h2
    cases userData with
    | none => exact absurd rfl hn
    | some blk =>
      cases blk with
      | reset _ => cases h1
      | fixed _ _ _ _ _ _ => cases h1
      | noTpl _ _ => cases h1
      | long ell header block =>
        simp only [securityFields, Prod.mk.injEq] at h1
        exact h1.1
      | short ell header block =>
        simp only [securityFields] at h1
        split at h1
        · obtain ⟨e1, e2⟩ := e
          cases h1
          exact absurd ⟨rfl, rfl⟩ h2
        · simp only [Prod.mk.injEq] at h1
          exact h1.1
  unfold prepareSecurity at h
  rcases hsec : securityFields userData with ⟨enc, mode, ell⟩
  rw [hsec] at h hsf
  simp only at h hsf ⊢
  cases enc with
  | false =>
    simp only at h
    cases h
    simp
  | true =>
    cases userData with
    | none => cases hsf rfl
    | some blk =>
      simp only at h
      cases key with
      | none => simp only at h; cases h; simp
      | some k =>
        simp only at h
        split at h
        · cases h
        · rename_i hne
          have hu := hue (mode, ell) (by simp) hsec hne
          cases hd : decryptUserData aes blk link k out with
          | mk r out' =>
            rw [hd] at h
            cases r with
            | err e => cases h
            | panic => cases h
            | ok len =>
              simp only at h
              cases hs : sliceTo? out' len with
              | none => rw [hs] at h; cases h
              | some plain =>
                rw [hs] at h
                cases h
                exact ⟨rfl, rfl, rfl, by simp, fun _ => ⟨rfl, hu, k, blk, len, out', plain, rfl, rfl, hd, hs, rfl⟩⟩

/-- Unless only the extended link layer encrypts, both outputs see the same encryption. -/
theorem encrypted_same (userData : Option UserDataBlock)
    (h : ¬ ((securityFields userData).1 = true ∧ (securityFields userData).2.1 = none)) :
    userDataIsEncrypted userData = (securityFields userData).1 := by
  cases userData with
  | none => rfl
  | some blk =>
    cases blk with
    | short ell header block =>
      simp only [securityFields] at h ⊢
      split at h
      · exact absurd ⟨rfl, rfl⟩ h
      · rename_i hc
        rw [if_neg hc]; rfl
    | _ => rfl

/-- If only the extended link layer encrypts, the older outputs see no encryption. -/
theorem ell_clear (userData : Option UserDataBlock) (h1 : (securityFields userData).1 = true)
    (h2 : (securityFields userData).2.1 = none) : userDataIsEncrypted userData = false := by
  cases userData with
  | none => rfl
  | some blk =>
    cases blk with
    | short ell header block =>
      simp only [securityFields] at h2
      split at h2
      · rename_i hc
        simp only [Bool.and_eq_true, beq_iff_eq] at hc
        simp [userDataIsEncrypted, ShortTplHeader.isEncrypted, hc.2]
      · cases h2
    | long ell header block => cases h2
    | _ => rfl

/-- What the older outputs decrypt if the structured output does. -/
theorem decrypted_same (aes : AesBlock) (haes : BlockSized aes) (payload : List UInt8) (blk : UserDataBlock)
    (link : Option ManufacturerId) (k : List UInt8) (len : Nat) (out' plain : List UInt8)
    (hb : Block payload blk) (hlen : payload.length ≤ 256)
    (hl : ∀ id, link = some id → id.identificationNumber < 2 ^ 32)
    (he : userDataIsEncrypted (some blk) = true)
    (hd : decryptUserData aes blk link k (List.replicate 512 0) = (.ok len, out'))
    (hs : sliceTo? out' len = some plain) :
    ∃ out2, decryptWithKey aes blk link k (List.replicate 256 0) = (.ok len, out2) ∧
      sliceTo? out2 len = some plain := by
  have h1 := decrypt_same aes blk link k (List.replicate 512 0) he
  rw [hd] at h1
  simp only [Res.mapErr] at h1
  have hk : k.length = 16 := (decryptWithKey_key aes k blk link (List.replicate 512 0)).2 len (by rw [h1])
  have hvl : (variableData blk).length ≤ payload.length := by
    by_cases hv : variableData blk = []
    · simp [hv]
    · obtain ⟨header, rfl, _⟩ := block_header hb hv
      simp
  obtain ⟨plain', hr, hl1, hl2, hs'⟩ := (decryptWithKey_iff aes haes k hk blk link (List.replicate 512 0)
    (by rw [List.length_replicate]; omega) (blockNumber_lt hb) hl).1 len out' h1
  rw [hs] at hs'
  cases hs'
  obtain ⟨out2, h2, h3⟩ := (decryptWithKey_iff aes haes k hk blk link (List.replicate 256 0)
    (by rw [List.length_replicate]; omega) (blockNumber_lt hb) hl).2 plain hr
  rw [hl1]
  exact ⟨out2, h2, h3⟩

/-- What a parsed frame carries. -/
inductive Carried {F : Type} (m : MbusData F) : Prop
  | nothing : m.userData = none → m.dataRecords = none → Carried m
  | block (payload : List UInt8) (blk : UserDataBlock) : payload.length ≤ 256 → Block payload blk →
      m.userData = some blk → m.dataRecords = blk.attachedRecords → Carried m

theorem ofPayload_carried {ε F : Type} (frame : F) (payload : List UInt8) (m : MbusData F)
    (hl : payload.length ≤ 256) (h : (MbusData.ofPayload frame payload : Res ε _) = .ok m) : Carried m := by
  unfold MbusData.ofPayload at h
  cases hx : UserDataBlock.tryFrom payload with
  | ok blk =>
    rw [hx] at h
    cases h
    exact .block payload blk hl ((C32_accepts_iff _ _).1 hx) rfl rfl
  | err e => rw [hx] at h; cases h; exact .nothing rfl rfl
  | panic => rw [hx] at h; cases h

theorem wired_carried (cfg : Cfg) (data : List UInt8) (m : MbusData WiredFrame)
    (h : MbusData.tryFromWired cfg data = .ok m) : Carried m := by
  unfold MbusData.tryFromWired at h
  rw [Res.bind_eq_ok] at h
  obtain ⟨f, hf, h⟩ := h
  cases (C01_wired_accepts_exactly_telegrams _ _ _).1 hf with
  | single rest => cases h; exact .nothing rfl rfl
  | short c a fn hfn => cases h; exact .nothing rfl rfl
  | control x a payload hl => cases h; exact .nothing rfl rfl
  | long x c a payload fn hfn hc hl => exact ofPayload_carried _ _ m (by omega) h

theorem wireless_carried (data : List UInt8) (m : MbusData WirelessFrame)
    (h : MbusData.tryFromWireless data = .ok m) :
    Carried m ∧ m.frame.manufacturerId.identificationNumber < 2 ^ 32 := by
  unfold MbusData.tryFromWireless at h
  rw [Res.bind_eq_ok] at h
  obtain ⟨f, hf, h⟩ := h
  obtain ⟨link, crc, _, h2, _, h3, _, h4⟩ :=
    wireless_parts ((C12_wireless_accepts_exactly_telegrams data f).1 hf)
  have hl : f.data.length ≤ 256 := by
    have := congrArg List.length h2
    simp only [List.length_append] at this
    omega
  have hfr : m.frame = f := by
    unfold MbusData.ofPayload at h
    cases hx : UserDataBlock.tryFrom f.data <;> rw [hx] at h <;> cases h <;> rfl
  exact ⟨ofPayload_carried _ _ m hl h, hfr ▸ h4⟩

theorem attached_new (blk : UserDataBlock) (s : DataRecords) (h : blk.attachedRecords = some s) :
    ∃ d lsb, s = DataRecords.new d lsb := by
  cases blk <;> simp [UserDataBlock.attachedRecords] at h
  all_goals exact ⟨_, _, h.symm⟩

theorem decrypted_new (u : Option UserDataBlock) (plain : List UInt8) (s : DataRecords)
    (h : decryptedRecords u plain = some s) : ∃ d lsb, s = DataRecords.new d lsb := by
  unfold decryptedRecords at h
  split at h <;> cases h <;> exact ⟨_, _, rfl⟩

/-- The serialised records, if the collection of the structured output gives `outs` and `err`. -/
def serialised (recs : Option DataRecords) (outs : List DataRecord) (err : Option (Nat × RecordError)) :
    Option (List DataRecord) :=
  recs.map (fun _ => if err.isSome then [] else outs)

/-- The end of both halves of `parse_frame_output`. -/
theorem legacy_end {F : Type} (cfg : Cfg) (rt : UInt32 → List Char) (m : MbusData F)
    (s0 : FrameSummary) (recs : Option DataRecords) (enc dec : Bool) (outs : List DataRecord)
    (err : Option (Nat × RecordError)) (hr : ∀ s, recs = some s → ∃ d lsb, s = DataRecords.new d lsb)
    (hs0 : s0.records = [])
    (hed : ¬ (enc = true ∧ dec = false)) (hc : collectRecords cfg recs = some (outs, err)) :
    (do
      let summary ← finalizeSummary cfg rt s0 recs m.userData enc dec
      buildParsed cfg { m with dataRecords := recs } summary) =
    .ok ⟨{ s0 with encrypted := enc, decrypted := dec, records := outs.map (recordSummary rt) },
      serialised recs outs err⟩ := by
  have hed' : (enc && !dec) = false := by
    cases enc <;> cases dec <;> simp_all
  simp only [finalizeSummary, hed', Bool.false_eq_true, if_false]
  cases recs with
  | none =>
    simp only [collectRecords, Option.some.injEq, Prod.mk.injEq] at hc
    obtain ⟨rfl, rfl⟩ := hc
    simp only [Res.bind_ok, buildParsed, List.map_nil, serialised, Option.map_none]
    obtain ⟨⟩ := s0
    simp only at hs0
    subst hs0
    rfl
  | some s =>
    obtain ⟨d, lsb, rfl⟩ := hr s rfl
    simp only [recordSummaries]
    obtain ⟨rs, h1, h2, h3⟩ | ⟨rs, e, h1, h2, h3⟩ | ⟨h1, _, _⟩ := collections cfg d lsb
    · rw [h1] at hc; cases hc
      simp only [h2, Res.bind_ok, buildParsed, h3, serialised, Option.map_some, Option.isSome_none,
        Bool.false_eq_true, if_false]
    · rw [h1] at hc; cases hc
      simp only [h2, Res.bind_ok, buildParsed, h3, serialised, Option.map_some, Option.isSome_some,
        if_true]
    · rw [h1] at hc; cases hc

/-- The same if the payload stays encrypted. -/
theorem legacy_sealed {F : Type} (cfg : Cfg) (rt : UInt32 → List Char) (m : MbusData F)
    (s0 : FrameSummary) :
    (do
      let summary ← finalizeSummary cfg rt s0 m.dataRecords m.userData true false
      buildParsed cfg m summary) =
    buildParsed cfg m { s0 with
      encrypted := true, decrypted := false
      encryptedPayloadHex := (variableDataBlock m.userData).map hexString } := rfl

theorem decryptWired_not (aes : AesBlock) (key : Option (List UInt8)) (m : MbusData WiredFrame)
    (h : userDataIsEncrypted m.userData = false ∨ key = none) :
    legacyDecryptWired aes key m = .ok (m, false) := by
  unfold legacyDecryptWired
  rcases h with h | rfl
  · rw [h]
  · cases userDataIsEncrypted m.userData <;> rfl

theorem decryptWireless_not (aes : AesBlock) (key : Option (List UInt8)) (m : MbusData WirelessFrame)
    (h : userDataIsEncrypted m.userData = false ∨ key = none) :
    legacyDecryptWireless aes key m = .ok (m, false) := by
  unfold legacyDecryptWireless
  rcases h with h | rfl
  · rw [h]
  · cases userDataIsEncrypted m.userData <;> rfl

theorem short_none (aes : AesBlock) (k : List UInt8) (ell : Option ExtendedLinkLayer)
    (header : ShortTplHeader) (block buf : List UInt8) (len : Nat) (out : List UInt8) :
    decryptWithKey aes (.short ell header block) none k buf ≠ (.ok len, out) := by
  unfold decryptWithKey
  simp only
  split <;> simp

theorem decryptWired_done (aes : AesBlock) (k : List UInt8) (m : MbusData WiredFrame) (blk : UserDataBlock)
    (len : Nat) (out plain : List UInt8) (hu : m.userData = some blk)
    (he : userDataIsEncrypted (some blk) = true)
    (hd : decryptWithKey aes blk none k (List.replicate 256 0) = (.ok len, out))
    (hs : sliceTo? out len = some plain) :
    legacyDecryptWired aes (some k) m =
      .ok ({ m with dataRecords := decryptedRecords m.userData plain }, true) := by
  unfold legacyDecryptWired
  rw [hu, he]
  simp only [hd]
  cases blk with
  | long ell header block => simp only [hs, decryptedRecords]
  | short ell header block =>
    exact absurd hd (short_none aes k ell header block _ len out)
  | _ => cases he

theorem decryptWireless_done (aes : AesBlock) (k : List UInt8) (m : MbusData WirelessFrame)
    (blk : UserDataBlock) (len : Nat) (out plain : List UInt8) (hu : m.userData = some blk)
    (he : userDataIsEncrypted (some blk) = true)
    (hd : decryptWithKey aes blk (some m.frame.manufacturerId) k (List.replicate 256 0) = (.ok len, out))
    (hs : sliceTo? out len = some plain) :
    legacyDecryptWireless aes (some k) m =
      .ok ({ m with dataRecords := decryptedRecords m.userData plain }, true) := by
  unfold legacyDecryptWireless
  rw [hu, he]
  simp only [hd]
  cases blk with
  | long ell header block => simp only [hs, decryptedRecords]
  | short ell header block => simp only [hs, decryptedRecords]
  | _ => cases he

theorem applied_records (s : FrameSummary) (u : Option UserDataBlock) :
    (applyUserDataSummary s u).records = s.records := by
  unfold applyUserDataSummary
  split <;> rfl

/-- The halves of `parse_frame_output` agree with the structured output. -/
inductive Agrees (cfg : Cfg) (rt : UInt32 → List Char) {F : Type} (m : MbusData F) (s0 : FrameSummary)
    (c : SecurityContext) (outs : List DataRecord) (err : Option (Nat × RecordError)) :
    Res Unit ParsedOutput → Prop
  | shown : ¬ (c.encrypted = true ∧ c.decrypted = false) →
      Agrees cfg rt m s0 c outs err (.ok
        ⟨{ s0 with
            encrypted := c.encrypted, decrypted := c.decrypted, records := outs.map (recordSummary rt) },
          serialised (recordsToShow m c) outs err⟩)
  | sealed : c.encrypted = true → c.decrypted = false → c.mode ≠ none →
      Agrees cfg rt m s0 c outs err (buildParsed cfg m { s0 with
        encrypted := true, decrypted := false
        encryptedPayloadHex := (variableDataBlock m.userData).map hexString })
  | ell : c.encrypted = true → c.decrypted = false → c.mode = none →
      Agrees cfg rt m s0 c outs err (do
        let summary ← finalizeSummary cfg rt s0 m.dataRecords m.userData false false
        buildParsed cfg m summary)

theorem records_new {F : Type} {m : MbusData F} (hm : Carried m) (c : SecurityContext) (s : DataRecords)
    (h : recordsToShow m c = some s) : ∃ d lsb, s = DataRecords.new d lsb := by
  unfold recordsToShow at h
  split at h
  · exact decrypted_new _ _ _ h
  · split at h
    · cases h
    · cases hm with
      | nothing _ h2 => rw [h2] at h; cases h
      | block payload blk _ _ _ h2 => rw [h2] at h; exact attached_new _ _ h

theorem agrees (cfg : Cfg) (rt : UInt32 → List Char) (aes : AesBlock) (haes : BlockSized aes) {F : Type}
    (m : MbusData F) (hm : Carried m) (link : Option ManufacturerId) (key : Option (List UInt8))
    (decrypt : Res Unit (MbusData F × Bool))
    (hl : ∀ id, link = some id → id.identificationNumber < 2 ^ 32)
    (hnot : userDataIsEncrypted m.userData = false ∨ key = none → decrypt = .ok (m, false))
    (hdone : ∀ k blk len out plain, key = some k → m.userData = some blk →
      userDataIsEncrypted (some blk) = true →
      decryptWithKey aes blk link k (List.replicate 256 0) = (.ok len, out) →
      sliceTo? out len = some plain →
      decrypt = .ok ({ m with dataRecords := decryptedRecords m.userData plain }, true))
    (head : F → FrameSummary) (hhead : ∀ f, (head f).records = []) (c : SecurityContext)
    (outs : List DataRecord) (err : Option (Nat × RecordError))
    (hc : prepareSecurity aes m.userData link key (List.replicate 512 0) = .ok c)
    (hcol : collectRecords cfg (recordsToShow m c) = some (outs, err)) :
    Agrees cfg rt m (applyUserDataSummary (head m.frame) m.userData) c outs err (do
      let (p, decrypted) ← decrypt
      let summary ← finalizeSummary cfg rt (applyUserDataSummary (head p.frame) p.userData) p.dataRecords p.userData (userDataIsEncrypted m.userData)
        decrypted
      buildParsed cfg p summary) := by
  obtain ⟨h1, h2, h3, h4, h5⟩ := context aes m.userData link key _ c hc
  have hnew := records_new hm c
  have hs0 : (applyUserDataSummary (head m.frame) m.userData).records = [] := by
    rw [applied_records, hhead]
  generalize hgen : applyUserDataSummary (head m.frame) m.userData = s0 at hs0
  cases hd : c.decrypted with
  | true =>
    obtain ⟨k1, k2, k, blk, len, out', plain, rfl, hu, k3, k4, k5⟩ := h5 hd
    rw [hu] at k2
    cases hm with
    | nothing hx _ => rw [hx] at hu; cases hu
    | block payload blk' hlen hb hx _ =>
      rw [hx] at hu; cases hu
      obtain ⟨out2, e1, e2⟩ := decrypted_same aes haes payload blk link k len out' plain hb hlen hl k2 k3 k4
      rw [hdone k blk len out2 plain rfl hx k2 e1 e2]
      have hr : recordsToShow m c = decryptedRecords m.userData plain := by
        unfold recordsToShow; rw [k5]
      rw [hr] at hcol hnew
      have := legacy_end cfg rt m s0 _ (userDataIsEncrypted m.userData) true outs err hnew hs0 (by simp) hcol
      simp only [Res.bind_ok]
      rw [hgen, this, hx, k2]
      have hsh := Agrees.shown (cfg := cfg) (rt := rt) (m := m) (s0 := s0) (c := c) (outs := outs)
        (err := err) (by rw [hd]; simp)
      rw [hd, k1, hr, hx] at hsh
      exact hsh
  | false =>
    obtain ⟨k1, k2⟩ := h4 hd
    by_cases he : c.encrypted = true
    · by_cases hmode : c.mode = none
      · have hell : userDataIsEncrypted m.userData = false :=
          ell_clear m.userData (h1 ▸ he) (h2 ▸ hmode)
        rw [hnot (.inr (k2 he)), hell]
        simp only [Res.bind_ok]
        rw [hgen]
        exact .ell he hd hmode
      · have hsame := encrypted_same m.userData (by rw [← h1, ← h2]; exact fun h => hmode h.2)
        rw [hnot (.inr (k2 he)), hsame, ← h1, he]
        simp only [Res.bind_ok]
        rw [hgen]
        exact .sealed he hd hmode
    · have hsame := encrypted_same m.userData (by rw [← h1, ← h2]; exact fun h => he h.1)
      have hef : c.encrypted = false := by simpa using he
      rw [← h1, hef] at hsame
      rw [hnot (.inl hsame), hsame]
      have hr : recordsToShow m c = m.dataRecords := by
        unfold recordsToShow; rw [k1, hef]; rfl
      rw [hr] at hcol hnew
      have := legacy_end cfg rt m s0 _ false false outs err hnew hs0 (by simp) hcol
      simp only [Res.bind_ok]
      rw [show ({ m with dataRecords := m.dataRecords } : MbusData F) = m from rfl] at this
      rw [hgen, this]
      have hsh := Agrees.shown (cfg := cfg) (rt := rt) (m := m) (s0 := s0) (c := c) (outs := outs)
        (err := err) (by rw [hef]; simp)
      rw [hd, hef, hr] at hsh
      exact hsh

/-- The structured output and the older output of the same telegram. -/
theorem both (cfg : Cfg) (rt : UInt32 → List Char) (aes : AesBlock) (haes : BlockSized aes)
    (data : List UInt8) (key : Option (List UInt8)) (e : Bool) (o : DecodedOutput)
    (h : decodeBytes cfg aes data ⟨key, e⟩ = .ok o) :
    (∃ m : MbusData WiredFrame, ∃ c outs err,
      finish cfg aes "wired".toList (wiredFrameOutput m.frame).1 data data false
        (wiredFrameOutput m.frame).2 m none ⟨key, e⟩ = .ok o ∧
      MbusData.tryFromWired cfg data = .ok m ∧ Carried m ∧
      prepareSecurity aes m.userData none key (List.replicate 512 0) = .ok c ∧
      collectRecords cfg (recordsToShow m c) = some (outs, err) ∧
      Agrees cfg rt m (applyUserDataSummary (wiredSummaryHead m.frame) m.userData) c outs err
        (parseFrameOutput cfg rt aes data key)) ∨
    (∃ m : MbusData WirelessFrame, ∃ frame c outs err,
      finish cfg aes "wireless".toList (wirelessFrameOutput m.frame) data frame
        (frame.length != data.length) (some m.frame.data) m (some m.frame.manufacturerId) ⟨key, e⟩ = .ok o ∧
      (∀ g, ¬ WiredTelegram data g) ∧ Normalized data frame ∧ MbusData.tryFromWireless frame = .ok m ∧
      Carried m ∧
      prepareSecurity aes m.userData (some m.frame.manufacturerId) key (List.replicate 512 0) = .ok c ∧
      collectRecords cfg (recordsToShow m c) = some (outs, err) ∧
      Agrees cfg rt m (applyUserDataSummary (wirelessSummaryHead m.frame) m.userData) c outs err
        (parseFrameOutput cfg rt aes data key)) := by
  have hd := decoding cfg aes data ⟨key, e⟩
  generalize hres : decodeBytes cfg aes data ⟨key, e⟩ = res at hd
  cases hd with
  | empty _ => rw [hres] at h; cases h
  | crash _ => rw [hres] at h; cases h
  | neither a b frame _ _ _ _ _ => rw [hres] at h; cases h
  | wired g m hne hg hmf hm =>
    subst hmf
    rw [hres] at h
    obtain ⟨c, outs, err, k1, k2, _⟩ := finish_ok _ _ _ _ _ _ _ _ _ _ _ _ h
    refine .inl ⟨m, c, outs, err, h, hm, wired_carried cfg data m hm, k1, k2, ?_⟩
    unfold parseFrameOutput
    rw [hm]
    exact agrees cfg rt aes haes m (wired_carried cfg data m hm) none key (legacyDecryptWired aes key m)
      (by simp) (decryptWired_not aes key m)
      (by
        intro k blk len out plain hk h1 h2 h3 h4
        subst hk
        exact decryptWired_done aes k m blk len out plain h1 h2 h3 h4)
      wiredSummaryHead (by intro f; cases f <;> rfl) c outs err k1 k2
  | wireless f m frame hne hnw hn hf hmf hm =>
    subst hmf
    rw [hres] at h
    obtain ⟨c, outs, err, k1, k2, _⟩ := finish_ok _ _ _ _ _ _ _ _ _ _ _ _ h
    obtain ⟨w1, w2⟩ := wireless_carried frame m hm
    refine .inr ⟨m, frame, c, outs, err, h, hnw, hn, hm, w1, k1, k2, ?_⟩
    obtain ⟨e', he'⟩ : ∃ e', MbusData.tryFromWired cfg data = .err e' := by
      cases hx : MbusData.tryFromWired cfg data with
      | err e' => exact ⟨e', rfl⟩
      | panic =>
        rw [← hres] at h
        unfold decodeBytes at h
        rw [if_neg hne, hx] at h
        cases h
      | ok m' =>
        unfold MbusData.tryFromWired at hx
        rw [Res.bind_eq_ok] at hx
        obtain ⟨g, hg, _⟩ := hx
        exact absurd ((C01_wired_accepts_exactly_telegrams cfg data g).1 hg) (hnw g)
    unfold parseFrameOutput
    rw [he', (withoutFormatA_iff data frame).2 hn]
    simp only [Res.bind_ok, hm]
    exact agrees cfg rt aes haes m w1 (some m.frame.manufacturerId) key (legacyDecryptWireless aes key m)
      (by intro id hid; cases hid; exact w2) (decryptWireless_not aes key m)
      (by
        intro k blk len out plain hk h1 h2 h3 h4
        subst hk
        exact decryptWireless_done aes k m blk len out plain h1 h2 h3 h4)
      wirelessSummaryHead (by intro f; rfl) c outs err k1 k2

theorem finalize_ok {cfg : Cfg} {rt : UInt32 → List Char} {s0 s : FrameSummary}
    {recs : Option DataRecords} {u : Option UserDataBlock} {enc dec : Bool}
    (h : finalizeSummary cfg rt s0 recs u enc dec = .ok s) :
    ∃ hex records, s = { s0 with
      encrypted := enc, decrypted := dec, encryptedPayloadHex := hex, records := records } := by
  unfold finalizeSummary at h
  simp only at h
  split at h
  · cases h; exact ⟨_, _, rfl⟩
  · split at h
    · rw [Res.bind_eq_ok] at h
      obtain ⟨r, _, h⟩ := h
      cases h; exact ⟨_, _, rfl⟩
    · cases h; exact ⟨_, _, rfl⟩

theorem buildParsed_ok {F : Type} {cfg : Cfg} {m : MbusData F} {s : FrameSummary} {p : ParsedOutput}
    (h : buildParsed cfg m s = .ok p) : p.summary = s := by
  unfold buildParsed at h
  split at h
  · cases h; rfl
  · split at h <;> cases h
    rfl

/-- The header part of a summary does not depend on the records. -/
theorem agrees_head {cfg : Cfg} {rt : UInt32 → List Char} {F : Type} {m : MbusData F} {s0 : FrameSummary}
    {c : SecurityContext} {outs : List DataRecord} {err : Option (Nat × RecordError)} {p : ParsedOutput}
    {r : Res Unit ParsedOutput} (h : Agrees cfg rt m s0 c outs err r) (hr : r = .ok p) :
    ∃ enc dec hex records, p.summary = { s0 with
      encrypted := enc, decrypted := dec, encryptedPayloadHex := hex, records := records } := by
  cases h with
  | shown _ => cases hr; exact ⟨_, _, _, _, rfl⟩
  | sealed _ _ _ => exact ⟨_, _, _, _, buildParsed_ok hr⟩
  | ell _ _ _ =>
    rw [Res.bind_eq_ok] at hr
    obtain ⟨s, h1, h2⟩ := hr
    obtain ⟨hex, records, rfl⟩ := finalize_ok h1
    exact ⟨_, _, _, _, buildParsed_ok h2⟩

/-- The security part of a structured output. -/
theorem finish_security {F : Type} (cfg : Cfg) (aes : AesBlock) (protocol : List Char) (frame : FrameOutput)
    (data normalized : List UInt8) (stripped : Bool) (payload : Option (List UInt8)) (parsed : MbusData F)
    (link : Option ManufacturerId) (options : DecodeOptions) (o : DecodedOutput) (c : SecurityContext)
    (h : finish cfg aes protocol frame data normalized stripped payload parsed link options = .ok o)
    (hc : prepareSecurity aes parsed.userData link options.key (List.replicate 512 0) = .ok c) :
    o.security.payloadProtection = (if c.encrypted then "encrypted" else if c.ellEncrypted then "unknown"
        else "cleartext").toList ∧
    o.security.mode = c.mode.map SecurityMode.display ∧
    o.security.decryptionState = (if !c.encrypted then "not_applicable"
        else if c.decrypted then "decrypted_unverified" else "key_missing").toList := by
  unfold finish at h
  rw [hc] at h
  simp only [buildOutput] at h
  rcases hcol : collectRecords cfg (recordsToShow parsed c) with _ | ⟨outs, err⟩
  · simp [hcol] at h
  · simp only [hcol] at h
    cases h
    exact ⟨rfl, rfl, rfl⟩

end MBus
