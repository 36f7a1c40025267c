import Verif.Spec.KeyUnused
import Verif.Props.KeyUse
/-!
# C164: a key that a telegram does not need changes nothing
-/
namespace MBus
open MBus.Spec

theorem build_protection {cfg : Cfg} {protocol : List Char} {frame : FrameOutput} {data normalized : List UInt8}
    {stripped : Bool} {payload : Option (List UInt8)} {userData : Option UserDataBlock} {records : Option DataRecords}
    {err : Option AppError} {link : Option ManufacturerId} {c : SecurityContext} {enrich : Bool} {o : DecodedOutput}
    (h : buildOutput cfg protocol frame data normalized stripped payload userData records err link c enrich = some o)
    (hc : o.security.payloadProtection ≠ "encrypted".toList) : c.encrypted = false := by
  unfold buildOutput at h
  cases hcol : collectRecords cfg records with
  | none => simp [hcol] at h
  | some r =>
    simp only [hcol] at h
    cases h
    cases he : c.encrypted with
    | false => rfl
    | true => exact absurd (by simp [he]) hc

/-- What is not said to be encrypted is not. -/
theorem clear_fields {aes : AesBlock} {userData : Option UserDataBlock} {link : Option ManufacturerId}
    {output : List UInt8} {c : SecurityContext} (h : prepareSecurity aes userData link none output = .ok c)
    (hc : c.encrypted = false) : (securityFields userData).1 = false := by
  cases userData with
  | none => rfl
  | some b =>
    rw [prepareSecurity_no_key] at h
    cases h
    exact hc

theorem answered_clear {build : SecurityContext → Option DecodedOutput} {aes : AesBlock}
    {userData : Option UserDataBlock} {link : Option ManufacturerId} {output : List UInt8} {o : DecodedOutput}
    (hb : ∀ c o, build c = some o → o.security.payloadProtection ≠ "encrypted".toList → c.encrypted = false)
    (h : answered build (prepareSecurity aes userData link none output) = .ok o)
    (hc : o.security.payloadProtection ≠ "encrypted".toList) : (securityFields userData).1 = false := by
  cases hp : prepareSecurity aes userData link none output with
  | err e => rw [hp] at h; cases h
  | panic => rw [hp] at h; cases h
  | ok c =>
    rw [hp] at h
    unfold answered at h
    dsimp only at h
    cases hx : build c with
    | none => rw [hx] at h; cases h
    | some o' =>
      rw [hx] at h
      cases h
      exact clear_fields hp (hb c o hx hc)

/-- The blocks of user data in a telegram that needs no key. -/
structure ClearBlocks (cfg : Cfg) (data : List UInt8) : Prop where
  wired : ∀ p, MbusData.tryFromWired cfg data = .ok p → (securityFields p.userData).1 = false
  wireless : ∀ e frame p, MbusData.tryFromWired cfg data = .err e → Normalized data frame →
    MbusData.tryFromWireless frame = .ok p → (securityFields p.userData).1 = false

theorem clear_blocks {cfg : Cfg} {aes : AesBlock} {data : List UInt8} (h : NeedsNoKey cfg aes data) :
    ClearBlocks cfg data := by
  obtain ⟨enrichment, o, h, hc⟩ := h
  have hd : data ≠ [] := by
    rintro rfl
    cases h
  constructor
  · intro p hp
    rw [wired_answered hd hp] at h
    exact answered_clear (fun c o ho hc => build_protection ho hc) h hc
  · intro e frame p hw hn hp
    rw [wireless_answered hd hw hn hp] at h
    exact answered_clear (fun c o ho hc => build_protection ho hc) h hc

theorem clear_older {userData : Option UserDataBlock} (h : (securityFields userData).1 = false) :
    userDataIsEncrypted userData = false := by
  unfold securityFields at h
  unfold userDataIsEncrypted
  split
  · simpa [LongTplHeader.isEncrypted, ShortTplHeader.isEncrypted] using h
  · dsimp only at h
    split at h
    · cases h
    · simpa [ShortTplHeader.isEncrypted] using h
  · rfl

theorem clear_key {aes : AesBlock} {block : UserDataBlock} {link : Option ManufacturerId} {key output : List UInt8}
    (h : userDataIsEncrypted (some block) = false) : decryptWithKey aes block link key output = (.err (), output) := by
  unfold decryptWithKey
  cases block <;> simp_all [userDataIsEncrypted]

/-- C164: the document in XML is the same with and without a key. -/
theorem C164_xml (cfg : Cfg) (env : FrontEnv) (aes : AesBlock) (data : List UInt8) (options options' : RenderOptions)
    (h : NeedsNoKey cfg aes data) :
    renderBytes cfg env aes data .xml options = renderBytes cfg env aes data .xml options' := by
  have hb := clear_blocks h
  suffices hs : ∀ key, Xml.renderFromBytes cfg env.xml aes data key = Xml.renderFromBytes cfg env.xml aes data none by
    unfold renderBytes
    dsimp only
    rw [hs options.decode.key, hs options'.decode.key]
  intro key
  cases key with
  | none => rfl
  | some key =>
    unfold Xml.renderFromBytes
    cases hw : MbusData.tryFromWired cfg data with
    | panic => rfl
    | ok p =>
      have hc := clear_older (hb.wired p hw)
      dsimp only
      cases hu : p.userData with
      | none => rfl
      | some b =>
        cases b with
        | long ell header block =>
          rw [hu] at hc
          have hc : header.isEncrypted = false := hc
          simp [Xml.renderWithOptionalDecryption, hc]
        | _ => rfl
    | err e =>
      dsimp only
      cases hs : stripFormatACrcs data (List.replicate 512 0) with
      | panic => rfl
      | err e => rfl
      | ok r =>
        obtain ⟨r, b⟩ := r
        dsimp only
        cases hp : MbusData.tryFromWireless (r.getD data) with
        | panic => rfl
        | err e => rfl
        | ok p =>
          have hn : Normalized data (r.getD data) := by
            refine (withoutFormatA_iff _ _).1 ?_
            unfold withoutFormatA
            rw [hs]
            cases r <;> rfl
          have hf := hb.wireless e _ p hw hn hp
          have hc := clear_older hf
          dsimp only
          unfold Xml.renderWireless
          cases hu : p.userData with
          | none => rfl
          | some b =>
            rw [hu] at hc hf
            cases b with
            | long ell header block =>
              have hc : header.isEncrypted = false := hc
              simp [Xml.renderWithOptionalDecryption, hc]
            | short ell header block =>
              have hc : header.isEncrypted = false := hc
              have hl : ell.any (fun e => e.encryption.isSome) = false := by
                cases hl : ell.any (fun e => e.encryption.isSome) with
                | false => rfl
                | true =>
                  exfalso
                  have hm : header.configurationField.securityMode = .noEncryption := by
                    simpa [ShortTplHeader.isEncrypted] using hc
                  simp [securityFields, hl, hm] at hf
              simp [hc, hl]
            | _ => rfl

theorem wired_unused {aes : AesBlock} {p : MbusData WiredFrame} (h : userDataIsEncrypted p.userData = false)
    (key : Option (List UInt8)) : legacyDecryptWired aes key p = .ok (p, false) := by
  unfold legacyDecryptWired
  rw [h]

theorem wireless_unused {aes : AesBlock} {p : MbusData WirelessFrame} (h : userDataIsEncrypted p.userData = false)
    (key : Option (List UInt8)) : legacyDecryptWireless aes key p = .ok (p, false) := by
  unfold legacyDecryptWireless
  rw [h]

theorem older_unused {cfg : Cfg} {realText : UInt32 → List Char} {aes : AesBlock} {data : List UInt8}
    (hb : ClearBlocks cfg data) (key : Option (List UInt8)) :
    parseFrameOutput cfg realText aes data key = parseFrameOutput cfg realText aes data none := by
  unfold parseFrameOutput
  cases hw : MbusData.tryFromWired cfg data with
  | panic => rfl
  | ok p =>
    have hc := clear_older (hb.wired p hw)
    simp only [legacyWired, wired_unused hc]
  | err e =>
    dsimp only
    cases hn : withoutFormatA data with
    | panic => rfl
    | err e => rfl
    | ok frame =>
      rw [Res.bind_ok, Res.bind_ok]
      cases hp : MbusData.tryFromWireless frame with
      | panic => rfl
      | err e => rfl
      | ok p =>
        have hc := clear_older (hb.wireless e _ p hw ((withoutFormatA_iff _ _).1 hn) hp)
        simp only [legacyWireless, wireless_unused hc]

/-- C164: so are the older outputs that show records. -/
theorem C164_older (cfg : Cfg) (env : FrontEnv) (older : OlderEnv) (aes : AesBlock) (text format : List Char)
    (key key' : Option (List UInt8)) (h : NeedsNoKey cfg aes (cleanAndConvert text))
    (hf : format ∈ ["json-legacy".toList, "yaml-legacy".toList, "csv-wide".toList, "annotated-legacy".toList]) :
    serializeMbusData cfg env older aes text format key = serializeMbusData cfg env older aes text format key' := by
  have hb := clear_blocks h
  have ho : ∀ key, parseFrameOutput cfg env.text.realDisplay aes (cleanAndConvert text) key =
      parseFrameOutput cfg env.text.realDisplay aes (cleanAndConvert text) none := fun key => older_unused hb key
  simp only [List.mem_cons, List.not_mem_nil, or_false] at hf
  rcases hf with rfl | rfl | rfl | rfl <;>
    simp (decide := true) only [serializeMbusData, ↓reduceIte, parseToJson, parseToYaml, wideCsv, parseToCsv, ho key,
      ho key']

theorem wireless_no_panic (frame : List UInt8) : MbusData.tryFromWireless frame ≠ .panic := by
  intro h
  unfold MbusData.tryFromWireless at h
  rw [Res.bind_eq_panic] at h
  rcases h with h | ⟨f, -, h⟩
  · exact C13_wireless_never_panics _ h
  · obtain ⟨m, hm, -⟩ := ofPayload_isOk f f.data
    rw [hm] at h
    cases h

theorem hexview_unused {cfg : Cfg} {aes : AesBlock} {data : List UInt8} (h : NeedsNoKey cfg aes data)
    (hf : OneFraming data) (key : List UInt8) : decryptedHexview cfg aes key data = .err () := by
  have hb := clear_blocks h
  have hw : decryptedWired cfg aes key data = .err () := by
    unfold decryptedWired
    cases hw : MbusData.tryFromWired cfg data with
    | panic =>
      exfalso
      obtain ⟨enrichment, o, h, -⟩ := h
      unfold decodeBytes at h
      split at h
      · cases h
      · rw [hw] at h; cases h
    | err e => rfl
    | ok p =>
      have hc := clear_older (hb.wired p hw)
      simp only [Res.mapErr, Res.bind_ok]
      cases hu : p.userData with
      | none => rfl
      | some b =>
        rw [hu] at hc
        simp only [Res.ofOption, Res.bind_ok, clear_key hc]
        split <;> rfl
  have hr : decryptedWireless aes key data = .err () := by
    unfold decryptedWireless
    cases hn : withoutFormatA data with
    | panic =>
      exfalso
      obtain ⟨frame, hx⟩ := normalized_exists data
      rw [(withoutFormatA_iff _ _).2 hx] at hn
      cases hn
    | err e => rfl
    | ok frame =>
      have hn := (withoutFormatA_iff _ _).1 hn
      rw [Res.bind_ok]
      cases hp : MbusData.tryFromWireless frame with
      | panic => exact absurd hp (wireless_no_panic frame)
      | err e => rfl
      | ok p =>
        simp only [Res.mapErr, Res.bind_ok]
        cases hu : p.userData with
        | none => rfl
        | some b =>
          have hc : userDataIsEncrypted (some b) = false := by
            rw [← hu]
            refine clear_older ?_
            cases hw : MbusData.tryFromWired cfg data with
            | panic =>
              obtain ⟨enrichment, o, h, -⟩ := h
              unfold decodeBytes at h
              split at h
              · cases h
              · rw [hw] at h; cases h
            | err e => exact hb.wireless e frame p hw hn hp
            | ok q =>
              exfalso
              unfold MbusData.tryFromWired at hw
              rw [Res.bind_eq_ok] at hw
              obtain ⟨g, hg, -⟩ := hw
              unfold MbusData.tryFromWireless at hp
              rw [Res.bind_eq_ok] at hp
              obtain ⟨f, hx, -⟩ := hp
              exact hf g frame f ((C01_wired_accepts_exactly_telegrams _ _ _).1 hg) hn
                ((C12_wireless_accepts_exactly_telegrams _ _).1 hx)
          simp only [Res.ofOption, Res.bind_ok, clear_key hc]
          split <;> rfl
  unfold decryptedHexview
  rw [hw]
  exact hr

/-- C164: so is the annotated view, unless the bytes are a wired and a wireless telegram at once. -/
theorem C164_annotated_partial (cfg : Cfg) (env : FrontEnv) (aes : AesBlock) (data : List UInt8)
    (options options' : RenderOptions) (h : NeedsNoKey cfg aes data) (hf : OneFraming data) :
    renderBytes cfg env aes data .annotated options = renderBytes cfg env aes data .annotated options' := by
  suffices hs : ∀ key, annotatedView cfg env.dataText aes data key = annotatedView cfg env.dataText aes data none by
    unfold renderBytes
    dsimp only
    rw [hs options.decode.key, hs options'.decode.key]
  intro key
  cases key with
  | none => rfl
  | some key => simp only [annotatedView, hexview_unused h hf]

/-- C164: so is the older view of the bytes. -/
theorem C164_hexview_partial (cfg : Cfg) (env : FrontEnv) (older : OlderEnv) (aes : AesBlock) (text : List Char)
    (key key' : Option (List UInt8)) (h : NeedsNoKey cfg aes (cleanAndConvert text))
    (hf : OneFraming (cleanAndConvert text)) :
    serializeMbusData cfg env older aes text "hexview-legacy".toList key =
      serializeMbusData cfg env older aes text "hexview-legacy".toList key' := by
  have hs : ∀ key, parseToHexview cfg env.dataText aes text key = parseToHexview cfg env.dataText aes text none := by
    intro key
    cases key with
    | none => rfl
    | some key => simp only [parseToHexview, hexview_unused h hf]
  simp (decide := true) only [serializeMbusData, ↓reduceIte, hs key, hs key']

/-- A telegram with a volume of 1329 l in the clear. -/
def clearVolume : List UInt8 :=
  wiredLong [0x72, 0x78, 0x56, 0x34, 0x12, 0x93, 0x15, 0x33, 0x07, 0x2A, 0, 0, 0, 0x0C, 0x13, 0x29, 0x13, 0, 0]

theorem needs_no_key {cfg : Cfg} {aes : AesBlock} {data : List UInt8}
    (h : isClear (decodeBytes cfg (fun _ b => b) data ⟨none, true⟩) = true) : NeedsNoKey cfg aes data := by
  unfold isClear at h
  split at h
  · rename_i o ho
    simp only [Bool.and_eq_true, beq_iff_eq] at h
    exact ⟨true, o, by rw [decode_any_aes cfg aes (fun _ b => b)]; exact ho, by rw [h.2]; decide⟩
  · cases h

theorem clear_volume (cfg : Cfg) (aes : AesBlock) : NeedsNoKey cfg aes clearVolume := by
  refine needs_no_key ?_
  obtain ⟨a, b⟩ := cfg
  cases a <;> cases b <;> decide +kernel

theorem clear_one : OneFraming clearVolume :=
  C155_one_framing _ (.inl ⟨by decide +kernel, by decide +kernel, no_block 0x12 0x93 (by decide +kernel) (by decide +kernel)
    (by decide +kernel)⟩)

/-- The hypotheses are met: XML and annotated view of the volume, with a key and without. -/
example (cfg : Cfg) (env : FrontEnv) (aes : AesBlock) :
    renderBytes cfg env aes clearVolume .xml ⟨⟨some (List.range 16 |>.map UInt8.ofNat), true⟩, none⟩ =
        renderBytes cfg env aes clearVolume .xml ⟨⟨none, true⟩, none⟩ ∧
      renderBytes cfg env aes clearVolume .annotated ⟨⟨some (List.range 16 |>.map UInt8.ofNat), true⟩, none⟩ =
        renderBytes cfg env aes clearVolume .annotated ⟨⟨none, true⟩, none⟩ :=
  ⟨C164_xml cfg env aes _ _ _ (clear_volume cfg aes), C164_annotated_partial cfg env aes _ _ _ (clear_volume cfg aes) clear_one⟩

/-- The hypotheses are met: the older outputs of the volume, with a key and without. -/
example (cfg : Cfg) (env : FrontEnv) (older : OlderEnv) (aes : AesBlock) (key : List UInt8) :
    serializeMbusData cfg env older aes (hexString clearVolume) "csv-wide".toList (some key) =
        serializeMbusData cfg env older aes (hexString clearVolume) "csv-wide".toList none ∧
      serializeMbusData cfg env older aes (hexString clearVolume) "hexview-legacy".toList (some key) =
        serializeMbusData cfg env older aes (hexString clearVolume) "hexview-legacy".toList none := by
  have hc : cleanAndConvert (hexString clearVolume) = clearVolume := by decide +kernel
  exact ⟨C164_older cfg env older aes _ _ _ _ (by rw [hc]; exact clear_volume cfg aes) (by simp),
    C164_hexview_partial cfg env older aes _ _ _ (by rw [hc]; exact clear_volume cfg aes) (by rw [hc]; exact clear_one)⟩

theorem double_no_key (cfg : Cfg) (aes : AesBlock) : NeedsNoKey cfg aes doubleTelegram := by
  refine needs_no_key ?_
  obtain ⟨a, b⟩ := cfg
  cases a <;> cases b <;> decide +kernel

/-- C164: it is not so for every telegram: of one that is said to be in the clear the annotated view with a key shows
bytes that are said to be decrypted, those that it would have as a telegram of the other kind. -/
theorem C164_fails (cfg : Cfg) : ∃ (env : FrontEnv) (data key : List UInt8), key.length = 16 ∧
    NeedsNoKey cfg Aes.aes128 data ∧ ∀ enrichment width,
      renderBytes cfg env Aes.aes128 data .annotated ⟨⟨some key, enrichment⟩, width⟩ ≠
        renderBytes cfg env Aes.aes128 data .annotated ⟨⟨none, enrichment⟩, width⟩ := by
  refine ⟨doubleEnv, doubleTelegram, doubleKey, rfl, double_no_key cfg _, fun enrichment width h => ?_⟩
  obtain ⟨v, hv, hd⟩ := double_annotated cfg
  unfold renderBytes at h
  dsimp only at h
  rw [hv] at h
  cases hv' : annotatedView cfg doubleEnv.dataText Aes.aes128 doubleTelegram none with
  | err e => rw [hv'] at h; cases h
  | panic => rw [hv'] at h; cases h
  | ok v' =>
    rw [hv'] at h
    have e : v.text = v'.text := by simpa [Res.mapErr, Res.bind_ok] using h
    have e := C114_determines _ _ e
    subst e
    unfold annotatedView at hv'
    obtain ⟨segments, -, hv'⟩ := Res.bind_eq_ok.mp hv'
    cases hv'
    cases hd

end MBus
