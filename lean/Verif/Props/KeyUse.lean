import Verif.Spec.KeyUse
import Verif.Props.Spelling
import Verif.Props.Hexview
import Verif.Props.Aes
import Verif.Props.AnnotatedJson
import Verif.Props.WrongKey
/-!
# C155: the answers tell nothing of a key but the data it decrypts
-/
namespace MBus
open MBus.Spec

/-- Decryption by two keys is the same for a block of user data. -/
def Agree (aes : AesBlock) (key key' : List UInt8) (block : UserDataBlock) (link : Option ManufacturerId) : Prop :=
  ∀ output : List UInt8, output.length ≤ 512 →
    decryptUserData aes block link key output = decryptUserData aes block link key' output

theorem cbc_same {aes : AesBlock} {key key' : List UInt8} (h : ∀ b, aes key b = aes key' b) (n : Nat)
    (prev data : List UInt8) : cbcDecrypt aes key n prev data = cbcDecrypt aes key' n prev data := by
  induction n generalizing prev data with
  | zero => rfl
  | succ n ih => simp only [cbcDecrypt, h, ih]

theorem cbcInto_blocks {aes : AesBlock} {key key' : List UInt8} (h : ∀ b, aes key b = aes key' b)
    (hk : key.length = 16) (hk' : key'.length = 16) (data iv output : List UInt8) :
    decryptAesCbcInto aes data key iv output = decryptAesCbcInto aes data key' iv output := by
  simp only [decryptAesCbcInto, hk, hk', cbc_same h]

/-- What two keys make of the same bytes in a buffer of 512 bytes. -/
def SameSlice (x y : Res DecryptionError Nat × List UInt8) : Prop :=
  ∀ n n', x.1 = .ok n → y.1 = .ok n' → sliceTo? x.2 n = sliceTo? y.2 n'

theorem take_over (o d c : List UInt8) (h : c.length ≤ d.length) :
    (overwrite (overwrite o d) c).take d.length = c ++ d.drop c.length := by
  simp only [overwrite]
  rw [List.drop_append_of_le_length h, ← List.append_assoc]
  exact List.take_left' (by simp; omega)

theorem cbcInto_same {aes : AesBlock} (haes : BlockSized aes) {key key' : List UInt8} (hk : key.length = 16)
    (hk' : key'.length = 16) (data iv buffer : List UInt8) (hiv : iv.length = 16) (hb : buffer.length = 512)
    (h : SameSlice (decryptAesCbcInto aes data key iv buffer) (decryptAesCbcInto aes data key' iv buffer))
    (output : List UInt8) (ho : output.length ≤ 512) :
    decryptAesCbcInto aes data key iv output = decryptAesCbcInto aes data key' iv output := by
  by_cases hd : data = []
  · simp [decryptAesCbcInto, hk, hk', hd]
  by_cases hl : data.length ≤ output.length
  · have hlb : data.length ≤ buffer.length := by omega
    rw [decryptAesCbcInto_ok aes data key iv output hk hiv hd hl,
      decryptAesCbcInto_ok aes data key' iv output hk' hiv hd hl]
    rw [decryptAesCbcInto_ok aes data key iv buffer hk hiv hd hlb,
      decryptAesCbcInto_ok aes data key' iv buffer hk' hiv hd hlb] at h
    by_cases hs : data.length < 16
    · simp [hs]
    · have hx := h _ _ rfl rfl
      simp only [if_neg hs] at hx ⊢
      have c1 := cbcDecrypt_length aes key haes (data.length / 16) iv (data.take (16 * (data.length / 16))) hiv
        (by simp; omega)
      have c2 := cbcDecrypt_length aes key' haes (data.length / 16) iv (data.take (16 * (data.length / 16))) hiv
        (by simp; omega)
      generalize cbcDecrypt aes key _ _ _ = c at hx c1 ⊢
      generalize cbcDecrypt aes key' _ _ _ = c' at hx c2 ⊢
      have l1 : ∀ x : List UInt8, x.length = 16 * (data.length / 16) →
          (overwrite (overwrite buffer data) x).length = 512 := by
        intro x hx
        rw [overwrite_length _ _ (by rw [overwrite_length _ _ hlb]; omega), overwrite_length _ _ hlb, hb]
      have : c = c' := by
        rw [sliceTo?, sliceTo?, if_pos (by rw [l1 _ c1]; omega), if_pos (by rw [l1 _ c2]; omega)] at hx
        have hx := Option.some.inj hx
        rw [take_over _ _ _ (by omega), take_over _ _ _ (by omega)] at hx
        exact (List.append_inj hx (by omega)).1
      rw [this]
  · have hd' : data.isEmpty = false := by simpa using hd
    simp only [decryptAesCbcInto, hk, hk', hd', hl]
    split <;> simp

/-- A key that is asked for is found or not, whatever its bytes are. -/
theorem one_key (m : UInt16) (i : UInt32) (ctx : KeyContext) :
    (∀ key, ((StaticKeyProvider.new 1).addKey m i key).2.getKey ctx = .ok key) ∨
      ∀ key, ((StaticKeyProvider.new 1).addKey m i key).2.getKey ctx = .err .keyNotFound := by
  cases h : StaticKeyProvider.computeKeyId m i ==
      StaticKeyProvider.computeKeyId ctx.manufacturer.toId ctx.identificationNumber with
  | true =>
    left; intro key
    simp [StaticKeyProvider.getKey, StaticKeyProvider.addKey, StaticKeyProvider.new, h]
  | false =>
    right; intro key
    simp [StaticKeyProvider.getKey, StaticKeyProvider.addKey, StaticKeyProvider.new, h]

theorem into_same {aes : AesBlock} (haes : BlockSized aes) {key key' : List UInt8} (hk : key.length = 16)
    (hk' : key'.length = 16) (m : UInt16) (i : UInt32) (ctx : KeyContext) (data buffer : List UInt8) (hb : buffer.length = 512)
    (h : SameSlice (decryptInto aes ((StaticKeyProvider.new 1).addKey m i key).2.getKey ctx data buffer)
      (decryptInto aes ((StaticKeyProvider.new 1).addKey m i key').2.getKey ctx data buffer))
    (output : List UInt8) (ho : output.length ≤ 512) :
    decryptInto aes ((StaticKeyProvider.new 1).addKey m i key).2.getKey ctx data output =
      decryptInto aes ((StaticKeyProvider.new 1).addKey m i key').2.getKey ctx data output := by
  unfold decryptInto at h ⊢
  rcases one_key m i ctx with hg | hg
  · rw [hg, hg] at h
    rw [hg, hg]
    dsimp only at h ⊢
    cases hm : ctx.securityMode <;> simp only [hm] at h ⊢
    case aesCbc128IvZero => exact cbcInto_same haes hk hk' _ _ buffer (by simp) hb h output ho
    case aesCbc128IvNonZero => exact cbcInto_same haes hk hk' _ _ buffer (deriveIv_length _) hb h output ho
  · rw [hg, hg]

theorem into_blocks {aes : AesBlock} {key key' : List UInt8} (hs : ∀ b, aes key b = aes key' b) (hk : key.length = 16)
    (hk' : key'.length = 16) (m : UInt16) (i : UInt32) (ctx : KeyContext) (data output : List UInt8) :
    decryptInto aes ((StaticKeyProvider.new 1).addKey m i key).2.getKey ctx data output =
      decryptInto aes ((StaticKeyProvider.new 1).addKey m i key').2.getKey ctx data output := by
  unfold decryptInto
  rcases one_key m i ctx with hg | hg
  · rw [hg, hg]
    simp only [cbcInto_blocks hs hk hk']
  · rw [hg, hg]

theorem user_same {aes : AesBlock} (haes : BlockSized aes) {key key' : List UInt8} (hk : key.length = 16)
    (hk' : key'.length = 16) (block : UserDataBlock) (link : Option ManufacturerId)
    (buffer : List UInt8) (hb : buffer.length = 512)
    (h : SameSlice (decryptUserData aes block link key buffer) (decryptUserData aes block link key' buffer)) :
    Agree aes key key' block link := by
  intro output ho
  cases block with
  | long ell header blk =>
    simp only [decryptUserData] at h ⊢
    cases hm : header.manufacturer with
    | ok mf =>
      simp only [hm] at h ⊢
      simp only [UserDataBlock.decryptVariableData, hm, StaticKeyProvider.addKey, StaticKeyProvider.new] at h ⊢
      by_cases he : header.isEncrypted = true
      · simp only [he] at h ⊢
        exact into_same haes hk hk' mf.toId (UInt32.ofNat header.identificationNumber) _ _ buffer hb h output ho
      · simp only [he]
        rfl
    | err e => rfl
    | panic => rfl
  | short ell header blk =>
    simp only [decryptUserData] at h ⊢
    split
    · rfl
    · rename_i hn
      simp only [hn, if_false] at h
      cases link with
      | none => rfl
      | some id =>
        simp only [UserDataBlock.decryptVariableDataWithContext, StaticKeyProvider.addKey, StaticKeyProvider.new] at h ⊢
        by_cases he : header.isEncrypted = true
        · simp only [he] at h ⊢
          exact into_same haes hk hk' id.manufacturerCode.toId (UInt32.ofNat id.identificationNumber) _ _ buffer hb h
            output ho
        · simp only [he]
          rfl
  | _ => rfl

theorem user_blocks {aes : AesBlock} {key key' : List UInt8} (hs : ∀ b, aes key b = aes key' b) (hk : key.length = 16)
    (hk' : key'.length = 16) (block : UserDataBlock) (link : Option ManufacturerId) : Agree aes key key' block link := by
  intro output ho
  cases block with
  | long ell header blk =>
    simp only [decryptUserData]
    cases hm : header.manufacturer with
    | ok mf =>
      simp only [UserDataBlock.decryptVariableData, hm, StaticKeyProvider.addKey, StaticKeyProvider.new]
      by_cases he : header.isEncrypted = true
      · simp only [he]
        exact into_blocks hs hk hk' mf.toId (UInt32.ofNat header.identificationNumber) _ _ output
      · simp only [he]
        rfl
    | err e => rfl
    | panic => rfl
  | short ell header blk =>
    simp only [decryptUserData]
    split
    · rfl
    · cases link with
      | none => rfl
      | some id =>
        simp only [UserDataBlock.decryptVariableDataWithContext, StaticKeyProvider.addKey, StaticKeyProvider.new]
        by_cases he : header.isEncrypted = true
        · simp only [he]
          exact into_blocks hs hk hk' id.manufacturerCode.toId (UInt32.ofNat id.identificationNumber) _ _ output
        · simp only [he]
          rfl
  | _ => rfl

/-- Decryption by two keys is the same for all that a telegram may be taken for. -/
structure AgreeOn (cfg : Cfg) (aes : AesBlock) (data key key' : List UInt8) : Prop where
  wired : ∀ p b, MbusData.tryFromWired cfg data = .ok p → p.userData = some b → Agree aes key key' b none
  wireless : ∀ frame p b, Normalized data frame → MbusData.tryFromWireless frame = .ok p → p.userData = some b →
    Agree aes key key' b (some p.frame.manufacturerId)

theorem prepare_same {aes : AesBlock} {key key' : List UInt8} {user : Option UserDataBlock} {link : Option ManufacturerId}
    (h : ∀ b, user = some b → Agree aes key key' b link) :
    prepareSecurity aes user link (some key) (List.replicate 512 0) =
      prepareSecurity aes user link (some key') (List.replicate 512 0) := by
  cases user with
  | none => rfl
  | some b =>
    unfold prepareSecurity
    have hd := h b rfl (List.replicate 512 0) (by rw [List.length_replicate])
    obtain ⟨e, mode, ell⟩ := securityFields (some b)
    cases e with
    | false => rfl
    | true => simp only [hd]

theorem decode_same {cfg : Cfg} {aes : AesBlock} {data key key' : List UInt8} (h : AgreeOn cfg aes data key key')
    (enrichment : Bool) :
    decodeBytes cfg aes data ⟨some key, enrichment⟩ = decodeBytes cfg aes data ⟨some key', enrichment⟩ := by
  unfold decodeBytes
  by_cases hd : data = []
  · rw [if_pos hd, if_pos hd]
  rw [if_neg hd, if_neg hd]
  cases hw : MbusData.tryFromWired cfg data with
  | panic => rfl
  | ok p => simp only [prepare_same (fun b hb => h.wired p b hw hb)]
  | err e =>
    obtain ⟨frame, hn⟩ := normalized_exists data
    obtain ⟨r, b, hr, hf⟩ := normalized_strip data frame hn
    simp only [hr, hf]
    cases hx : MbusData.tryFromWireless frame with
    | panic => rfl
    | err e => rfl
    | ok p => simp only [prepare_same (fun b hb => h.wireless frame p b hn hx hb)]

theorem withKey_user (aes : AesBlock) (b : UserDataBlock) (link : Option ManufacturerId) (key output : List UInt8) :
    decryptWithKey aes b link key output =
      if userDataIsEncrypted (some b) then
        ((decryptUserData aes b link key output).1.mapErr (fun _ => ()), (decryptUserData aes b link key output).2)
      else (.err (), output) := by
  cases b with
  | long ell header blk =>
    unfold decryptWithKey decryptUserData userDataIsEncrypted
    dsimp only
    by_cases he : header.isEncrypted = true
    · rw [if_neg (by simp [he]), if_pos he]
      cases hm : header.manufacturer with
      | ok mf => simp [StaticKeyProvider.addKey, StaticKeyProvider.new]
      | err e => rfl
      | panic => rfl
    · rw [if_pos (by simp [he]), if_neg he]
  | short ell header blk =>
    unfold decryptWithKey decryptUserData userDataIsEncrypted
    dsimp only
    by_cases he : header.isEncrypted = true
    · rw [if_neg (by simp [he]), if_pos he]
      have hn : header.configurationField.securityMode ≠ .noEncryption := by
        simpa [ShortTplHeader.isEncrypted] using he
      simp only [hn, if_false]
      cases link with
      | none => rfl
      | some id => simp [StaticKeyProvider.addKey, StaticKeyProvider.new]
    · rw [if_pos (by simp [he]), if_neg he]
  | _ => rfl

theorem withKey_same {aes : AesBlock} {key key' : List UInt8} {b : UserDataBlock} {link : Option ManufacturerId}
    (h : Agree aes key key' b link) :
    decryptWithKey aes b link key (List.replicate 256 0) = decryptWithKey aes b link key' (List.replicate 256 0) := by
  rw [withKey_user, withKey_user, h _ (by rw [List.length_replicate]; omega)]

theorem hexview_same {cfg : Cfg} {aes : AesBlock} {data key key' : List UInt8} (h : AgreeOn cfg aes data key key') :
    decryptedHexview cfg aes key data = decryptedHexview cfg aes key' data := by
  have h1 : decryptedWired cfg aes key data = decryptedWired cfg aes key' data := by
    unfold decryptedWired
    cases hw : MbusData.tryFromWired cfg data with
    | panic => rfl
    | err e => rfl
    | ok p =>
      simp only [Res.mapErr, Res.bind_ok]
      cases hu : p.userData with
      | none => rfl
      | some b => simp only [Res.ofOption, Res.bind_ok, withKey_same (h.wired p b hw hu)]
  have h2 : decryptedWireless aes key data = decryptedWireless aes key' data := by
    unfold decryptedWireless
    obtain ⟨frame, hn⟩ := normalized_exists data
    simp only [(withoutFormatA_iff _ _).2 hn, Res.bind_ok]
    cases hw : MbusData.tryFromWireless frame with
    | panic => rfl
    | err e => rfl
    | ok p =>
      simp only [Res.mapErr, Res.bind_ok]
      cases hu : p.userData with
      | none => rfl
      | some b => simp only [Res.ofOption, Res.bind_ok, withKey_same (h.wireless frame p b hn hw hu)]
  unfold decryptedHexview
  rw [h1, h2]

theorem view_same {cfg : Cfg} {dataText : Data → List Char} {aes : AesBlock} {data key key' : List UInt8}
    (h : AgreeOn cfg aes data key key') :
    annotatedView cfg dataText aes data (some key) = annotatedView cfg dataText aes data (some key') := by
  unfold annotatedView
  simp only [hexview_same h]

theorem withDecrypted_same {aes : AesBlock} {key key' : List UInt8} {b : UserDataBlock} {link : Option ManufacturerId}
    (h : Agree aes key key' b link) (render : List UInt8 → Res Xml.XmlError (List Char)) :
    Xml.withDecrypted aes b link key render = Xml.withDecrypted aes b link key' render := by
  unfold Xml.withDecrypted
  rw [h _ (by rw [List.length_replicate])]

theorem xml_same {cfg : Cfg} {env : Xml.XmlEnv} {aes : AesBlock} {data key key' : List UInt8}
    (h : AgreeOn cfg aes data key key') :
    Xml.renderFromBytes cfg env aes data (some key) = Xml.renderFromBytes cfg env aes data (some key') := by
  unfold Xml.renderFromBytes
  cases hw : MbusData.tryFromWired cfg data with
  | panic => rfl
  | ok p =>
    cases hu : p.userData with
    | none => simp only [hu]
    | some b =>
      have ha := h.wired p b hw hu
      cases b with
      | long ell header blk => simp only [hu, Xml.renderWithOptionalDecryption, withDecrypted_same ha]
      | _ => simp only [hu]
  | err e =>
    obtain ⟨frame, hn⟩ := normalized_exists data
    obtain ⟨r, b, hr, hf⟩ := normalized_strip data frame hn
    simp only [hr, hf]
    cases hx : MbusData.tryFromWireless frame with
    | panic => rfl
    | err e => rfl
    | ok p =>
      unfold Xml.renderWireless
      cases hu : p.userData with
      | none => simp only [hu]
      | some b =>
        have ha := h.wireless frame p b hn hx hu
        cases b with
        | long ell header blk => simp only [hu, Xml.renderWithOptionalDecryption, withDecrypted_same ha]
        | short ell header blk => simp only [hu, withDecrypted_same ha]
        | _ => simp only [hu]

theorem older_same {cfg : Cfg} {realText : UInt32 → List Char} {aes : AesBlock} {data key key' : List UInt8}
    (h : AgreeOn cfg aes data key key') :
    parseFrameOutput cfg realText aes data (some key) = parseFrameOutput cfg realText aes data (some key') := by
  unfold parseFrameOutput
  cases hw : MbusData.tryFromWired cfg data with
  | panic => rfl
  | ok p =>
    have : legacyDecryptWired aes (some key) p = legacyDecryptWired aes (some key') p := by
      obtain ⟨f, u, r, a⟩ := p
      unfold legacyDecryptWired
      dsimp only
      cases u with
      | none => rfl
      | some b =>
        have hk := withKey_same (h.wired _ b hw rfl)
        cases userDataIsEncrypted (some b) with
        | false => rfl
        | true => dsimp only; rw [hk]
    simp only [legacyWired, this]
  | err e =>
    obtain ⟨frame, hn⟩ := normalized_exists data
    simp only [(withoutFormatA_iff _ _).2 hn, Res.bind_ok]
    cases hx : MbusData.tryFromWireless frame with
    | panic => rfl
    | err e => rfl
    | ok p =>
      have : legacyDecryptWireless aes (some key) p = legacyDecryptWireless aes (some key') p := by
        obtain ⟨f, u, r, a⟩ := p
        unfold legacyDecryptWireless
        dsimp only
        cases u with
        | none => rfl
        | some b =>
          have hk := withKey_same (h.wireless frame _ b hn hx rfl)
          dsimp only at hk
          cases userDataIsEncrypted (some b) with
          | false => rfl
          | true => dsimp only; rw [hk]
      simp only [legacyWireless, this]

theorem render_same {cfg : Cfg} {env : FrontEnv} {aes : AesBlock} {data key key' : List UInt8}
    (h : AgreeOn cfg aes data key key') (format : OutputFormat) (enrichment : Bool) (width : Option Nat) :
    renderBytes cfg env aes data format ⟨⟨some key, enrichment⟩, width⟩ =
      renderBytes cfg env aes data format ⟨⟨some key', enrichment⟩, width⟩ := by
  cases format <;> simp only [renderBytes, decode_same h, view_same h, xml_same h]

/-- What `decode_bytes` makes of what became of the data. -/
def answered (out : SecurityContext → Option DecodedOutput) : Res SecurityError SecurityContext → Res OutputError DecodedOutput
  | .panic => .panic
  | .err e => .err (.security e)
  | .ok c => match out c with
    | some o => .ok o
    | none => .panic

theorem build_hex {cfg : Cfg} {protocol : List Char} {frame : FrameOutput} {original normalized : List UInt8} {stripped : Bool}
    {payload : Option (List UInt8)} {user : Option UserDataBlock} {records : Option DataRecords} {ae : Option AppError}
    {link : Option ManufacturerId} {c : SecurityContext} {enrichment : Bool} {o : DecodedOutput}
    (h : buildOutput cfg protocol frame original normalized stripped payload user records ae link c enrichment = some o) :
    o.security.decryptedPayloadHex = c.decryptedPayload.map hexString := by
  unfold buildOutput at h
  split at h
  · cases h
  · cases h
    rfl

theorem map_hex {a b : List UInt8} (h : (some a).map hexString = (some b).map hexString) : a = b := by
  have := congrArg (Option.map cleanAndConvert) h
  simpa [C44_round_trip] using this

theorem user_ok {aes : AesBlock} {b : UserDataBlock} {link : Option ManufacturerId} {key buffer : List UInt8} {n : Nat}
    (h : (decryptUserData aes b link key buffer).1 = .ok n) : ∃ m l, securityFields (some b) = (true, some m, l) := by
  cases b with
  | long ell header blk =>
    by_cases he : header.isEncrypted = true
    · refine ⟨header.short.configurationField.securityMode, false, ?_⟩
      simpa [securityFields, LongTplHeader.isEncrypted] using he
    · exfalso
      unfold decryptUserData at h
      dsimp only at h
      cases hm : header.manufacturer with
      | ok mf => simp [hm, UserDataBlock.decryptVariableData, he, StaticKeyProvider.addKey, StaticKeyProvider.new] at h
      | err e => simp [hm] at h
      | panic => simp [hm] at h
  | short ell header blk =>
    by_cases hn : header.configurationField.securityMode = .noEncryption
    · simp [decryptUserData, hn] at h
    · exact ⟨header.configurationField.securityMode, ell.any (fun e => e.encryption.isSome), by simp [securityFields, hn]⟩
  | _ => simp [decryptUserData] at h

theorem agree_of {aes : AesBlock} (haes : BlockSized aes) {key key' : List UInt8} (hk : key.length = 16)
    (hk' : key'.length = 16) {b : UserDataBlock} {link : Option ManufacturerId}
    {out : SecurityContext → Option DecodedOutput}
    (hout : ∀ c o, out c = some o → o.security.decryptedPayloadHex = c.decryptedPayload.map hexString)
    (h : SameData (answered out (prepareSecurity aes (some b) link (some key) (List.replicate 512 0)))
      (answered out (prepareSecurity aes (some b) link (some key') (List.replicate 512 0)))) : Agree aes key key' b link := by
  refine user_same haes hk hk' b link (List.replicate 512 0) (by rw [List.length_replicate]) ?_
  generalize (List.replicate 512 (0 : UInt8)) = buffer at h ⊢
  intro n n' e e'
  obtain ⟨m, l, hs⟩ := user_ok e
  unfold prepareSecurity at h
  rw [hs] at h
  dsimp only at h
  rw [if_neg (by simp)] at h
  rw [if_neg (by simp)] at h
  generalize decryptUserData aes b link key buffer = r at e h ⊢
  generalize decryptUserData aes b link key' buffer = r' at e' h ⊢
  obtain ⟨x, y⟩ := r
  obtain ⟨x', y'⟩ := r'
  dsimp only at e e' ⊢
  subst e e'
  dsimp only at h
  cases ha : sliceTo? y n with
  | none =>
    cases hb : sliceTo? y' n' with
    | none => rfl
    | some d' =>
      rw [ha, hb] at h
      simp only [answered] at h
      split at h
      · cases h
      · cases h
  | some d =>
    cases hb : sliceTo? y' n' with
    | none =>
      rw [ha, hb] at h
      simp only [answered] at h
      split at h
      · cases h
      · cases h
    | some d' =>
      rw [ha, hb] at h
      simp only [answered] at h
      split at h
      · rename_i o ho
        split at h
        · rename_i o' ho'
          cases h with
          | shown _ _ h =>
            rw [hout _ _ ho, hout _ _ ho'] at h
            rw [map_hex h]
        · cases h
      · cases h

theorem wired_answered {cfg : Cfg} {aes : AesBlock} {data : List UInt8} {p : MbusData WiredFrame} (hd : data ≠ [])
    (hp : MbusData.tryFromWired cfg data = .ok p) (options : DecodeOptions) :
    decodeBytes cfg aes data options =
      answered (fun c => buildOutput cfg "wired".toList (wiredFrameOutput p.frame).1 data data false
        (wiredFrameOutput p.frame).2 p.userData (recordsToShow p c) p.applicationError none c options.includeEnrichment)
        (prepareSecurity aes p.userData none options.key (List.replicate 512 0)) := by
  unfold decodeBytes
  rw [if_neg hd, hp]
  dsimp only
  cases prepareSecurity aes p.userData none options.key (List.replicate 512 0) <;> rfl

theorem wireless_answered {cfg : Cfg} {aes : AesBlock} {data frame : List UInt8} {p : MbusData WirelessFrame} {e : FrameError}
    (hd : data ≠ []) (hw : MbusData.tryFromWired cfg data = .err e) (hn : Normalized data frame)
    (hp : MbusData.tryFromWireless frame = .ok p) (options : DecodeOptions) :
    decodeBytes cfg aes data options =
      answered (fun c => buildOutput cfg "wireless".toList (wirelessFrameOutput p.frame) data frame
        (frame.length != data.length) (some p.frame.data) p.userData (recordsToShow p c) p.applicationError
        (some p.frame.manufacturerId) c options.includeEnrichment)
        (prepareSecurity aes p.userData (some p.frame.manufacturerId) options.key (List.replicate 512 0)) := by
  obtain ⟨r, b, hr, hf⟩ := normalized_strip data frame hn
  unfold decodeBytes
  rw [if_neg hd, hw]
  dsimp only
  rw [hr]
  dsimp only
  rw [hf, hp]
  dsimp only
  cases prepareSecurity aes p.userData (some p.frame.manufacturerId) options.key (List.replicate 512 0) <;> rfl

theorem agree_on {cfg : Cfg} {aes : AesBlock} (haes : BlockSized aes) {data key key' : List UInt8} {enrichment : Bool}
    (hd : data ≠ []) (hk : key.length = 16) (hk' : key'.length = 16) (hf : OneFraming data)
    (h : SameData (decodeBytes cfg aes data ⟨some key, enrichment⟩) (decodeBytes cfg aes data ⟨some key', enrichment⟩)) :
    AgreeOn cfg aes data key key' := by
  constructor
  · intro p b hp hu
    rw [wired_answered hd hp, wired_answered hd hp, hu] at h
    exact agree_of haes hk hk' (fun c o ho => build_hex ho) h
  · intro frame p b hn hp hu
    cases hw : MbusData.tryFromWired cfg data with
    | panic =>
      unfold decodeBytes at h
      rw [if_neg hd, if_neg hd, hw] at h
      cases h
    | ok q =>
      exfalso
      unfold MbusData.tryFromWired at hw
      rw [Res.bind_eq_ok] at hw
      obtain ⟨g, hg, -⟩ := hw
      unfold MbusData.tryFromWireless at hp
      rw [Res.bind_eq_ok] at hp
      obtain ⟨f, hx, -⟩ := hp
      exact hf g frame f ((C01_wired_accepts_exactly_telegrams _ _ _).1 hg) hn
        ((C12_wireless_accepts_exactly_telegrams _ _).1 hx)
    | err e =>
      rw [wireless_answered hd hw hn hp, wireless_answered hd hw hn hp, hu] at h
      exact agree_of haes hk hk' (fun c o ho => build_hex ho) h

theorem answers_same {cfg : Cfg} {env : CliEnv} {aes : AesBlock} {text : List Char} {data key key' : List UInt8}
    {keyText keyText' : List Char} (hx : Spelled text data) (hk : KeyText keyText key) (hk' : KeyText keyText' key')
    (h : AgreeOn cfg aes data key key') : SameAnswers cfg env aes text text (some keyText) (some keyText') := by
  have hd := (decode_iff text data).2 hx
  have hg : KeyGiven (some keyText) (some key) := .key _ _ hk
  have hg' : KeyGiven (some keyText') (some key') := .key _ _ hk'
  obtain ⟨j, p, -, -⟩ := key_given hg
  obtain ⟨j', p', -, -⟩ := key_given hg'
  have hr : ∀ fmt enrichment width, renderHex cfg env.front aes text fmt ⟨⟨some key, enrichment⟩, width⟩ =
      renderHex cfg env.front aes text fmt ⟨⟨some key', enrichment⟩, width⟩ := by
    intro fmt enrichment width
    simp only [renderHex, hd, Res.mapErr, Res.bind_ok, render_same h]
  refine ⟨?_, ?_, ?_, ?_, ?_⟩
  · intro file dat file' dat' format width plain detected hi hi'
    rw [cliMain_input hi, cliMain_input hi']
    unfold cliRendered
    rw [cliRun_key hg, cliRun_key hg']
    simp only [hr]
  · intro format width enrichment
    simp only [jsRender, j, j', Res.bind_ok, hr]
  · intro enrichment
    simp only [jsDecode, j, j', decodeHex, hd, decode_same h, Res.bind_ok]
    cases decodeBytes cfg aes data ⟨some key', enrichment.getD true⟩ with
    | ok o => exact ⟨rfl, rfl⟩
    | err e => exact rfl
    | panic => exact trivial
  · intro format width enrichment
    simp only [pyRender, pyBytes, p, p', hd, Res.bind_ok, Res.mapErr, render_same h]
  · intro enrichment
    simp only [pyParse, pyBytes, p, p', hd, Res.bind_ok, Res.mapErr, decode_same h]

theorem older_answers {cfg : Cfg} {env : FrontEnv} {older : OlderEnv} {aes : AesBlock} {text : List Char}
    {data key key' : List UInt8} (hx : Spelled text data) (hc : cleanAndConvert text = data)
    (h : AgreeOn cfg aes data key key') : SameOlder cfg env older aes text (some key) (some key') := by
  have hd := (decode_iff text data).2 hx
  intro format
  simp only [serializeMbusData, parseToJson, parseToYaml, wideCsv, parseToCsv, parseToHexview, serializeStructured, hc,
    older_same h, hexview_same h, renderHex, hd, Res.mapErr, Res.bind_ok, render_same h]

/-- C155: two keys that decrypt every block alike get the same answers from all front ends in all formats, also the older
ones, whatever the telegram is. -/
theorem C155_blocks (cfg : Cfg) (env : CliEnv) (older : OlderEnv) (aes : AesBlock) (text : List Char)
    (data key key' : List UInt8) (keyText keyText' : List Char) (hx : Spelled text data) (hk : KeyText keyText key)
    (hk' : KeyText keyText' key') (h : ∀ block, aes key block = aes key' block) :
    SameAnswers cfg env aes text text (some keyText) (some keyText') ∧
      (cleanAndConvert text = data → SameOlder cfg env.front older aes text (some key) (some key')) := by
  have ha : AgreeOn cfg aes data key key' :=
    ⟨fun p b _ _ => user_blocks h hk.1 hk'.1 b _, fun frame p b _ _ _ => user_blocks h hk.1 hk'.1 b _⟩
  exact ⟨answers_same hx hk hk' ha, fun hc => older_answers hx hc ha⟩

/-- C155 (partial: except for telegrams that are wired and wireless ones at once, see `C155_fails`): two keys with which the
same decrypted data are shown, or none, or nothing, get the same answers from all front ends in all formats, also the older
ones. -/
theorem C155_shown_partial (cfg : Cfg) (env : CliEnv) (older : OlderEnv) (aes : AesBlock) (haes : BlockSized aes)
    (text : List Char) (data key key' : List UInt8) (keyText keyText' : List Char) (enrichment : Bool)
    (hx : Spelled text data) (hk : KeyText keyText key) (hk' : KeyText keyText' key') (hf : OneFraming data)
    (h : SameData (decodeBytes cfg aes data ⟨some key, enrichment⟩) (decodeBytes cfg aes data ⟨some key', enrichment⟩)) :
    SameAnswers cfg env aes text text (some keyText) (some keyText') ∧
      (cleanAndConvert text = data → SameOlder cfg env.front older aes text (some key) (some key')) := by
  have ha := agree_on haes hx.1 hk.1 hk'.1 hf h
  exact ⟨answers_same hx hk hk' ha, fun hc => older_answers hx hc ha⟩

/-- C155: which telegrams the condition about framing leaves out. -/
theorem C155_one_framing (data : List UInt8)
    (h : (data.head? ≠ some 0xE5 ∧ data.length ≠ 105 ∧ ¬ BlockAt data 10) ∨
      (data.head? ≠ some 0xE5 ∧ data.head? ≠ some 0x10 ∧ data.head? ≠ some 0x68)) : OneFraming data := by
  intro g frame f hg hn hf
  rcases h with ⟨h1, h2, h3⟩ | ⟨h1, h2, h3⟩
  · cases hn with
    | stripped _ _ _ hb _ => exact h3 hb
    | asIs _ =>
      rcases wired_wireless hg hf with h | h
      · exact h1 h
      · exact h2 h.1
  · cases hg <;> simp_all [longFrameBytes, shortFrameBytes]

theorem into_first {aes : AesBlock} {key key' : List UInt8} (hk : key.length = 16) (hk' : key'.length = 16) (m : UInt16)
    (i : UInt32) (ctx : KeyContext) (data output : List UInt8) :
    (decryptInto aes ((StaticKeyProvider.new 1).addKey m i key).2.getKey ctx data output).1 =
      (decryptInto aes ((StaticKeyProvider.new 1).addKey m i key').2.getKey ctx data output).1 := by
  rw [C39_decrypt_result, C39_decrypt_result]
  rcases one_key m i ctx with hg | hg <;> simp only [hg, hk, hk']

theorem user_first {aes : AesBlock} {key key' : List UInt8} (hk : key.length = 16) (hk' : key'.length = 16)
    (block : UserDataBlock) (link : Option ManufacturerId) (output : List UInt8) :
    (decryptUserData aes block link key output).1 = (decryptUserData aes block link key' output).1 := by
  cases block with
  | long ell header blk =>
    simp only [decryptUserData]
    cases hm : header.manufacturer with
    | ok mf =>
      simp only [UserDataBlock.decryptVariableData, hm, StaticKeyProvider.addKey, StaticKeyProvider.new]
      by_cases he : header.isEncrypted = true
      · simp only [he]
        exact into_first hk hk' mf.toId (UInt32.ofNat header.identificationNumber) _ _ output
      · simp only [he]
        rfl
    | err e => rfl
    | panic => rfl
  | short ell header blk =>
    simp only [decryptUserData]
    split
    · rfl
    · cases link with
      | none => rfl
      | some id =>
        simp only [UserDataBlock.decryptVariableDataWithContext, StaticKeyProvider.addKey, StaticKeyProvider.new]
        by_cases he : header.isEncrypted = true
        · simp only [he]
          exact into_first hk hk' id.manufacturerCode.toId (UInt32.ofNat id.identificationNumber) _ _ output
        · simp only [he]
          rfl
  | _ => rfl

theorem into_slice {aes : AesBlock} (haes : BlockSized aes) {g : KeyContext → Res DecryptionError (List UInt8)}
    {ctx : KeyContext} {data output : List UInt8} {n : Nat} (h : (decryptInto aes g ctx data output).1 = .ok n) :
    ∃ d, sliceTo? (decryptInto aes g ctx data output).2 n = some d := by
  have hw := C39_decrypt_writes aes haes g ctx data output n (decryptInto aes g ctx data output).2 (Prod.ext h rfl)
  have hl : data.length ≤ output.length := by
    rw [C39_decrypt_result] at h
    by_contra hc
    simp only [hc, if_false] at h
    split at h
    · cases h
    · cases h
    · repeat' split at h
      all_goals cases h
  exact ⟨_, by rw [sliceTo?, if_pos (by omega)]⟩

theorem user_slice {aes : AesBlock} (haes : BlockSized aes) {key output : List UInt8} {block : UserDataBlock}
    {link : Option ManufacturerId} {n : Nat} (h : (decryptUserData aes block link key output).1 = .ok n) :
    ∃ d, sliceTo? (decryptUserData aes block link key output).2 n = some d := by
  cases block with
  | long ell header blk =>
    simp only [decryptUserData] at h ⊢
    cases hm : header.manufacturer with
    | ok mf =>
      simp only [UserDataBlock.decryptVariableData, hm, StaticKeyProvider.addKey, StaticKeyProvider.new] at h ⊢
      by_cases he : header.isEncrypted = true
      · simp only [he] at h ⊢
        exact into_slice haes h
      · simp [he] at h
    | err e => simp [hm] at h
    | panic => simp [hm] at h
  | short ell header blk =>
    simp only [decryptUserData] at h ⊢
    split at h
    · cases h
    · rename_i hn
      rw [if_neg hn]
      cases link with
      | none => cases h
      | some id =>
        simp only [UserDataBlock.decryptVariableDataWithContext, StaticKeyProvider.addKey, StaticKeyProvider.new] at h ⊢
        by_cases he : header.isEncrypted = true
        · simp only [he] at h ⊢
          exact into_slice haes h
        · simp [he] at h
  | _ => cases h

theorem prepare_nothing {aes : AesBlock} (haes : BlockSized aes) {key key' : List UInt8} (hk : key.length = 16)
    (hk' : key'.length = 16) {user : Option UserDataBlock} {link : Option ManufacturerId}
    {out : SecurityContext → Option DecodedOutput}
    (hout : ∀ c o, out c = some o → o.security.decryptedPayloadHex = c.decryptedPayload.map hexString)
    (h : NothingShown (answered out (prepareSecurity aes user link (some key) (List.replicate 512 0)))) :
    prepareSecurity aes user link (some key') (List.replicate 512 0) =
      prepareSecurity aes user link (some key) (List.replicate 512 0) := by
  generalize (List.replicate 512 (0 : UInt8)) = buffer at h ⊢
  cases user with
  | none => rfl
  | some b =>
    have hf := user_first (aes := aes) hk hk' b link buffer
    have hs := fun n => user_slice (aes := aes) haes (key := key) (output := buffer) (block := b) (link := link) (n := n)
    unfold prepareSecurity at h ⊢
    generalize securityFields (some b) = fields at h ⊢
    obtain ⟨enc, mode, ell⟩ := fields
    cases enc with
    | false => rfl
    | true =>
      dsimp only at h ⊢
      split
      · rfl
      · rename_i hn
        rw [if_neg hn] at h
        generalize decryptUserData aes b link key buffer = r at h hf hs ⊢
        generalize decryptUserData aes b link key' buffer = r' at hf ⊢
        obtain ⟨x, y⟩ := r
        obtain ⟨x', y'⟩ := r'
        dsimp only at hf hs
        subst hf
        cases x with
        | err e => rfl
        | panic => rfl
        | ok n =>
          exfalso
          obtain ⟨d, hd⟩ := hs n rfl
          dsimp only at h
          rw [hd] at h
          simp only [answered] at h
          split at h
          · rename_i o ho
            rcases h with ⟨o', e, ho'⟩ | ⟨e, h⟩
            · cases e
              rw [hout _ _ ho] at ho'
              cases ho'
            · cases h
          · rcases h with ⟨o', e, ho'⟩ | ⟨e, h⟩ <;> contradiction

/-- C155: if with a key no decrypted data are shown, because there are none or because the telegram is refused, the same
happens with every other key of 16 bytes. -/
theorem C155_nothing (cfg : Cfg) (aes : AesBlock) (haes : BlockSized aes) (data key key' : List UInt8) (enrichment : Bool)
    (hk : key.length = 16) (hk' : key'.length = 16)
    (h : NothingShown (decodeBytes cfg aes data ⟨some key, enrichment⟩)) :
    decodeBytes cfg aes data ⟨some key', enrichment⟩ = decodeBytes cfg aes data ⟨some key, enrichment⟩ := by
  by_cases hd : data = []
  · subst hd; rfl
  cases hw : MbusData.tryFromWired cfg data with
  | panic =>
    unfold decodeBytes
    rw [if_neg hd, if_neg hd, hw]
  | ok p =>
    rw [wired_answered hd hw] at h
    rw [wired_answered hd hw, wired_answered hd hw]
    exact congrArg _ (prepare_nothing haes hk hk' (fun c o ho => build_hex ho) h)
  | err e =>
    obtain ⟨frame, hn⟩ := normalized_exists data
    cases hp : MbusData.tryFromWireless frame with
    | ok p =>
      rw [wireless_answered hd hw hn hp] at h
      rw [wireless_answered hd hw hn hp, wireless_answered hd hw hn hp]
      exact congrArg _ (prepare_nothing haes hk hk' (fun c o ho => build_hex ho) h)
    | _ =>
      obtain ⟨r, b, hr, hf⟩ := normalized_strip data frame hn
      unfold decodeBytes
      rw [if_neg hd, if_neg hd, hw]
      dsimp only
      rw [hr]
      dsimp only
      rw [hf, hp]

/-- C155 (partial: except for telegrams that are wired and wireless ones at once): a key for a telegram that is not
encrypted, or that is refused, might as well be another one, in all front ends and formats, also the older ones. -/
theorem C155_unused_partial (cfg : Cfg) (env : CliEnv) (older : OlderEnv) (aes : AesBlock) (haes : BlockSized aes)
    (text : List Char) (data key key' : List UInt8) (keyText keyText' : List Char) (enrichment : Bool)
    (hx : Spelled text data) (hk : KeyText keyText key) (hk' : KeyText keyText' key') (hf : OneFraming data)
    (h : NothingShown (decodeBytes cfg aes data ⟨some key, enrichment⟩)) :
    SameAnswers cfg env aes text text (some keyText) (some keyText') ∧
      (cleanAndConvert text = data → SameOlder cfg env.front older aes text (some key) (some key')) := by
  refine C155_shown_partial cfg env older aes haes text data key key' keyText keyText' enrichment hx hk hk' hf ?_
  rw [C155_nothing cfg aes haes data key key' enrichment hk.1 hk'.1 h]
  rcases h with ⟨o, ho, -⟩ | ⟨e, he⟩
  · rw [ho]; exact .shown _ _ rfl
  · rw [he]; exact .refused _ _

/-- A telegram in the clear of 105 bytes with a volume and data of the manufacturer. -/
def doubleBody : List UInt8 := [0x08, 0x01, 0x72, 0x78, 0x56, 0x34, 0x72, 0x93, 0x15, 0x33, 0x07, 0x2A, 0x04, 0x00, 0x00,
  0x04, 0x13, 0x21, 0x05, 0x00, 0x00, 0x0F] ++ (List.range 77).map (fun i => UInt8.ofNat (i * 37 + 11))

/-- The same as the wired telegram that it is; the bytes are a wireless telegram as well. -/
def doubleTelegram : List UInt8 := [0x68, 0x63, 0x63, 0x68] ++ doubleBody ++ [checksum doubleBody, 0x16]

/-- A key with which the bytes, taken as a wireless telegram, decrypt to something. -/
def doubleKey : List UInt8 := List.replicate 14 0x11 ++ [0x01, 0x38]

/-- An answer that says that the telegram is in the clear. -/
def isClear : Res OutputError DecodedOutput → Bool
  | .ok o => o.security.decryptedPayloadHex == none && o.security.payloadProtection == "cleartext".toList
  | _ => false

theorem double_clear (cfg : Cfg) (enrichment : Bool) :
    isClear (decodeBytes cfg Aes.aes128 doubleTelegram ⟨some doubleKey, enrichment⟩) = true := by
  obtain ⟨a, b⟩ := cfg
  cases a <;> cases b <;> cases enrichment <;> decide +kernel

/-- What is shown of it as decrypted. -/
def doubleShown : List UInt8 := [104, 99, 99, 104, 8, 1, 114, 120, 86, 52, 114, 147, 21, 51, 7, 42, 4, 0, 0, 4, 19, 33, 5, 15, 233, 15, 67, 13, 248,
   92, 242, 225, 54, 227, 105, 9, 237, 198, 171, 245, 174, 56, 149, 111, 91, 28, 161, 129, 42, 229, 95, 71, 137, 116,
   235, 11, 117, 38, 234, 176, 237, 88, 0, 92, 205, 177, 89, 54, 134, 1, 71, 51, 144, 207, 89, 206, 99, 73, 131, 234,
   70, 60, 182, 116, 175, 91, 202, 125, 185, 152, 253, 174, 120, 222, 251, 78, 147, 69, 103, 196, 225, 119, 210, 128,
   22]

set_option maxRecDepth 20000 in
theorem double_shown (cfg : Cfg) : decryptedHexview cfg Aes.aes128 doubleKey doubleTelegram = .ok doubleShown := by
  obtain ⟨a, b⟩ := cfg
  cases a <;> cases b <;> decide +kernel

/-- Whether there is an answer. -/
def succeeds {ε α : Type} : Res ε α → Bool | .ok _ => true | _ => false

/-- Texts of values for `C155_fails`. -/
def doubleEnv : FrontEnv := ⟨⟨fun _ => [], fun _ => some 1, List.length, fun _ => []⟩, ⟨fun _ => [], fun _ => []⟩, fun _ => none⟩

set_option maxRecDepth 20000 in
theorem double_view (cfg : Cfg) :
    succeeds (annotateFrame cfg doubleEnv.dataText doubleTelegram) = true ∧
      succeeds (decryptedView cfg doubleEnv.dataText doubleTelegram [] doubleShown) = true := by
  obtain ⟨a, b⟩ := cfg
  cases a <;> cases b <;> decide +kernel

set_option maxRecDepth 20000 in
theorem double_other (cfg : Cfg) :
    decryptedHexview cfg Aes.aes128 (List.replicate 16 0) doubleTelegram ≠ .ok doubleShown := by
  obtain ⟨a, b⟩ := cfg
  cases a <;> cases b <;> decide +kernel

theorem annotated_bytes {cfg : Cfg} {dataText : Data → List Char} {aes : AesBlock} {data key : List UInt8}
    {v : AnnotatedView} (h : annotatedView cfg dataText aes data (some key) = .ok v) (hd : v.decrypted = true) :
    decryptedHexview cfg aes key data = .ok v.bytes := by
  unfold annotatedView at h
  obtain ⟨segments, -, h⟩ := Res.bind_eq_ok.mp h
  dsimp only at h
  cases hx : decryptedHexview cfg aes key data with
  | err e => rw [hx] at h; cases h; cases hd
  | panic => rw [hx] at h; cases h
  | ok display =>
    rw [hx] at h
    dsimp only at h
    unfold decryptedView at h
    obtain ⟨s, -, h⟩ := Res.bind_eq_ok.mp h
    obtain ⟨s', -, h⟩ := Res.bind_eq_ok.mp h
    cases h
    rfl

theorem view_succeeds {cfg : Cfg} {dataText : Data → List Char} {aes : AesBlock} {data key shown : List UInt8}
    (hs : decryptedHexview cfg aes key data = .ok shown) (h1 : succeeds (annotateFrame cfg dataText data) = true)
    (h2 : succeeds (decryptedView cfg dataText data [] shown) = true) :
    ∃ v, annotatedView cfg dataText aes data (some key) = .ok v ∧ v.decrypted = true := by
  unfold annotatedView
  cases hf : annotateFrame cfg dataText data with
  | err e => rw [hf] at h1; cases h1
  | panic => rw [hf] at h1; cases h1
  | ok segments =>
    rw [Res.bind_ok]
    dsimp only
    rw [hs]
    dsimp only
    unfold decryptedView at h2 ⊢
    cases ha : annotateFrame cfg dataText shown with
    | err e => rw [ha] at h2; cases h2
    | panic => rw [ha] at h2; cases h2
    | ok t =>
      rw [ha, Res.bind_ok] at h2
      rw [Res.bind_ok]
      cases hr : (replaceEncrypted cfg dataText shown t).mapErr (fun _ => FrameError.invalidStartByte) with
      | err e => rw [hr] at h2; cases h2
      | panic => rw [hr] at h2; cases h2
      | ok t' => exact ⟨_, rfl, rfl⟩

theorem double_annotated (cfg : Cfg) :
    ∃ v, annotatedView cfg doubleEnv.dataText Aes.aes128 doubleTelegram (some doubleKey) = .ok v ∧ v.decrypted = true :=
  view_succeeds (double_shown cfg) (double_view cfg).1 (double_view cfg).2

/-- C155: it is not so for every telegram: there is a telegram in the clear of which the annotated view shows bytes that
are said to be decrypted, and that depend on the key. -/
theorem C155_fails (cfg : Cfg) : ∃ (env : FrontEnv) (data key key' : List UInt8), key.length = 16 ∧ key'.length = 16 ∧
    (∀ enrichment, ∃ o, decodeBytes cfg Aes.aes128 data ⟨some key, enrichment⟩ = .ok o ∧
      decodeBytes cfg Aes.aes128 data ⟨some key', enrichment⟩ = .ok o ∧
      o.security.decryptedPayloadHex = none ∧ o.security.payloadProtection = "cleartext".toList) ∧
    ∀ options options' : RenderOptions, options.decode.key = some key → options'.decode.key = some key' →
      renderBytes cfg env Aes.aes128 data .annotated options ≠ renderBytes cfg env Aes.aes128 data .annotated options' := by
  refine ⟨doubleEnv, doubleTelegram, doubleKey, List.replicate 16 0, rfl, rfl, fun enrichment => ?_,
    fun options options' ho ho' h => ?_⟩
  · have hc := double_clear cfg enrichment
    unfold isClear at hc
    split at hc
    · rename_i o he
      simp only [Bool.and_eq_true, beq_iff_eq] at hc
      refine ⟨o, he, ?_, hc.1, hc.2⟩
      rw [← he]
      exact C155_nothing cfg Aes.aes128 aes128_blocks _ _ _ enrichment rfl rfl (.inl ⟨o, he, hc.1⟩)
    · cases hc
  · obtain ⟨v, hv, hd⟩ := double_annotated cfg
    unfold renderBytes at h
    dsimp only at h
    rw [ho, ho', hv] at h
    cases hv' : annotatedView cfg doubleEnv.dataText Aes.aes128 doubleTelegram (some (List.replicate 16 0)) with
    | err e => rw [hv'] at h; cases h
    | panic => rw [hv'] at h; cases h
    | ok v' =>
      rw [hv'] at h
      have e : v.text = v'.text := by
        simpa [Res.mapErr, Res.bind_ok] using h
      have e := C114_determines _ _ e
      subst e
      have h1 := annotated_bytes hv hd
      rw [double_shown] at h1
      have h2 := annotated_bytes hv' hd
      rw [← h1] at h2
      exact double_other cfg h2

/-- Decryption that ignores the lowest bits of the bytes of a key, as old ciphers do. -/
def parityAes : AesBlock := fun key block => List.zipWith (· ^^^ ·) (key.map (· &&& 0xFE)) block

/-- Two keys that differ in such bits only. -/
example (cfg : Cfg) (env : CliEnv) (older : OlderEnv) :
    SameAnswers cfg env parityAes (hexString markedSealed) (hexString markedSealed)
        (some "00020406080A0C0E10121416181A1C1E".toList) (some "01030507090B0D0F11131517191B1D1F".toList) ∧
      SameOlder cfg env.front older parityAes (hexString markedSealed)
        (some [0, 2, 4, 6, 8, 10, 12, 14, 16, 18, 20, 22, 24, 26, 28, 30])
        (some [1, 3, 5, 7, 9, 11, 13, 15, 17, 19, 21, 23, 25, 27, 29, 31]) := by
  have h := C155_blocks cfg env older parityAes (hexString markedSealed) markedSealed _ _ _ _
    ((decode_iff _ _).1 (by decide +kernel))
    (((C115_cli_key "00020406080A0C0E10121416181A1C1E".toList).1 [0, 2, 4, 6, 8, 10, 12, 14, 16, 18, 20, 22, 24, 26, 28, 30]).1
      (by decide +kernel))
    (((C115_cli_key "01030507090B0D0F11131517191B1D1F".toList).1 [1, 3, 5, 7, 9, 11, 13, 15, 17, 19, 21, 23, 25, 27, 29, 31]).1
      (by decide +kernel))
    (fun block => congrArg (List.zipWith _ · block) (by decide +kernel))
  exact ⟨h.1, h.2 (by decide +kernel)⟩

theorem no_block {data : List UInt8} (a b : UInt8) (ha : data[10]? = some a) (hb : data[11]? = some b)
    (h : crc16 (data.take 10) ≠ u16be a b) : ¬ BlockAt data 10 := by
  intro hB
  obtain ⟨x, y, hx, hy, hc⟩ := (blockAt_iff _ _).1 hB
  rw [ha] at hx; rw [hb] at hy
  cases hx; cases hy
  exact h hc

theorem marked_framing : OneFraming markedSealed :=
  C155_one_framing _ (.inl ⟨by decide +kernel, by decide +kernel, no_block 0x12 0x93 (by decide +kernel) (by decide +kernel)
    (by decide +kernel)⟩)

theorem clear_framing : OneFraming annotatedWired :=
  C155_one_framing _ (.inl ⟨by decide +kernel, by decide +kernel, no_block 0x12 0x24 (by decide +kernel) (by decide +kernel)
    (by decide +kernel)⟩)

/-- A telegram in the clear, with two keys. -/
example (cfg : Cfg) (env : CliEnv) (older : OlderEnv) (enrichment : Bool) :
    SameAnswers cfg env Aes.aes128 (hexString annotatedWired) (hexString annotatedWired)
        (some "0102030405060708090A0B0C0D0E0F11".toList) (some "0102030405060708D11F022700000F11".toList) ∧
      SameOlder cfg env.front older Aes.aes128 (hexString annotatedWired) (some exampleKey) (some wrongKey) := by
  have h := C155_unused_partial cfg env older Aes.aes128 aes128_blocks (hexString annotatedWired) annotatedWired exampleKey wrongKey
    _ _ enrichment ((decode_iff _ _).1 (by decide +kernel))
    (((C115_cli_key "0102030405060708090A0B0C0D0E0F11".toList).1 _).1 (by decide +kernel))
    (((C115_cli_key "0102030405060708D11F022700000F11".toList).1 _).1 (by decide +kernel))
    clear_framing
    (by
      have hc : isClear (decodeBytes cfg Aes.aes128 annotatedWired ⟨some exampleKey, enrichment⟩) = true := by
        obtain ⟨a, b⟩ := cfg
        cases a <;> cases b <;> cases enrichment <;> decide +kernel
      unfold isClear at hc
      split at hc
      · rename_i o he
        simp only [Bool.and_eq_true, beq_iff_eq] at hc
        exact .inl ⟨o, he, hc.1⟩
      · cases hc)
  exact ⟨h.1, h.2 (by decide +kernel)⟩

/-- Decryption with the first byte of a key only. -/
def weakAes : AesBlock := fun key block => block.map (· ^^^ key.headD 0)

/-- Whether two answers show the same decrypted data. -/
def sameShown : Res OutputError DecodedOutput → Res OutputError DecodedOutput → Bool
  | .ok o, .ok o' => o.security.decryptedPayloadHex.isSome && o.security.decryptedPayloadHex == o'.security.decryptedPayloadHex
  | _, _ => false

/-- Two keys with which the same decrypted data are shown. -/
example (cfg : Cfg) (env : CliEnv) (older : OlderEnv) (enrichment : Bool) :
    SameAnswers cfg env weakAes (hexString markedSealed) (hexString markedSealed)
      (some "0102030405060708090A0B0C0D0E0F11".toList) (some "0102030405060708D11F022700000F11".toList) := by
  refine (C155_shown_partial cfg env older weakAes (fun k b h => by simp [weakAes, h]) (hexString markedSealed) markedSealed
    exampleKey wrongKey _ _ enrichment ((decode_iff _ _).1 (by decide +kernel))
    (((C115_cli_key "0102030405060708090A0B0C0D0E0F11".toList).1 _).1 (by decide +kernel))
    (((C115_cli_key "0102030405060708D11F022700000F11".toList).1 _).1 (by decide +kernel))
    marked_framing ?_).1
  have hc : sameShown (decodeBytes cfg weakAes markedSealed ⟨some exampleKey, enrichment⟩)
      (decodeBytes cfg weakAes markedSealed ⟨some wrongKey, enrichment⟩) = true := by
    obtain ⟨a, b⟩ := cfg
    cases a <;> cases b <;> cases enrichment <;> decide +kernel
  unfold sameShown at hc
  split at hc
  · rename_i o o' he he'
    rw [he, he']
    simp only [Bool.and_eq_true, beq_iff_eq] at hc
    exact .shown _ _ hc.2
  · cases hc

end MBus
