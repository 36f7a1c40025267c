import Verif.Spec.Output
import Verif.Props.UserData
import Verif.Props.Wireless
import Verif.Props.Wired
import Verif.Props.RecordOutput
/-!
# Lemmas about the telegram decoder
-/
namespace MBus
open Spec

/-- What the decoder does once the frame is parsed. -/
def finish {F : Type} (cfg : Cfg) (aes : AesBlock) (protocol : List Char) (frame : FrameOutput)
    (data normalized : List UInt8) (stripped : Bool) (payload : Option (List UInt8)) (parsed : MbusData F)
    (link : Option ManufacturerId) (options : DecodeOptions) : Res OutputError DecodedOutput :=
  match prepareSecurity aes parsed.userData link options.key (List.replicate 512 0) with
  | .panic => .panic
  | .err e => .err (.security e)
  | .ok c =>
    match buildOutput cfg protocol frame data normalized stripped payload parsed.userData
      (recordsToShow parsed c) parsed.applicationError link c options.includeEnrichment with
    | some output => .ok output
    | none => .panic

theorem normalized_strip (data frame : List UInt8) (h : Normalized data frame) :
    ∃ r b, stripFormatACrcs data (List.replicate 512 0) = .ok (r, b) ∧ r.getD data = frame := by
  cases h with
  | stripped tail h1 h2 h3 h4 =>
    obtain ⟨t, ht, he⟩ := C15_strip_some data (List.replicate 512 0) h1
      (by rw [List.length_replicate]; exact h2) h3
    refine ⟨_, _, he, ?_⟩
    rw [stripped_unique ht h4]
    rfl
  | asIs h =>
    obtain ⟨b, hb⟩ := (C15_strip_none_iff data (List.replicate 512 0)).2 
      (by rw [List.length_replicate]; exact h)
    exact ⟨_, _, hb, rfl⟩

theorem normalized_exists (data : List UInt8) : ∃ frame, Normalized data frame := by
  by_cases h : data.length < 12 ∨ 512 < data.length ∨ ¬ BlockAt data 10
  · exact ⟨_, .asIs h⟩
  · push Not at h
    obtain ⟨t, ht, _⟩ := C15_strip_some data (List.replicate 512 0) h.1
      (by rw [List.length_replicate]; exact h.2.1) h.2.2
    exact ⟨_, .stripped t h.1 h.2.1 h.2.2 ht⟩

/-- A telegram with a payload is decoded by parsing the payload and finishing. -/
theorem decode_telegram (cfg : Cfg) (aes : AesBlock) (data : List UInt8) (link : Option ManufacturerId)
    (payload : List UInt8) (h : Telegram data link payload) :
    ∃ protocol frame normalized stripped, ∀ options,
      decodeBytes cfg aes data options =
        match UserDataBlock.tryFrom payload with
        | .ok blk => finish cfg aes protocol frame data normalized stripped (some payload)
            (⟨(), some blk, blk.attachedRecords, none⟩ : MbusData Unit) link options
        | .err e => finish cfg aes protocol frame data normalized stripped (some payload)
            (⟨(), none, none, some e⟩ : MbusData Unit) link options
        | .panic => .panic := by
  cases h with
  | wired fn address _ hw =>
    have hne : data ≠ [] := by rintro rfl; cases hw
    have hf := (C01_wired_accepts_exactly_telegrams cfg data _).2 hw
    refine ⟨"wired".toList, (wiredFrameOutput (.longFrame fn address payload)).1, data, false, ?_⟩
    intro options
    unfold decodeBytes MbusData.tryFromWired MbusData.ofPayload
    rw [if_neg hne, hf, Res.bind_ok]
    cases hu : UserDataBlock.tryFrom payload <;> simp only [hu] <;> rfl
  | wireless f frame hn hnorm hw =>
    have hne : data ≠ [] := by
      rintro rfl
      cases hnorm with
      | stripped t h1 => simp at h1
      | asIs => cases hw
    have hlen : 11 ≤ data.length := by
      have : 11 ≤ frame.length := by cases hw; simp
      cases hnorm with
      | stripped t h1 => omega
      | asIs => exact this
    obtain ⟨r, b, hs, hr⟩ := normalized_strip data frame hnorm
    have hf := (C12_wireless_accepts_exactly_telegrams frame f).2 hw
    have hwired : ∃ e, MbusData.tryFromWired cfg data = .err e := by
      cases hx : WiredFrame.tryFrom cfg data with
      | ok g => exact absurd ((C01_wired_accepts_exactly_telegrams cfg data g).1 hx) (hn g)
      | err e => exact ⟨e, ((C37_frame_delivered_wired cfg data).1 e).2 hx⟩
      | panic =>
        obtain ⟨_, _, h45⟩ := (C04_wired_panics_iff cfg data).1 hx
        omega
    obtain ⟨e, he⟩ := hwired
    refine ⟨"wireless".toList, wirelessFrameOutput f, frame, frame.length != data.length, ?_⟩
    intro options
    unfold decodeBytes MbusData.tryFromWireless MbusData.ofPayload
    rw [if_neg hne, he]
    simp only [hs, hr]
    rw [hf, Res.bind_ok]
    cases hu : UserDataBlock.tryFrom f.data <;> rfl

/-- Telegrams found by computation. -/
theorem wired_telegram (data payload : List UInt8) (fn : Function) (a : Address)
    (h : WiredFrame.tryFrom cfgRelease data = .ok (.longFrame fn a payload)) :
    Telegram data none payload :=
  .wired fn a _ ((C01_wired_accepts_exactly_telegrams cfgRelease _ _).1 h)

theorem wireless_telegram (data : List UInt8) (e : FrameError) (r : Option (List UInt8) × List UInt8)
    (f : WirelessFrame) (h : WiredFrame.tryFrom cfgRelease data = .err e)
    (hs : stripFormatACrcs data (List.replicate 512 0) = .ok r)
    (hf : WirelessFrame.tryFrom (r.1.getD data) = .ok f) :
    Telegram data (some f.manufacturerId) f.data := by
  obtain ⟨frame, hn⟩ := normalized_exists data
  obtain ⟨r', b, hr, he⟩ := normalized_strip data frame hn
  rw [hs] at hr
  cases hr
  rw [he] at hf
  refine .wireless f frame ?_ hn ((C12_wireless_accepts_exactly_telegrams _ _).1 hf)
  intro g hg
  rw [← C01_wired_accepts_exactly_telegrams cfgRelease, h] at hg
  cases hg

/-- All of it as one decidable check. -/
def isWireless (data : List UInt8) (id : ManufacturerId) (payload : List UInt8) : Bool :=
  match WiredFrame.tryFrom cfgRelease data, stripFormatACrcs data (List.replicate 512 0) with
  | .err _, .ok r => decide (∃ f ∈ (WirelessFrame.tryFrom (r.1.getD data)).toOption,
      f.manufacturerId = id ∧ f.data = payload)
  | _, _ => false

theorem isWireless_telegram (data : List UInt8) (id : ManufacturerId) (payload : List UInt8)
    (h : isWireless data id payload = true) : Telegram data (some id) payload := by
  unfold isWireless at h
  split at h
  · rename_i e r h1 h2
    obtain ⟨f, hf, rfl, rfl⟩ := of_decide_eq_true h
    refine wireless_telegram data e r f h1 h2 ?_
    cases hx : WirelessFrame.tryFrom (r.1.getD data) with
    | ok g => rw [hx] at hf; cases hf; rfl
    | err e => rw [hx] at hf; cases hf
    | panic => rw [hx] at hf; cases hf
  · cases h

/-! ## Security -/

theorem prepareSecurity_clear (aes : AesBlock) (ud : Option UserDataBlock) (link : Option ManufacturerId)
    (key : Option (List UInt8)) (output : List UInt8) (h : (securityFields ud).1 = false) :
    prepareSecurity aes ud link key output =
      .ok ⟨false, (securityFields ud).2.1, (securityFields ud).2.2, false, key.isSome, none⟩ := by
  unfold prepareSecurity
  rcases hs : securityFields ud with ⟨e, m, l⟩
  rw [hs] at h
  simp only at h
  subst h
  rfl

theorem prepareSecurity_no_key (aes : AesBlock) (blk : UserDataBlock) (link : Option ManufacturerId)
    (output : List UInt8) :
    prepareSecurity aes (some blk) link none output =
      .ok ⟨(securityFields (some blk)).1, (securityFields (some blk)).2.1,
        (securityFields (some blk)).2.2, false, false, none⟩ := by
  unfold prepareSecurity
  rcases hs : securityFields (some blk) with ⟨e, m, l⟩
  cases e <;> rfl

theorem mode_bytes (c0 c1 : UInt8) : modeNumber ⟨le16 c0 c1⟩ = c1.toNat % 32 := by
  have := c0.toNat_lt
  simp only [modeNumber, le16_eq, u16le_toNat]
  omega

/-- What encryption means for the parsed block. -/
def BlockEncrypted : UserDataBlock → Prop
  | .long _ h _ => modeNumber h.short.configurationField ≠ 0
  | .short ell h _ => modeNumber h.configurationField ≠ 0 ∨ ∃ e s, ell = some e ∧ e.encryption = some s
  | _ => False

theorem securityFields_encrypted (blk : UserDataBlock) :
    (securityFields (some blk)).1 = true ↔ BlockEncrypted blk := by
  cases blk with
  | long ell h block =>
    simp only [securityFields, BlockEncrypted, mode_zero_iff]
  | short ell h block =>
    simp only [securityFields, BlockEncrypted]
    have := mode_zero_iff h.configurationField
    by_cases hm : modeNumber h.configurationField = 0
    · have hf : h.configurationField.securityMode = .noEncryption := by
        have := this.not.2 (by simp [hm])
        simpa using this
      rcases ell with _ | ⟨cc, acc, ra, _ | s⟩ <;> simp [hf, hm]
    · have hf := this.2 hm
      have hne : h.configurationField.securityMode ≠ .noEncryption := by simpa using hf
      simp [hm, hne]
  | _ => simp [securityFields, BlockEncrypted]

theorem static_key (m : UInt16) (i : UInt32) (key : List UInt8) :
    ∃ p, (StaticKeyProvider.new 1).addKey m i key = (.ok (), p) ∧
      ∀ ctx : KeyContext, ctx.manufacturer.toId = m → ctx.identificationNumber = i →
        p.getKey ctx = .ok key := by
  refine ⟨_, rfl, ?_⟩
  rintro ctx rfl rfl
  simp [StaticKeyProvider.getKey, StaticKeyProvider.new]

/-- The context in which the payload after a transport header is decrypted. -/
def contextOf (code : ManufacturerCode) (n : Nat) (version : UInt8) (device : DeviceType)
    (h : ShortTplHeader) : KeyContext :=
  ⟨code, UInt32.ofNat n, version, device, h.configurationField.securityMode, h.accessNumber⟩

theorem cbc_mode_fields (cf : ConfigurationField) (iv : List UInt8) (ctxIv : List UInt8)
    (hm : (modeNumber cf = 7 ∧ iv = List.replicate 16 0) ∨ (modeNumber cf = 5 ∧ iv = ctxIv)) :
    (cf.securityMode = .aesCbc128IvZero ∧ iv = List.replicate 16 0 ∨
      cf.securityMode = .aesCbc128IvNonZero ∧ iv = ctxIv) := by
  rcases hm with ⟨h1, h2⟩ | ⟨h1, h2⟩
  · left
    refine ⟨?_, h2⟩
    rw [C10_security_mode_names]
    unfold modeNumber at h1
    rw [h1]; rfl
  · right
    refine ⟨?_, h2⟩
    rw [C10_security_mode_names]
    unfold modeNumber at h1
    rw [h1]; rfl

/-- Decrypting an encrypted long header block with the meter's key yields the plaintext. -/
theorem decrypt_long (enc dec : AesBlock) (key : List UInt8) (hk : key.length = 16)
    (hlen : ∀ b, b.length = 16 → (enc key b).length = 16)
    (hinv : ∀ b, b.length = 16 → dec key (enc key b) = b)
    (ell : Option ExtendedLinkLayer) (h : LongTplHeader) (code : ManufacturerCode)
    (hcode : h.manufacturer = .ok code) (iv : List UInt8)
    (hm : (modeNumber h.short.configurationField = 7 ∧ iv = List.replicate 16 0) ∨
      (modeNumber h.short.configurationField = 5 ∧
        iv = deriveIv (contextOf code h.identificationNumber h.version h.deviceType h.short)))
    (blocks : List (List UInt8)) (hb : ∀ b ∈ blocks, b.length = 16) (hne : blocks ≠ [])
    (tail : List UInt8) (ht : tail.length < 16) (hsize : 16 * blocks.length + tail.length ≤ 512)
    (link : Option ManufacturerId) :
    ∃ out', decryptUserData dec (.long ell h (cbcEncrypt enc key iv blocks ++ tail)) link key
        (List.replicate 512 0) = (.ok (16 * blocks.length + tail.length), out') ∧
      sliceTo? out' (16 * blocks.length + tail.length) = some (blocks.flatten ++ tail) := by
  have hmode := cbc_mode_fields _ _ _ hm
  have henc : (h.short.configurationField.securityMode != .noEncryption) = true := by
    rcases hmode with h | h <;> rw [h.1] <;> rfl
  obtain ⟨p, hp, hget⟩ := static_key code.toId (UInt32.ofNat h.identificationNumber) key
  obtain ⟨out', h1, h2⟩ := C40_cbc_inverts_encryption enc dec key hk hlen hinv p.getKey
    (contextOf code h.identificationNumber h.version h.deviceType h.short)
    (hget _ rfl rfl) iv hmode blocks hb hne tail ht (List.replicate 512 0)
    (by rw [List.length_replicate]; exact hsize)
  have hdec : decryptUserData dec (.long ell h (cbcEncrypt enc key iv blocks ++ tail)) link key
      (List.replicate 512 0) = (.ok (16 * blocks.length + tail.length), out') := by
    simp only [decryptUserData, hcode, hp, UserDataBlock.decryptVariableData,
      LongTplHeader.isEncrypted, henc, Bool.not_true, Bool.false_eq_true, if_false]
    exact h1
  have hlenout : out'.take (16 * blocks.length + tail.length) = blocks.flatten ++ tail := h2
  have hfl : (blocks.flatten ++ tail).length = 16 * blocks.length + tail.length := by
    rw [List.length_append, List.length_flatten]
    have : blocks.map List.length = List.replicate blocks.length 16 :=
      List.eq_replicate_iff.mpr ⟨by simp, by simpa using hb⟩
    rw [this]; simp; omega
  have hsl : sliceTo? out' (16 * blocks.length + tail.length) = some (blocks.flatten ++ tail) := by
    unfold sliceTo?
    rw [← hlenout, if_pos]
    have := congrArg List.length hlenout
    rw [hfl, List.length_take] at this
    omega
  exact ⟨out', hdec, hsl⟩

/-- Preparing the security context of an encrypted long header block with the meter's key yields the
plaintext. -/
theorem prepare_long (enc dec : AesBlock) (key : List UInt8) (hk : key.length = 16)
    (hlen : ∀ b, b.length = 16 → (enc key b).length = 16)
    (hinv : ∀ b, b.length = 16 → dec key (enc key b) = b)
    (ell : Option ExtendedLinkLayer) (h : LongTplHeader) (code : ManufacturerCode)
    (hcode : h.manufacturer = .ok code) (iv : List UInt8)
    (hm : (modeNumber h.short.configurationField = 7 ∧ iv = List.replicate 16 0) ∨
      (modeNumber h.short.configurationField = 5 ∧
        iv = deriveIv (contextOf code h.identificationNumber h.version h.deviceType h.short)))
    (blocks : List (List UInt8)) (hb : ∀ b ∈ blocks, b.length = 16) (hne : blocks ≠ [])
    (tail : List UInt8) (ht : tail.length < 16) (hsize : 16 * blocks.length + tail.length ≤ 512)
    (link : Option ManufacturerId) :
    prepareSecurity dec (some (.long ell h (cbcEncrypt enc key iv blocks ++ tail))) link (some key)
        (List.replicate 512 0) =
      .ok ⟨true, some h.short.configurationField.securityMode, false, true, true,
        some (blocks.flatten ++ tail)⟩ := by
  have hmode := cbc_mode_fields _ _ _ hm
  have henc : (h.short.configurationField.securityMode != .noEncryption) = true := by
    rcases hmode with h | h <;> rw [h.1] <;> rfl
  obtain ⟨out', hdec, hsl⟩ := decrypt_long enc dec key hk hlen hinv ell h code hcode iv hm blocks hb hne tail ht hsize link
  unfold prepareSecurity
  simp only [securityFields, henc, hdec, hsl, Option.isNone_some, Bool.false_eq_true, and_self,
    if_false]

/-- The same for a short header, with the meter address from the link layer. -/
theorem decrypt_short (enc dec : AesBlock) (key : List UInt8) (hk : key.length = 16)
    (hlen : ∀ b, b.length = 16 → (enc key b).length = 16)
    (hinv : ∀ b, b.length = 16 → dec key (enc key b) = b)
    (ell : Option ExtendedLinkLayer) (h : ShortTplHeader) (id : ManufacturerId) (iv : List UInt8)
    (hm : (modeNumber h.configurationField = 7 ∧ iv = List.replicate 16 0) ∨
      (modeNumber h.configurationField = 5 ∧
        iv = deriveIv (contextOf id.manufacturerCode id.identificationNumber id.version id.deviceType h)))
    (blocks : List (List UInt8)) (hb : ∀ b ∈ blocks, b.length = 16) (hne : blocks ≠ [])
    (tail : List UInt8) (ht : tail.length < 16) (hsize : 16 * blocks.length + tail.length ≤ 512) :
    ∃ out', decryptUserData dec (.short ell h (cbcEncrypt enc key iv blocks ++ tail)) (some id) key
        (List.replicate 512 0) = (.ok (16 * blocks.length + tail.length), out') ∧
      sliceTo? out' (16 * blocks.length + tail.length) = some (blocks.flatten ++ tail) := by
  have hmode := cbc_mode_fields _ _ _ hm
  have henc : (h.configurationField.securityMode != .noEncryption) = true := by
    rcases hmode with h | h <;> rw [h.1] <;> rfl
  have hne' : h.configurationField.securityMode ≠ .noEncryption := by simpa using henc
  obtain ⟨p, hp, hget⟩ := static_key id.manufacturerCode.toId (UInt32.ofNat id.identificationNumber) key
  obtain ⟨out', h1, h2⟩ := C40_cbc_inverts_encryption enc dec key hk hlen hinv p.getKey
    (contextOf id.manufacturerCode id.identificationNumber id.version id.deviceType h)
    (hget _ rfl rfl) iv hmode blocks hb hne tail ht (List.replicate 512 0)
    (by rw [List.length_replicate]; exact hsize)
  have hdec : decryptUserData dec (.short ell h (cbcEncrypt enc key iv blocks ++ tail)) (some id) key
      (List.replicate 512 0) = (.ok (16 * blocks.length + tail.length), out') := by
    simp only [decryptUserData, hp, UserDataBlock.decryptVariableDataWithContext,
      ShortTplHeader.isEncrypted, henc, Bool.not_true, Bool.false_eq_true, if_false, hne']
    exact h1
  have hlenout : out'.take (16 * blocks.length + tail.length) = blocks.flatten ++ tail := h2
  have hfl : (blocks.flatten ++ tail).length = 16 * blocks.length + tail.length := by
    rw [List.length_append, List.length_flatten]
    have : blocks.map List.length = List.replicate blocks.length 16 :=
      List.eq_replicate_iff.mpr ⟨by simp, by simpa using hb⟩
    rw [this]; simp; omega
  have hsl : sliceTo? out' (16 * blocks.length + tail.length) = some (blocks.flatten ++ tail) := by
    unfold sliceTo?
    rw [← hlenout, if_pos]
    have := congrArg List.length hlenout
    rw [hfl, List.length_take] at this
    omega
  exact ⟨out', hdec, hsl⟩

/-- The same for a short header, with the meter address from the link layer. -/
theorem prepare_short (enc dec : AesBlock) (key : List UInt8) (hk : key.length = 16)
    (hlen : ∀ b, b.length = 16 → (enc key b).length = 16)
    (hinv : ∀ b, b.length = 16 → dec key (enc key b) = b)
    (ell : Option ExtendedLinkLayer) (h : ShortTplHeader) (id : ManufacturerId) (iv : List UInt8)
    (hm : (modeNumber h.configurationField = 7 ∧ iv = List.replicate 16 0) ∨
      (modeNumber h.configurationField = 5 ∧
        iv = deriveIv (contextOf id.manufacturerCode id.identificationNumber id.version id.deviceType h)))
    (blocks : List (List UInt8)) (hb : ∀ b ∈ blocks, b.length = 16) (hne : blocks ≠ [])
    (tail : List UInt8) (ht : tail.length < 16) (hsize : 16 * blocks.length + tail.length ≤ 512) :
    ∃ l, prepareSecurity dec (some (.short ell h (cbcEncrypt enc key iv blocks ++ tail))) (some id)
        (some key) (List.replicate 512 0) =
      .ok ⟨true, some h.configurationField.securityMode, l, true, true,
        some (blocks.flatten ++ tail)⟩ := by
  have hmode := cbc_mode_fields _ _ _ hm
  have henc : (h.configurationField.securityMode != .noEncryption) = true := by
    rcases hmode with h | h <;> rw [h.1] <;> rfl
  have hne' : h.configurationField.securityMode ≠ .noEncryption := by simpa using henc
  obtain ⟨out', hdec, hsl⟩ := decrypt_short enc dec key hk hlen hinv ell h id iv hm blocks hb hne tail ht hsize
  have hbeq : (h.configurationField.securityMode == .noEncryption) = false := by simpa using hne'
  refine ⟨ell.any (fun e => e.encryption.isSome), ?_⟩
  unfold prepareSecurity
  simp only [securityFields, hbeq, Bool.and_false, Bool.false_eq_true, if_false, henc, hdec, hsl,
    Option.isNone_some, and_false]

end MBus
