import Verif.Lemmas.OutputFields
import Verif.Props.Output
import Verif.Props.Hex
/-!
# Properties of the sections of a decoded telegram
-/
namespace MBus
open Spec

/-! ## C83: which inputs are rejected, and how -/

/-- The input is neither a wired frame nor, with block CRCs removed if it has them, a wireless one. -/
def NoTelegram (data : List UInt8) : Prop :=
  (∀ g, ¬ WiredTelegram data g) ∧ ∀ frame f, Normalized data frame → ¬ WirelessTelegram frame f

theorem normalized_unique {data a b : List UInt8} (ha : Normalized data a) (hb : Normalized data b) :
    a = b := by
  obtain ⟨r, x, h1, h2⟩ := normalized_strip data a ha
  obtain ⟨r', x', h1', h2'⟩ := normalized_strip data b hb
  rw [h1] at h1'
  cases h1'
  rw [← h2, ← h2']

/-- C83: the input is reported as empty exactly if it is. -/
theorem C83_empty_iff (cfg : Cfg) (aes : AesBlock) (data : List UInt8) (options : DecodeOptions) :
    decodeBytes cfg aes data options = .err .emptyInput ↔ data = [] := by
  constructor
  · intro h
    have := decoding cfg aes data options
    rw [h] at this
    generalize hr : Res.err OutputError.emptyInput = r at this
    cases this with
    | empty h => exact h
    | crash h => cases hr
    | wired g m =>
      obtain ⟨s, hs, _⟩ := finish_err _ _ _ _ _ _ _ _ _ _ _ _ hr.symm
      cases hs
    | wireless f m frame =>
      obtain ⟨s, hs, _⟩ := finish_err _ _ _ _ _ _ _ _ _ _ _ _ hr.symm
      cases hs
    | neither => cases hr
  · rintro rfl
    rfl

/-- C83: an input is reported as an invalid frame exactly if it is neither a wired nor a wireless frame,
except for the inputs on which the wired parser panics in builds with overflow checks. -/
theorem C83_invalid_iff (cfg : Cfg) (aes : AesBlock) (data : List UInt8) (options : DecodeOptions) :
    (∃ a b, decodeBytes cfg aes data options = .err (.invalidFrame a b)) ↔
      data ≠ [] ∧ NoTelegram data ∧
      ¬ (cfg.overflowChecks = true ∧ data[0]? = some 0x68 ∧ (data.length = 4 ∨ data.length = 5)) := by
  have hd := decoding cfg aes data options
  rw [← C04_wired_panics_iff]
  constructor
  · rintro ⟨a, b, h⟩
    rw [h] at hd
    generalize hr : Res.err (OutputError.invalidFrame a b) = r at hd
    cases hd with
    | empty h => cases hr
    | crash h => cases hr
    | wired g m =>
      obtain ⟨s, hs, _⟩ := finish_err _ _ _ _ _ _ _ _ _ _ _ _ hr.symm
      cases hs
    | wireless f m frame =>
      obtain ⟨s, hs, _⟩ := finish_err _ _ _ _ _ _ _ _ _ _ _ _ hr.symm
      cases hs
    | neither a' b' frame h1 h2 h3 h4 h5 =>
      exact ⟨h1, ⟨h2, fun fr f hn => by rw [normalized_unique hn h3]; exact h4 f⟩, h5⟩
  · rintro ⟨h1, ⟨h2, h3⟩, h4⟩
    generalize decodeBytes cfg aes data options = r at hd
    cases hd with
    | empty h => exact absurd h h1
    | crash h => exact absurd h h4
    | wired g m _ h => exact absurd h (h2 g)
    | wireless f m frame _ _ h5 h6 => exact absurd h6 (h3 _ _ h5)
    | neither a b => exact ⟨a, b, rfl⟩

/-- C83: without a key there is no other error. -/
theorem C83_no_key (cfg : Cfg) (aes : AesBlock) (data : List UInt8) (enrich : Bool) (e : OutputError)
    (h : decodeBytes cfg aes data ⟨none, enrich⟩ = .err e) :
    e = .emptyInput ∨ ∃ a b, e = .invalidFrame a b := by
  have hd := decoding cfg aes data ⟨none, enrich⟩
  rw [h] at hd
  generalize hr : Res.err e = r at hd
  have key : ∀ {ud : Option UserDataBlock} {link : Option ManufacturerId} {out : List UInt8}
      {s : SecurityError}, prepareSecurity aes ud link none out ≠ .err s := by
    intro ud link out s h
    cases ud with
    | none => simp [prepareSecurity, securityFields] at h
    | some blk => rw [prepareSecurity_no_key] at h; cases h
  cases hd with
  | empty h => cases hr; exact Or.inl rfl
  | crash h => cases hr
  | wired g m =>
    obtain ⟨s, _, hs⟩ := finish_err _ _ _ _ _ _ _ _ _ _ _ _ hr.symm
    exact absurd hs key
  | wireless f m frame =>
    obtain ⟨s, _, hs⟩ := finish_err _ _ _ _ _ _ _ _ _ _ _ _ hr.symm
    exact absurd hs key
  | neither a b => cases hr; exact Or.inr ⟨a, b, rfl⟩

/-- C83: a key can turn into an error only what is reported as encrypted without it. -/
theorem C83_security_error (cfg : Cfg) (aes : AesBlock) (data : List UInt8) (options : DecodeOptions)
    (e : SecurityError) (h : decodeBytes cfg aes data options = .err (.security e)) :
    ∃ o, decodeBytes cfg aes data ⟨none, options.includeEnrichment⟩ = .ok o ∧
      o.security.payloadProtection = "encrypted".toList ∧ o.records = [] := by
  have main : ∀ {F : Type} (protocol : List Char) (frame : FrameOutput) (normalized : List UInt8)
      (stripped : Bool) (payload : Option (List UInt8)) (parsed : MbusData F)
      (link : Option ManufacturerId),
      finish cfg aes protocol frame data normalized stripped payload parsed link options =
        .err (.security e) →
      ∃ o, finish cfg aes protocol frame data normalized stripped payload parsed link
          ⟨none, options.includeEnrichment⟩ = .ok o ∧
        o.security.payloadProtection = "encrypted".toList ∧ o.records = [] := by
    intro F protocol frame normalized stripped payload parsed link h
    obtain ⟨s, _, hs⟩ := finish_err _ _ _ _ _ _ _ _ _ _ _ _ h
    have henc : (securityFields parsed.userData).1 = true := by
      cases hx : (securityFields parsed.userData).1
      · rw [prepareSecurity_clear _ _ _ _ _ hx] at hs; cases hs
      · rfl
    rcases hud : parsed.userData with _ | blk
    · rw [hud] at henc; simp [securityFields] at henc
    rw [hud] at henc
    simp only [finish, hud, prepareSecurity_no_key, henc]
    exact ⟨_, rfl, by simp, by simp [recordOutputs]⟩
  unfold decodeBytes at h ⊢
  by_cases hne : data = []
  · simp [hne] at h
  rw [if_neg hne] at h ⊢
  rcases hw : MbusData.tryFromWired cfg data with parsed | e | _
  · rw [hw] at h
    simp only at h ⊢
    exact main _ _ _ _ _ parsed none h
  · rw [hw] at h
    simp only at h ⊢
    rcases hst : stripFormatACrcs data (List.replicate 512 0) with ⟨r, b⟩ | _ | _
    · rw [hst] at h
      simp only at h ⊢
      rcases hwl : MbusData.tryFromWireless (r.getD data) with parsed | _ | _
      · rw [hwl] at h
        simp only at h ⊢
        exact main _ _ _ _ _ parsed _ h
      · rw [hwl] at h; cases h
      · rw [hwl] at h; cases h
    · rw [hst] at h; cases h
    · rw [hst] at h; cases h
  · rw [hw] at h; cases h

/-- C83: the decoder has no way to decrypt the payload after an extended link layer with a session
number, and says so when a key is supplied. -/
theorem C83_ell_key (cfg : Cfg) (aes : AesBlock) (data key : List UInt8) (enrich : Bool)
    (link : Option ManufacturerId) (payload : List UInt8) (ht : Telegram data link payload)
    (he : (∃ cc acc s0 s1 s2 s3 r0 r1 block,
        payload = [0x8D, cc, acc, s0, s1, s2, s3, r0, r1] ++ block) ∨
      ∃ cc acc m0 m1 a0 a1 a2 a3 a4 a5 s0 s1 s2 s3 r0 r1 block, payload =
        [0x8E, cc, acc, m0, m1, a0, a1, a2, a3, a4, a5, s0, s1, s2, s3, r0, r1] ++ block) :
    decodeBytes cfg aes data ⟨some key, enrich⟩ = .err (.security .unsupportedEll) := by
  obtain ⟨protocol, frame, normalized, stripped, hdec⟩ := decode_telegram cfg aes data link payload ht
  rw [hdec]
  have h0 : (⟨0⟩ : ConfigurationField).securityMode = .noEncryption := by decide
  rcases he with ⟨cc, acc, s0, s1, s2, s3, r0, r1, block, rfl⟩ |
    ⟨cc, acc, m0, m1, a0, a1, a2, a3, a4, a5, s0, s1, s2, s3, r0, r1, block, rfl⟩
  · rw [(C32_accepts_iff _ _).2 (.ellII cc acc s0 s1 s2 s3 r0 r1 block)]
    simp [finish, prepareSecurity, securityFields, h0]
  · rw [(C32_accepts_iff _ _).2 (.ellIII cc acc m0 m1 a0 a1 a2 a3 a4 a5 s0 s1 s2 s3 r0 r1 block)]
    simp [finish, prepareSecurity, securityFields, h0]

/-- The inputs of all four theorems occur. -/
example : NoTelegram [0x01, 0x02, 0x03] := by
  have h1 : ∀ g, ¬ WiredTelegram [0x01, 0x02, 0x03] g := by
    intro g hg
    rw [← C01_wired_accepts_exactly_telegrams cfgRelease] at hg
    exact absurd hg (by simp [WiredFrame.tryFrom])
  refine ⟨h1, ?_⟩
  intro frame f hn hf
  cases hn with
  | stripped t h => simp at h
  | asIs => cases hf
example : ∃ data payload, Telegram data none payload ∧
    payload = [0x8D, 0x20, 1, 2, 3, 4, 5, 6, 7] ++ [0x78, 9] :=
  ⟨wiredLong [0x8D, 0x20, 1, 2, 3, 4, 5, 6, 7, 0x78, 9], _,
    wired_telegram _ _ (.rspUd false false) (.primary 1) (by decide +kernel), rfl⟩

/-! ## C84: the raw section -/

theorem stripped_le {rest out : List UInt8} (h : Stripped rest out) : out.length ≤ rest.length := by
  induction h with
  | raw => exact Nat.le_refl _
  | block b tail out hi lo _ _ _ _ _ ih => simp; omega

theorem fixL_length (l : List UInt8) : (fixL l).length = l.length := by cases l <;> rfl

theorem normalized_length {data frame : List UInt8} (h : Normalized data frame) :
    frame.length ≠ data.length ∨ frame = data := by
  cases h with
  | stripped tail h1 h2 h3 h4 =>
    left
    have := stripped_le h4
    rw [fixL_length]
    simp at this ⊢
    omega
  | asIs => exact Or.inr rfl

/-- C84: the raw section shows the input as received and as parsed, in hexadecimal text that reads back
to these bytes, its length, and whether block CRCs were removed. -/
theorem C84_raw (cfg : Cfg) (aes : AesBlock) (data : List UInt8) (options : DecodeOptions)
    (o : DecodedOutput) (h : decodeBytes cfg aes data options = .ok o) :
    o.raw.input = none ∧ o.raw.byteLength = data.length ∧
    decodeHexBytes o.raw.originalFrameHex = .ok data ∧
    ∃ normalized, decodeHexBytes o.raw.normalizedFrameHex = .ok normalized ∧
      (o.raw.formatACrcStripped = true ↔ normalized ≠ data) ∧
      ((∃ g, WiredTelegram data g) ∧ normalized = data ∨
        (∃ f, WirelessTelegram normalized f) ∧ Normalized data normalized) := by
  have hd := decoding cfg aes data options
  rw [h] at hd
  generalize hr : Res.ok o = r at hd
  cases hd with
  | empty h => cases hr
  | crash h => cases hr
  | wired g m hne hg hm hm' =>
    obtain ⟨c, outs, err, _, _, _, _, _, _, hraw, _⟩ := finish_ok _ _ _ _ _ _ _ _ _ _ _ _ hr.symm
    rw [hraw]
    exact ⟨rfl, rfl, (C43_hex_string data hne).2, data, (C43_hex_string data hne).2, by simp,
      Or.inl ⟨⟨g, hg⟩, rfl⟩⟩
  | wireless f m frame hne hn hf hw hm hm' =>
    obtain ⟨c, outs, err, _, _, _, _, _, _, hraw, _⟩ := finish_ok _ _ _ _ _ _ _ _ _ _ _ _ hr.symm
    rw [hraw]
    have hne' : frame ≠ [] := by rintro rfl; cases hw
    refine ⟨rfl, rfl, (C43_hex_string data hne).2, frame, (C43_hex_string frame hne').2, ?_,
      Or.inr ⟨⟨f, hw⟩, hf⟩⟩
    simp only [bne_iff_ne]
    constructor
    · intro h1 h2; exact h1 (by rw [h2])
    · intro h1
      rcases normalized_length hf with h | h
      · exact h
      · exact absurd h h1
  | neither => cases hr

/-- What is known of the output of a telegram whose payload the library accepts. -/
theorem telegram_output (cfg : Cfg) (aes : AesBlock) (data : List UInt8) (options : DecodeOptions)
    (o : DecodedOutput) (h : decodeBytes cfg aes data options = .ok o) (link : Option ManufacturerId)
    (payload : List UInt8) (ht : Telegram data link payload) :
    o.raw.payloadHex = some (hexString payload) ∧
    ∀ blk, Block payload blk → (o.meter, o.transport) = meterAndTransport (some blk) link := by
  obtain ⟨protocol, frame, normalized, stripped, hdec⟩ := decode_telegram cfg aes data link payload ht
  rw [hdec] at h
  cases hu : UserDataBlock.tryFrom payload with
  | ok b =>
    rw [hu] at h
    obtain ⟨c, outs, err, _, _, _, _, h1, _, h2, _⟩ := finish_ok _ _ _ _ _ _ _ _ _ _ _ _ h
    refine ⟨by rw [h2]; rfl, fun blk hb => ?_⟩
    have := (C32_accepts_iff _ _).2 hb
    rw [hu] at this
    cases this
    exact h1
  | err e =>
    rw [hu] at h
    obtain ⟨c, outs, err, _, _, _, _, h1, _, h2, _⟩ := finish_ok _ _ _ _ _ _ _ _ _ _ _ _ h
    refine ⟨by rw [h2]; rfl, fun blk hb => ?_⟩
    have := (C32_accepts_iff _ _).2 hb
    rw [hu] at this
    cases this
  | panic => rw [hu] at h; cases h

/-- C84: the payload is shown in hexadecimal text that reads back to it. -/
theorem C84_payload (cfg : Cfg) (aes : AesBlock) (data : List UInt8) (options : DecodeOptions)
    (o : DecodedOutput) (h : decodeBytes cfg aes data options = .ok o) (link : Option ManufacturerId)
    (payload : List UInt8) (ht : Telegram data link payload) (hne : payload ≠ []) :
    ∃ text, o.raw.payloadHex = some text ∧ decodeHexBytes text = .ok payload :=
  ⟨_, (telegram_output cfg aes data options o h link payload ht).1, (C43_hex_string _ hne).2⟩

/-- C84: decoding the shown hexadecimal text of the frame gives the same output again, apart from the
text itself, which is recorded as input. -/
theorem C84_decode_again (cfg : Cfg) (aes : AesBlock) (data : List UInt8) (options : DecodeOptions)
    (o : DecodedOutput) (h : decodeBytes cfg aes data options = .ok o) :
    decodeHex cfg aes o.raw.originalFrameHex options =
      .ok { o with raw := { o.raw with input := some o.raw.originalFrameHex } } := by
  have h1 := (C84_raw cfg aes data options o h).2.2.1
  unfold decodeHex
  rw [h1]
  simp only [h]

/-- C84: any text that denotes the bytes of a frame decodes like the frame. -/
theorem C84_decode_text (cfg : Cfg) (aes : AesBlock) (data : List UInt8) (options : DecodeOptions)
    (text t : List Char) (hne : data ≠ []) (ht : Trimmed text t) (hd : Pairs t data ∨ Tokens t data) :
    (∀ o, decodeBytes cfg aes data options = .ok o →
      decodeHex cfg aes text options = .ok { o with raw := { o.raw with input := some text } }) ∧
    (∀ e, decodeBytes cfg aes data options = .err e →
      decodeHex cfg aes text options = .err (.inr e)) := by
  have := (C43_accepts_iff text data).2 ⟨hne, t, ht, hd⟩
  unfold decodeHex
  rw [this]
  constructor
  · intro o ho; simp only [ho]
  · intro e he; simp only [he]

/-! ## C85: the state and the diagnostics -/

/-- C85: a decoding is called complete exactly if there is no warning, and partial otherwise; every
diagnostic is a warning or an information. -/
theorem C85_state (cfg : Cfg) (aes : AesBlock) (data : List UInt8) (options : DecodeOptions)
    (o : DecodedOutput) (h : decodeBytes cfg aes data options = .ok o) :
    (o.decodeState = "complete".toList ↔ ∀ d ∈ o.diagnostics, d.severity ≠ "warning".toList) ∧
    (o.decodeState = "complete".toList ∨ o.decodeState = "partial".toList) ∧
    ∀ d ∈ o.diagnostics, d.severity = "warning".toList ∨ d.severity = "info".toList := by
  have main : ∀ {F : Type} (protocol : List Char) (frame : FrameOutput) (normalized : List UInt8)
      (stripped : Bool) (payload : Option (List UInt8)) (parsed : MbusData F)
      (link : Option ManufacturerId),
      finish cfg aes protocol frame data normalized stripped payload parsed link options = .ok o →
    (o.decodeState = "complete".toList ↔ ∀ d ∈ o.diagnostics, d.severity ≠ "warning".toList) ∧
    (o.decodeState = "complete".toList ∨ o.decodeState = "partial".toList) ∧
    ∀ d ∈ o.diagnostics, d.severity = "warning".toList ∨ d.severity = "info".toList := by
    intro F protocol frame normalized stripped payload parsed link h
    obtain ⟨c, outs, err, _, _, _, _, _, _, _, hd, hs, _⟩ := finish_ok _ _ _ _ _ _ _ _ _ _ _ _ h
    rw [hd, hs]
    rcases parsed.applicationError with _ | e <;> rcases err with _ | e' <;>
      rcases c with ⟨_ | _, m, l, _ | _, _ | _, d⟩ <;>
      simp [securityDiagnostics, applicationDiagnostic, recordDiagnostic]
  have hdc := decoding cfg aes data options
  rw [h] at hdc
  generalize hr : Res.ok o = r at hdc
  cases hdc with
  | empty h => cases hr
  | crash h => cases hr
  | wired g m => exact main _ _ _ _ _ _ _ hr.symm
  | wireless f m frame => exact main _ _ _ _ _ _ _ hr.symm
  | neither => cases hr

/-- C85: what complete means for a telegram decoded without a key.  The payload is accepted, it is not
encrypted (but for the hidden session numbers of `C53_fails`), and all of its records are shown. -/
theorem C85_complete (cfg : Cfg) (aes : AesBlock) (data : List UInt8) (enrich : Bool)
    (o : DecodedOutput) (h : decodeBytes cfg aes data ⟨none, enrich⟩ = .ok o)
    (link : Option ManufacturerId) (payload : List UInt8) (ht : Telegram data link payload)
    (hc : o.decodeState = "complete".toList) :
    ∃ blk, Block payload blk ∧ (Encrypted payload → HiddenSession payload) ∧
      ∀ s, blk.attachedRecords = some s →
        ∃ rs, s.collect cfg = rs.map .ok ∧ o.records = recordOutputs rs := by
  have hne : ("partial".toList : List Char) ≠ "complete".toList := by decide
  obtain ⟨protocol, frame, normalized, stripped, hdec⟩ := decode_telegram cfg aes data link payload ht
  rw [hdec] at h
  cases hu : UserDataBlock.tryFrom payload with
  | ok b =>
    rw [hu] at h
    obtain ⟨c, outs, err, h1, h2, _, _, _, h3, _, _, h4, _⟩ := finish_ok _ _ _ _ _ _ _ _ _ _ _ _ h
    rw [h4] at hc
    have hb := (C32_accepts_iff _ _).1 hu
    refine ⟨b, hb, ?_, ?_⟩
    · intro he
      by_contra hn
      have hbe := (securityFields_encrypted b).2 (encrypted_block payload he b hb hn)
      rw [prepareSecurity_no_key, hbe] at h1
      cases h1
      rw [if_pos (by simp)] at hc
      exact hne hc
    · intro s hs
      rw [prepareSecurity_no_key] at h1
      cases h1
      simp only [recordsToShow] at h2
      cases henc : (securityFields (some b)).1
      · rw [henc] at h2 hc
        simp only [Bool.false_eq_true, if_false, hs] at h2
        have herr : err = none := by
          cases err with
          | none => rfl
          | some e => rw [if_pos (by simp)] at hc; exact absurd hc hne
        subst herr
        refine ⟨outs, ?_, h3⟩
        obtain ⟨rs', h5, h6⟩ := collectItems_none _ _ _ _ h2
        rw [List.nil_append] at h6
        rw [h6, h5]
      · rw [henc] at hc
        rw [if_pos (by simp)] at hc
        exact absurd hc hne
  | err e =>
    rw [hu] at h
    obtain ⟨c, outs, err, h1, h2, _, _, _, h3, _, _, h4, _⟩ := finish_ok _ _ _ _ _ _ _ _ _ _ _ _ h
    rw [h4] at hc
    rw [if_pos (by simp)] at hc
    exact absurd hc hne
  | panic => rw [hu] at h; cases h

/-! ## C86: the meter's identity -/

/-- The three letters of a manufacturer as text. -/
def letterText (i j k : Nat) : List Char := [Char.ofNat (64 + i), Char.ofNat (64 + j), Char.ofNat (64 + k)]

theorem display_letters (i j k : Nat) (hi : IsLetter i) (hj : IsLetter j) (hk : IsLetter k) :
    (letters i j k).display = letterText i j k := by
  unfold IsLetter at *
  simp only [ManufacturerCode.display, letters, letterText, UInt8.toNat_ofNat']
  rw [Nat.mod_eq_of_lt (by omega), Nat.mod_eq_of_lt (by omega), Nat.mod_eq_of_lt (by omega)]

/-- The address in a long header, as shown: the eight digits of the identification number, the three
letters of the manufacturer if its code is valid, version and device type. -/
structure ShowsAddress (i : MeterIdentity) (id : List UInt8) (m : Nat) (version device : UInt8) :
    Prop where
  id_digits : i.id = some (hexString id)
  manufacturer : ∀ text, i.manufacturerCode = some text ↔
    ∃ a b c, IsLetter a ∧ IsLetter b ∧ IsLetter c ∧ m = flagId a b c ∧ text = letterText a b c
  version : i.version = some version
  device_code : i.deviceTypeCode = some device
  device_name : i.deviceType = some (DeviceType.fromByte device).display

theorem long_id (h : LongTplHeader) :
    (identityFromLong h).id = some (idDisplay h.identificationNumber) := rfl
theorem long_manufacturer (h : LongTplHeader) : (identityFromLong h).manufacturerCode =
    h.manufacturer.toOption.map ManufacturerCode.display := rfl
theorem long_version (h : LongTplHeader) : (identityFromLong h).version = some h.version := rfl
theorem long_code (h : LongTplHeader) :
    (identityFromLong h).deviceTypeCode = some h.deviceType.toByte := rfl
theorem long_name (h : LongTplHeader) :
    (identityFromLong h).deviceType = some h.deviceType.display := rfl
theorem link_id (l : ManufacturerId) :
    (identityFromWireless l).id = some (idDisplay l.identificationNumber) := rfl
theorem link_manufacturer (l : ManufacturerId) : (identityFromWireless l).manufacturerCode =
    some l.manufacturerCode.display := rfl
theorem link_version (l : ManufacturerId) : (identityFromWireless l).version = some l.version := rfl
theorem link_code (l : ManufacturerId) :
    (identityFromWireless l).deviceTypeCode = some l.deviceType.toByte := rfl
theorem link_name (l : ManufacturerId) :
    (identityFromWireless l).deviceType = some l.deviceType.display := rfl

theorem shows_long (h : LongTplHeader) (id : List UInt8) (mid : UInt16) (m : Nat) (device : UInt8)
    (h1 : idDisplay h.identificationNumber = hexString id)
    (h2 : h.manufacturer = ManufacturerCode.fromId mid) (h3 : mid.toNat = m)
    (h4 : h.deviceType = DeviceType.fromByte device) :
    ShowsAddress (identityFromLong h) id m h.version device where
  id_digits := by rw [long_id, h1]
  manufacturer := by
    intro text
    simp only [long_manufacturer, h2]
    rw [← h3]
    constructor
    · intro ht
      cases hf : ManufacturerCode.fromId mid with
      | ok code =>
        rw [hf] at ht
        obtain ⟨a, b, c, ha, hb, hc, hn, rfl⟩ := (C07_manufacturer_from_id _ _).1 hf
        simp only [Res.toOption, Option.map_some, Option.some.injEq] at ht
        exact ⟨a, b, c, ha, hb, hc, hn, by rw [← ht, display_letters a b c ha hb hc]⟩
      | err e => rw [hf] at ht; cases ht
      | panic => rw [hf] at ht; cases ht
    · rintro ⟨a, b, c, ha, hb, hc, hn, rfl⟩
      rw [(C07_manufacturer_from_id _ _).2 ⟨a, b, c, ha, hb, hc, hn, rfl⟩]
      simp only [Res.toOption, Option.map_some, display_letters a b c ha hb hc]
  version := long_version _
  device_code := by rw [long_code, h4, C09_device_type_roundtrip]
  device_name := by rw [long_name, h4]

theorem shows_link (l : ManufacturerId) (id : List UInt8) (i j k : Nat) (device : UInt8)
    (hi : IsLetter i) (hj : IsLetter j) (hk : IsLetter k)
    (h1 : idDisplay l.identificationNumber = hexString id)
    (h2 : l.manufacturerCode = letters i j k) (h4 : l.deviceType = DeviceType.fromByte device) :
    ShowsAddress (identityFromWireless l) id (flagId i j k) l.version device where
  id_digits := by rw [link_id, h1]
  manufacturer := by
    intro text
    simp only [link_manufacturer, h2, Option.some.injEq, display_letters i j k hi hj hk]
    constructor
    · rintro rfl; exact ⟨i, j, k, hi, hj, hk, rfl, rfl⟩
    · rintro ⟨a, b, c, ha, hb, hc, hn, rfl⟩
      unfold IsLetter flagId at *
      have : i = a ∧ j = b ∧ k = c := by omega
      obtain ⟨rfl, rfl, rfl⟩ := this
      rfl
  version := link_version _
  device_code := by rw [link_code, h4, C09_device_type_roundtrip]
  device_name := by rw [link_name, h4]

/-- C86: a telegram with a long header shows the address in that header, most significant digit of the
identification number first. -/
theorem C86_long (cfg : Cfg) (aes : AesBlock) (data : List UInt8) (options : DecodeOptions)
    (o : DecodedOutput) (h : decodeBytes cfg aes data options = .ok o) (link : Option ManufacturerId)
    (reversed : Bool) (i0 i1 i2 i3 m0 m1 version device acc st c0 c1 : UInt8) (block : List UInt8)
    (ht : Telegram data link
      ([longCi reversed, i0, i1, i2, i3, m0, m1, version, device, acc, st, c0, c1] ++ block))
    (hb : AllBcd [i0, i1, i2, i3]) :
    ∃ i, o.meter.identity = some i ∧ i.source = "tpl.long".toList ∧
      ShowsAddress i (if reversed then [i0, i1, i2, i3] else [i3, i2, i1, i0])
        (m0.toNat + 256 * m1.toNat) version device := by
  have hm := (telegram_output cfg aes data options o h link _ ht).2 _
    (Block.long reversed i0 i1 i2 i3 m0 m1 version device acc st c0 c1 block hb)
  have hm1 : o.meter = (meterAndTransport _ link).1 := congrArg Prod.fst hm
  rw [hm1]
  have hle : (le16 m0 m1).toNat = m0.toNat + 256 * m1.toNat := by rw [le16_eq, u16le_toNat]
  refine ⟨identityFromLong _, rfl, rfl, shows_long _ _ (le16 m0 m1) _ _ ?_ rfl hle rfl⟩
  cases reversed
  · simp only [idBytes, Bool.false_eq_true, if_false, idDisplay_bcd i0 i1 i2 i3 hb]
  · simp only [idBytes, if_true]
    rw [idDisplay_bcd]
    rw [allBcd_four] at *
    tauto

/-- C86: a wireless telegram without a long header shows the address in the link layer. -/
theorem C86_link (cfg : Cfg) (aes : AesBlock) (data : List UInt8) (options : DecodeOptions)
    (o : DecodedOutput) (h : decodeBytes cfg aes data options = .ok o) (hw : ∀ g, ¬ WiredTelegram data g)
    (l c m0 m1 d0 d1 d2 d3 ver dev ci : UInt8) (rest : List UInt8)
    (hn : Normalized data (l :: c :: m0 :: m1 :: d0 :: d1 :: d2 :: d3 :: ver :: dev :: ci :: rest))
    (f : WirelessFrame)
    (hf : WirelessTelegram (l :: c :: m0 :: m1 :: d0 :: d1 :: d2 :: d3 :: ver :: dev :: ci :: rest) f)
    (hnl : ∀ e h b, ¬ Block f.data (.long e h b)) (hnf : ∀ i a s d x y, ¬ Block f.data (.fixed i a s d x y)) :
    ∃ i, o.meter.identity = some i ∧ i.source = "link.wireless".toList ∧
      o.meter.alternateIdentities = [] ∧
      ShowsAddress i [d3, d2, d1, d0] (m0.toNat + 256 * m1.toNat) ver (deviceByte ci dev) := by
  have hd := decoding cfg aes data options
  rw [h] at hd
  generalize hr : Res.ok o = r at hd
  cases hd with
  | empty h => cases hr
  | crash h => cases hr
  | wired g m hne hg hm hm' => exact absurd hg (hw g)
  | neither => cases hr
  | wireless f' m frame hne _ hn' hw' hm hm' =>
    have := normalized_unique hn hn'
    subst this
    have hff : f' = f := by
      have h1 := (C12_wireless_accepts_exactly_telegrams _ _).2 hw'
      rw [(C12_wireless_accepts_exactly_telegrams _ _).2 hf] at h1
      cases h1; rfl
    subst hff
    obtain ⟨_, outs, err, _, _, _, _, h1, _, _⟩ := finish_ok _ _ _ _ _ _ _ _ _ _ _ _ hr.symm
    have hmt : o.meter = (meterAndTransport m.userData (some f'.manufacturerId)).1 :=
      congrArg Prod.fst h1
    have hid : (meterAndTransport m.userData (some f'.manufacturerId)).1 =
        ⟨some (identityFromWireless f'.manufacturerId), []⟩ := by
      obtain ⟨m2, hm2, _, hud⟩ := (C37_wireless _).2 f' ((C12_wireless_accepts_exactly_telegrams _ _).2 hf)
      rw [hm'] at hm2
      cases hm2
      rcases hud with ⟨blk, hb, hu, _⟩ | ⟨e, _, hu, _⟩
      · rw [hu]
        have hblk := (C32_accepts_iff _ _).1 hb
        cases blk with
        | long e h b => exact absurd hblk (hnl e h b)
        | fixed i a s d x y => exact absurd hblk (hnf i a s d x y)
        | reset => rfl
        | short => rfl
        | noTpl => rfl
      · rw [hu]; rfl
    rw [hmt, hid]
    refine ⟨identityFromWireless _, rfl, rfl, rfl, ?_⟩
    cases hf with
    | mk _ _ _ _ _ _ _ _ _ _ _ _ payload i j k fn hl hfn hi hj hk hmi hbcd hp =>
      rw [hmi]
      refine shows_link _ _ i j k _ hi hj hk ?_ rfl rfl
      simp only
      rw [idDisplay_bcd]
      rw [allBcd_four]
      exact hbcd

/-- Two identities name the same meter. -/
def SameMeter (a b : MeterIdentity) : Prop :=
  a.id = b.id ∧ a.manufacturerCode = b.manufacturerCode ∧ a.version = b.version ∧
    a.deviceTypeCode = b.deviceTypeCode

/-- C86: "an alternate identity is another meter than the identity" is false: the address in the link
layer is listed as an alternate whenever there is a long header, even if the two are equal. -/
theorem C86_alternate_fails (cfg : Cfg) (aes : AesBlock) :
    ∃ data o i a, decodeBytes cfg aes data ⟨none, false⟩ = .ok o ∧ o.meter.identity = some i ∧
      a ∈ o.meter.alternateIdentities ∧ SameMeter i a := by
  refine ⟨wirelessFrame [0x72, 0x78, 0x56, 0x34, 0x12, 0xE6, 0x1E, 0x3C, 0x07, 0x2A, 0, 0, 0], ?_⟩
  rw [decode_any_aes cfg aes (fun _ b => b)]
  have key : (match decodeBytes cfg (fun _ b => b)
      (wirelessFrame [0x72, 0x78, 0x56, 0x34, 0x12, 0xE6, 0x1E, 0x3C, 0x07, 0x2A, 0, 0, 0]) ⟨none, false⟩ with
    | .ok o => match o.meter.identity, o.meter.alternateIdentities with
      | some i, [a] => decide (i.id = a.id ∧ i.manufacturerCode = a.manufacturerCode ∧
          i.version = a.version ∧ i.deviceTypeCode = a.deviceTypeCode)
      | _, _ => false
    | _ => false) = true := by
    obtain ⟨oc, tf⟩ := cfg
    cases oc <;> cases tf <;> decide +kernel
  split at key
  · rename_i o ho
    split at key
    · rename_i i a hi ha
      exact ⟨o, i, a, ho, hi, by rw [ha]; simp, by unfold SameMeter; exact of_decide_eq_true key⟩
    · cases key
  · cases key

theorem source_ne : ("link.wireless".toList : List Char) ≠ "tpl.long".toList := by decide

/-- C86: the alternates are always among the addresses of the telegram: the address in the link layer,
and only beside a long header. -/
theorem C86_alternates (cfg : Cfg) (aes : AesBlock) (data : List UInt8) (options : DecodeOptions)
    (o : DecodedOutput) (h : decodeBytes cfg aes data options = .ok o) (link : Option ManufacturerId)
    (payload : List UInt8) (ht : Telegram data link payload) (blk : UserDataBlock)
    (hb : Block payload blk) :
    o.meter.alternateIdentities =
      match blk, link with
      | .long .., some id => [identityFromWireless id]
      | _, _ => [] := by
  have hm := (telegram_output cfg aes data options o h link _ ht).2 _ hb
  have hm1 : o.meter = (meterAndTransport _ link).1 := congrArg Prod.fst hm
  rw [hm1]
  cases blk with
  | long e h b =>
    cases link with
    | none => rfl
    | some id =>
      simp only [meterAndTransport, Option.map_some]
      rw [if_pos]
      intro h
      exact absurd (congrArg MeterIdentity.source h) source_ne
  | _ => cases link <;> rfl

/-- The hypotheses of the theorems above are met. -/
example : ∃ link, Telegram (wiredLong [0x72, 0x78, 0x56, 0x34, 0x12, 0xE6, 0x1E, 0x3C, 0x07, 0x2A, 0, 0, 0])
    link [0x72, 0x78, 0x56, 0x34, 0x12, 0xE6, 0x1E, 0x3C, 0x07, 0x2A, 0, 0, 0] :=
  ⟨none, wired_telegram _ _ (.rspUd false false) (.primary 1) (by decide +kernel)⟩

/-! ## C87: transport header fields -/

/-- C87: access number, status and configuration of a long header are shown as received. -/
theorem C87_long (cfg : Cfg) (aes : AesBlock) (data : List UInt8) (options : DecodeOptions)
    (o : DecodedOutput) (h : decodeBytes cfg aes data options = .ok o) (link : Option ManufacturerId)
    (reversed : Bool) (i0 i1 i2 i3 m0 m1 version device acc st c0 c1 : UInt8) (block : List UInt8)
    (ht : Telegram data link
      ([longCi reversed, i0, i1, i2, i3, m0, m1, version, device, acc, st, c0, c1] ++ block))
    (hb : AllBcd [i0, i1, i2, i3]) :
    o.transport = ⟨some "long_tpl".toList, [("tpl.long".toList, acc)],
      [⟨"tpl.long".toList, hexString [st], statusDisplay st⟩],
      some ("tpl.long".toList, hexString [c1, c0]), none⟩ := by
  have hm := (telegram_output cfg aes data options o h link _ ht).2 _
    (Block.long reversed i0 i1 i2 i3 m0 m1 version device acc st c0 c1 block hb)
  have hm1 : o.transport = (meterAndTransport _ link).2 := congrArg Prod.snd hm
  rw [hm1]
  simp only [meterAndTransport, addShortTransport, TransportOutput.empty, hex4_bytes, Option.map_none,
    List.nil_append]

/-- C87: access number, status and configuration of a short header are shown as received. -/
theorem C87_short (cfg : Cfg) (aes : AesBlock) (data : List UInt8) (options : DecodeOptions)
    (o : DecodedOutput) (h : decodeBytes cfg aes data options = .ok o) (link : Option ManufacturerId)
    (ci acc st c0 c1 : UInt8) (block : List UInt8) (hci : isShortCi ci)
    (ht : Telegram data link ([ci, acc, st, c0, c1] ++ block)) :
    o.transport = ⟨some "short_tpl".toList, [("tpl.short".toList, acc)],
      [⟨"tpl.short".toList, hexString [st], statusDisplay st⟩],
      some ("tpl.short".toList, hexString [c1, c0]), none⟩ := by
  have hm := (telegram_output cfg aes data options o h link _ ht).2 _
    (Block.short ci acc st c0 c1 block hci)
  have hm1 : o.transport = (meterAndTransport _ link).2 := congrArg Prod.snd hm
  rw [hm1]
  simp [meterAndTransport, addShortTransport, TransportOutput.empty, hex4_bytes]

/-- C87: the fields of an extended link layer with a session number are shown as received. -/
theorem C87_ell (cfg : Cfg) (aes : AesBlock) (data : List UInt8) (options : DecodeOptions)
    (o : DecodedOutput) (h : decodeBytes cfg aes data options = .ok o) (link : Option ManufacturerId)
    (cc acc s0 s1 s2 s3 r0 r1 : UInt8) (block : List UInt8)
    (ht : Telegram data link ([0x8D, cc, acc, s0, s1, s2, s3, r0, r1] ++ block)) :
    o.transport = ⟨some "ell".toList, [("ell".toList, acc)], [], none,
      some ⟨hexString [cc], acc, none, none, some (hexString [s0, s1, s2, s3]),
        some (hexString [r1, r0])⟩⟩ := by
  have h0 : (⟨0⟩ : ConfigurationField).securityMode = .noEncryption := by decide
  have hm := (telegram_output cfg aes data options o h link _ ht).2 _
    (Block.ellII cc acc s0 s1 s2 s3 r0 r1 block)
  have hm1 : o.transport = (meterAndTransport _ link).2 := congrArg Prod.snd hm
  rw [hm1]
  simp [meterAndTransport, TransportOutput.empty, hex4_bytes, ellOutput, h0]

/-- C87: likewise with the receiver's address. -/
theorem C87_ell_receiver (cfg : Cfg) (aes : AesBlock) (data : List UInt8) (options : DecodeOptions)
    (o : DecodedOutput) (h : decodeBytes cfg aes data options = .ok o) (link : Option ManufacturerId)
    (cc acc m0 m1 a0 a1 a2 a3 a4 a5 s0 s1 s2 s3 r0 r1 : UInt8) (block : List UInt8)
    (ht : Telegram data link
      ([0x8E, cc, acc, m0, m1, a0, a1, a2, a3, a4, a5, s0, s1, s2, s3, r0, r1] ++ block)) :
    o.transport = ⟨some "ell".toList, [("ell".toList, acc)], [], none,
      some ⟨hexString [cc], acc, some (hexString [m1, m0]), some (hexString [a0, a1, a2, a3, a4, a5]),
        some (hexString [s0, s1, s2, s3]), some (hexString [r1, r0])⟩⟩ := by
  have h0 : (⟨0⟩ : ConfigurationField).securityMode = .noEncryption := by decide
  have hm := (telegram_output cfg aes data options o h link _ ht).2 _
    (Block.ellIII cc acc m0 m1 a0 a1 a2 a3 a4 a5 s0 s1 s2 s3 r0 r1 block)
  have hm1 : o.transport = (meterAndTransport _ link).2 := congrArg Prod.snd hm
  rw [hm1]
  simp [meterAndTransport, TransportOutput.empty, hex4_bytes, ellOutput, h0]

/-- C87: an extended link layer I before a block without transport header, and before a short header. -/
theorem C87_ell_one (cfg : Cfg) (aes : AesBlock) (data : List UInt8) (options : DecodeOptions)
    (o : DecodedOutput) (h : decodeBytes cfg aes data options = .ok o) (link : Option ManufacturerId)
    (cc acc : UInt8) (inner : List UInt8) (ht : Telegram data link ([0x8C, cc, acc] ++ inner)) :
    (∀ block, inner = [0x78] ++ block →
      o.transport = ⟨some "ell".toList, [("ell".toList, acc)], [], none,
        some ⟨hexString [cc], acc, none, none, none, none⟩⟩) ∧
    ∀ ci acc' st c0 c1 block, isShortCi ci → inner = [ci, acc', st, c0, c1] ++ block →
      o.transport = ⟨some "short_tpl".toList, [("tpl.short".toList, acc')],
        [⟨"tpl.short".toList, hexString [st], statusDisplay st⟩],
        some ("tpl.short".toList, hexString [c1, c0]),
        some ⟨hexString [cc], acc, none, none, none, none⟩⟩ := by
  have key := (telegram_output cfg aes data options o h link _ ht).2
  constructor
  · rintro block rfl
    have hm := key _ (Block.ellI cc acc _ _ _ (Block.noTpl block) rfl)
    have hm1 : o.transport = (meterAndTransport _ link).2 := congrArg Prod.snd hm
    rw [hm1]
    simp [meterAndTransport, TransportOutput.empty, ellOutput]
  · rintro ci acc' st c0 c1 block hci rfl
    have hm := key _ (Block.ellI cc acc _ _ _ (Block.short ci acc' st c0 c1 block hci) rfl)
    have hm1 : o.transport = (meterAndTransport _ link).2 := congrArg Prod.snd hm
    rw [hm1]
    simp [meterAndTransport, addShortTransport, TransportOutput.empty, hex4_bytes, ellOutput]

/-! ## C88: enrichment -/

/-- C88: the registry names every code once, and every code is three capital letters. -/
theorem C88_registry : (manufacturerTable.map (·.1)).Nodup ∧
    ∀ e ∈ manufacturerTable, ∃ a b c, IsLetter a ∧ IsLetter b ∧ IsLetter c ∧
      e.1.toList = letterText a b c := by
  refine ⟨by decide +kernel, ?_⟩
  have key : ∀ e ∈ manufacturerTable, ∃ a < 27, ∃ b < 27, ∃ c < 27, (0 < a ∧ 0 < b ∧ 0 < c) ∧
      e.1.toList = letterText a b c := by
    have h2 : ∀ e ∈ manufacturerTable, (match e.1.toList with
      | [x, y, z] => decide ((65 ≤ x.toNat ∧ x.toNat ≤ 90) ∧ (65 ≤ y.toNat ∧ y.toNat ≤ 90) ∧
          (65 ≤ z.toNat ∧ z.toNat ≤ 90))
      | _ => false) = true := by decide +kernel
    intro e he
    have := h2 e he
    split at this
    · rename_i x y z heq
      have hx := of_decide_eq_true this
      refine ⟨x.toNat - 64, by omega, y.toNat - 64, by omega, z.toNat - 64, by omega, by omega, ?_⟩
      rw [heq, letterText, Nat.add_sub_cancel' (by omega), Nat.add_sub_cancel' (by omega),
        Nat.add_sub_cancel' (by omega), Char.ofNat_toNat, Char.ofNat_toNat, Char.ofNat_toNat]
    · cases this
  intro e he
  obtain ⟨a, ha, b, hb, c, hc, h1, h2⟩ := key e he
  exact ⟨a, b, c, ⟨h1.1, by omega⟩, ⟨h1.2.1, by omega⟩, ⟨h1.2.2, by omega⟩, h2⟩

theorem lookup_some_iff {β : Type} (l : List (String × β)) (hn : (l.map (·.1)).Nodup) (k : String) (v : β) :
    l.lookup k = some v ↔ (k, v) ∈ l := by
  induction l with
  | nil => simp
  | cons e l ih =>
    obtain ⟨k', v'⟩ := e
    simp only [List.map_cons, List.nodup_cons] at hn
    rw [List.lookup_cons]
    by_cases hk : k = k'
    · subst hk
      simp only [beq_self_eq_true, List.mem_cons, Prod.mk.injEq, true_and, Option.some.injEq]
      constructor
      · intro h; exact Or.inl h.symm
      · rintro (h | h)
        · exact h.symm
        · exact absurd (List.mem_map.2 ⟨_, h, rfl⟩) hn.1
    · have : (k == k') = false := by simpa using hk
      simp [this, ih hn.2, hk]

/-- C88: the enrichment section is exactly the registry's entry for the shown manufacturer; it is
missing if it is not wanted, if no manufacturer is shown, or if the registry has no entry. -/
theorem C88_enrichment (cfg : Cfg) (aes : AesBlock) (data : List UInt8) (options : DecodeOptions)
    (o : DecodedOutput) (h : decodeBytes cfg aes data options = .ok o) (e : EnrichmentOutput) :
    o.enrichment = some e ↔
      options.includeEnrichment = true ∧ e.source = "bundled_manufacturer_registry".toList ∧
      (∃ i, o.meter.identity = some i ∧ i.manufacturerCode = some e.manufacturerCode) ∧
      (String.ofList e.manufacturerCode, e.info) ∈ manufacturerTable := by
  have hen : o.enrichment = if options.includeEnrichment then
      (o.meter.identity.bind (·.manufacturerCode)).bind enrichmentFor else none := by
    have hdc := decoding cfg aes data options
    rw [h] at hdc
    generalize hr : Res.ok o = r at hdc
    cases hdc with
    | empty h => cases hr
    | crash h => cases hr
    | wired g m =>
      obtain ⟨_, _, _, _, _, _, _, _, _, _, _, _, _, _, h⟩ := finish_ok _ _ _ _ _ _ _ _ _ _ _ _ hr.symm
      exact h
    | wireless f m frame =>
      obtain ⟨_, _, _, _, _, _, _, _, _, _, _, _, _, _, h⟩ := finish_ok _ _ _ _ _ _ _ _ _ _ _ _ hr.symm
      exact h
    | neither => cases hr
  rw [hen]
  cases options.includeEnrichment
  · simp
  simp only [if_true, Option.bind_eq_some_iff, enrichmentFor, lookupManufacturer, true_and,
    Option.map_eq_some_iff, lookup_some_iff _ C88_registry.1]
  constructor
  · rintro ⟨code, ⟨i, hi, hc⟩, info, hm, rfl⟩
    exact ⟨rfl, ⟨i, hi, hc⟩, hm⟩
  · rintro ⟨h1, ⟨i, hi, hc⟩, hm⟩
    refine ⟨_, ⟨i, hi, hc⟩, _, hm, ?_⟩
    cases e
    simp only at h1
    rw [h1]

/-- The section occurs. -/
example : (match decodeBytes cfgRelease (fun _ b => b)
      (wirelessFrame [0x7A, 0x2A, 0, 0, 0]) ⟨none, true⟩ with
    | .ok o => o.enrichment.map (·.manufacturerCode)
    | _ => none) = some "GWF".toList := by decide +kernel

end MBus
