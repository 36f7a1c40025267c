import Verif.Props.Formats
/-! What the codes of errors say. -/
namespace MBus
open MBus.Spec MBus.Xml

/-- C118: for every format the text is read first: a text without bytes is reported as empty, and one that is
no spelling of bytes as invalid, with the position of the error.  The two have different codes. -/
theorem C118_input (cfg : Cfg) (env : FrontEnv) (aes : AesBlock) (input : List Char) (format : OutputFormat)
    (options : RenderOptions) :
    (NoBytes input → ∃ e, renderHex cfg env aes input format options = .err e ∧ e.code = "input.empty".toList ∧
      e.layer = "input".toList ∧ e.byteOffset = none) ∧
    (¬ NoBytes input → (∀ bytes, ¬ Spelled input bytes) →
      ∃ e i, renderHex cfg env aes input format options = .err e ∧ e.code = "input.invalid_hex".toList ∧
        e.layer = "input".toList ∧ e.byteOffset = some i ∧ ∃ t, Trimmed input t ∧
        (((∀ c ∈ t, (hexDigit c).isSome) ∧ t.length % 2 = 1 ∧ i + 1 = t.length) ∨ BadToken t i)) ∧
    ∀ bytes, Spelled input bytes →
      renderHex cfg env aes input format options = renderBytes cfg env aes bytes format options := by
  unfold renderHex
  refine ⟨fun h => ?_, fun h1 h2 => ?_, fun bytes h => ?_⟩
  · rw [(C43_empty_iff input).2 h]; exact ⟨_, rfl, rfl, rfl, rfl⟩
  · cases hd : decodeHexBytes input with
    | panic => exact absurd hd (C43_total input).1
    | ok bytes => exact absurd ((decode_iff _ _).1 hd) (h2 bytes)
    | err e =>
      cases e with
      | emptyInput => exact absurd ((C43_empty_iff input).1 hd) h1
      | invalidHex i => exact ⟨_, i, rfl, rfl, rfl, rfl, C43_position input i hd⟩
  · rw [(decode_iff _ _).2 h]; rfl

theorem recovered_encrypted {aes : AesBlock} {k : List UInt8} {link : Option ManufacturerId} {blk : UserDataBlock}
    {plain : List UInt8} (h : Recovered aes k link blk plain) : userDataIsEncrypted (some blk) = true := by
  cases h with
  | long ell h block code iv _ _ h2 _ =>
    exact (not_encrypted_mode _).2 (by rcases h2 with h2 | h2 <;> omega)
  | short ell h block id iv _ _ h2 _ =>
    exact (not_encrypted_mode _).2 (by rcases h2 with h2 | h2 <;> omega)

/-- When the key is refused. -/
theorem prepare_err_iff (aes : AesBlock) (haes : BlockSized aes) (payload : List UInt8) (blk : UserDataBlock)
    (hl : payload.length ≤ 256) (hb : Block payload blk) (link : Option ManufacturerId)
    (hid : ∀ id, link = some id → id.identificationNumber < 2 ^ 32) (key : Option (List UInt8))
    (hkey : ∀ k, key = some k → k.length = 16) :
    (∃ e, prepareSecurity aes (some blk) link key (List.replicate 512 0) = .err e) ↔
      Secured blk ∧ ∃ k, key = some k ∧ ∀ plain, ¬ Recovered aes k link blk plain := by
  have hvl : (variableData blk).length ≤ 512 := by
    by_cases hv : variableData blk = []
    · simp [hv]
    · obtain ⟨header, rfl, _⟩ := block_header hb hv
      simp at hl; omega
  by_cases hs : Secured blk
  · cases key with
    | none => rw [prepareSecurity_no_key]; simp
    | some k =>
      have hk := hkey k rfl
      obtain ⟨i1, i2⟩ := decryptWithKey_iff aes haes k hk blk link (List.replicate 512 0)
        (by rw [List.length_replicate]; exact hvl) (blockNumber_lt hb) hid
      by_cases henc : userDataIsEncrypted (some blk) = true
      · have hw := decrypt_same aes blk link k (List.replicate 512 0) henc
        rw [prepare_decrypts _ _ _ _ _ henc]
        generalize List.replicate 512 (0 : UInt8) = out at *
        rcases hd' : decryptUserData aes blk link k out with ⟨r, out'⟩
        rw [hd'] at hw
        simp only [hs, true_and]
        constructor
        · rintro ⟨e, he⟩
          refine ⟨k, rfl, fun plain hr => ?_⟩
          obtain ⟨o, h1, h2⟩ := i2 plain hr
          rw [h1] at hw
          cases r with
          | panic => simp [Res.mapErr] at hw
          | err e => simp [Res.mapErr] at hw
          | ok len =>
            simp only [Res.mapErr, Prod.mk.injEq, Res.ok.injEq] at hw
            obtain ⟨rfl, rfl⟩ := hw
            simp [h2] at he
        · rintro ⟨k', hk', hn⟩
          cases hk'
          cases r with
          | panic => exact absurd (by rw [hw]; rfl) (decryptWithKey_key aes k blk link out).1
          | err e => exact ⟨_, rfl⟩
          | ok len =>
            obtain ⟨plain, h1, -⟩ := i1 len out' hw
            exact absurd h1 (hn plain)
      · constructor
        · intro _
          exact ⟨hs, k, rfl, fun plain hr => henc (recovered_encrypted hr)⟩
        · intro _
          cases hp : prepareSecurity aes (some blk) link (some k) (List.replicate 512 0) with
          | err e => exact ⟨e, rfl⟩
          | panic => exact absurd hp (prepare_no_panic _ _ _ _ _)
          | ok c =>
            obtain ⟨c1, -, -, c2, c3⟩ := context _ _ _ _ _ _ hp
            have he : c.encrypted = true := by rw [c1]; exact (secured_iff blk).1 hs
            cases hd : c.decrypted with
            | false => exact absurd ((c2 hd).2 he) (by simp)
            | true => exact absurd (c3 hd).2.1 henc
  · have hf : (securityFields (some blk)).1 = false := by rw [secured_iff] at hs; simpa using hs
    rw [prepareSecurity_clear _ _ _ _ _ hf]
    simp [hs]

theorem finish_refused {F : Type} (cfg : Cfg) (aes : AesBlock) (protocol : List Char) (frame : FrameOutput)
    (data normalized : List UInt8) (stripped : Bool) (payload : Option (List UInt8)) (parsed : MbusData F)
    (link : Option ManufacturerId) (options : DecodeOptions) (s : SecurityError) :
    finish cfg aes protocol frame data normalized stripped payload parsed link options = .err (.security s) ↔
      prepareSecurity aes parsed.userData link options.key (List.replicate 512 0) = .err s := by
  constructor
  · intro h
    obtain ⟨s', h1, h2⟩ := finish_err _ _ _ _ _ _ _ _ _ _ _ _ h
    cases h1
    exact h2
  · intro h
    unfold finish
    rw [h]

theorem payload_refused {ε F : Type} (aes : AesBlock) (haes : BlockSized aes) (frame : F)
    (m : MbusData F) (payload : List UInt8) (hl : payload.length ≤ 256)
    (hm : (MbusData.ofPayload frame payload : Res ε _) = .ok m) (link : Option ManufacturerId)
    (hid : ∀ id, link = some id → id.identificationNumber < 2 ^ 32) (key : Option (List UInt8))
    (hkey : ∀ k, key = some k → k.length = 16) :
    (∃ e, prepareSecurity aes m.userData link key (List.replicate 512 0) = .err e) ↔
      ∃ blk k, Block payload blk ∧ Secured blk ∧ key = some k ∧ ∀ plain, ¬ Recovered aes k link blk plain := by
  unfold MbusData.ofPayload at hm
  cases hx : UserDataBlock.tryFrom payload with
  | panic => rw [hx] at hm; cases hm
  | err e =>
    rw [hx] at hm
    cases hm
    rw [prepareSecurity_clear _ _ _ _ _ rfl]
    simp only [reduceCtorEq, exists_false, false_iff]
    rintro ⟨blk, k, hb, -⟩
    rw [← C32_accepts_iff, hx] at hb
    cases hb
  | ok blk =>
    rw [hx] at hm
    cases hm
    have hb := (C32_accepts_iff _ _).1 hx
    rw [prepare_err_iff aes haes payload blk hl hb link hid key hkey]
    constructor
    · rintro ⟨h, k, h'⟩
      exact ⟨blk, k, hb, h, h'⟩
    · rintro ⟨blk', k, hb', h, h'⟩
      rw [← C32_accepts_iff, hx] at hb'
      cases hb'
      exact ⟨h, k, h'⟩

/-- C118: decoding fails for the sake of security exactly for a telegram with encrypted data and a key with
which they cannot be decrypted. -/
theorem C118_security_iff (cfg : Cfg) (aes : AesBlock) (haes : BlockSized aes) (data : List UInt8)
    (options : DecodeOptions) (hkey : ∀ k, options.key = some k → k.length = 16) :
    (∃ e, decodeBytes cfg aes data options = .err (.security e)) ↔
      ∃ link payload blk k, Telegram data link payload ∧ Block payload blk ∧ Secured blk ∧
        options.key = some k ∧ ∀ plain, ¬ Recovered aes k link blk plain := by
  have hd := decoding cfg aes data options
  generalize decodeBytes cfg aes data options = r at hd
  cases hd with
  | empty h =>
    subst h
    simp only [Res.err.injEq, reduceCtorEq, exists_false, false_iff]
    rintro ⟨link, payload, blk, k, ht, -⟩
    cases ht with
    | wired fn address _ h => exact wired_nonempty h rfl
    | wireless f frame h1 h2 h3 =>
      cases h2 with
      | stripped _ h => simp at h
      | asIs => cases h3
  | crash h =>
    simp only [reduceCtorEq, exists_false, false_iff]
    rintro ⟨link, payload, blk, k, ht, -⟩
    cases ht with
    | wired fn address _ h' =>
      rw [← C01_wired_accepts_exactly_telegrams cfg, h] at h'
      cases h'
    | wireless f frame h1 h2 h3 =>
      obtain ⟨-, h4, h5⟩ := (C04_wired_panics_iff cfg data).1 h
      cases h2 with
      | stripped _ h => omega
      | asIs => cases h3; simp at h5
  | wired g m h1 h2 h3 h4 =>
    have hx := (C01_wired_accepts_exactly_telegrams cfg data g).2 h2
    simp only [finish_refused]
    have only : ∀ link payload, Telegram data link payload → link = none ∧ ∃ fn address, g = .longFrame fn address payload := by
      intro link payload ht
      cases ht with
      | wired fn address _ h => exact ⟨rfl, fn, address, wired_unique h2 h⟩
      | wireless f frame h => exact absurd h2 (h g)
    unfold MbusData.tryFromWired at h4
    rw [hx, Res.bind_ok] at h4
    have short : (∀ fn address payload, g ≠ .longFrame fn address payload) → m.userData = none →
        ((∃ e, prepareSecurity aes m.userData none options.key (List.replicate 512 0) = .err e) ↔
      ∃ link payload blk k, Telegram data link payload ∧ Block payload blk ∧ Secured blk ∧
        options.key = some k ∧ ∀ plain, ¬ Recovered aes k link blk plain) := by
      intro hn hu
      constructor
      · rintro ⟨e, h⟩
        rw [hu, prepareSecurity_clear _ _ _ _ _ rfl] at h
        cases h
      · rintro ⟨link, payload, blk, k, ht, -⟩
        obtain ⟨-, fn, address, hg⟩ := only _ _ ht
        exact absurd hg (hn _ _ _)
    cases g with
    | longFrame fn address payload =>
      simp only at h4
      have hl : payload.length ≤ 256 := by
        cases h2 with
        | long x c a _ fn _ _ hl => omega
      rw [payload_refused aes haes _ m payload hl h4 none (by simp) options.key hkey]
      constructor
      · rintro ⟨blk, k, h⟩
        exact ⟨none, payload, blk, k, .wired fn address payload h2, h⟩
      · rintro ⟨link, payload', blk, k, ht, h⟩
        obtain ⟨rfl, fn', address', hg⟩ := only _ _ ht
        cases hg
        exact ⟨blk, k, h⟩
    | _ => cases h4; exact short (by simp) rfl
  | wireless f m frame h1 h2 h3 h4 h5 h6 =>
    obtain ⟨hc, hid⟩ := wireless_carried frame m h6
    simp only [finish_refused]
    have only : ∀ link payload, Telegram data link payload → link = some f.manufacturerId ∧ payload = f.data := by
      intro link payload ht
      cases ht with
      | wired fn address _ h => exact absurd h (h2 _)
      | wireless f' frame' g1 g2 g3 =>
        cases normalized_unique h3 g2
        cases wireless_unique h4 g3
        exact ⟨rfl, rfl⟩
    have hx := (C12_wireless_accepts_exactly_telegrams frame f).2 h4
    unfold MbusData.tryFromWireless at h6
    rw [hx, Res.bind_ok] at h6
    have hl : f.data.length ≤ 256 := by
      obtain ⟨link, crc, _, g2, _, g3, _, g4⟩ := wireless_parts h4
      have := congrArg List.length g2
      simp only [List.length_append] at this
      omega
    subst h5
    rw [payload_refused aes haes _ m _ hl h6 (some m.frame.manufacturerId) (by simpa using hid) options.key hkey]
    constructor
    · rintro ⟨blk, k, h⟩
      exact ⟨_, _, blk, k, .wireless m.frame frame h2 h3 h4, h⟩
    · rintro ⟨link, payload', blk, k, ht, h⟩
      obtain ⟨rfl, rfl⟩ := only _ _ ht
      exact ⟨blk, k, h⟩
  | neither a b frame h1 h2 h3 h4 h5 =>
    simp only [Res.err.injEq, reduceCtorEq, exists_false, false_iff]
    rintro ⟨link, payload, blk, k, ht, -⟩
    cases ht with
    | wired fn address _ h => exact h2 _ h
    | wireless f frame' g1 g2 g3 =>
      cases normalized_unique h3 g2
      exact h4 _ g3

theorem cbc_modes (c : ConfigurationField) (h : modeNumber c = 5 ∨ modeNumber c = 7) :
    c.securityMode = .aesCbc128IvZero ∨ c.securityMode = .aesCbc128IvNonZero := by
  rw [C10_security_mode_names]
  unfold modeNumber at h
  rcases h with h | h <;> rw [h]
  · exact .inr rfl
  · exact .inl rfl

theorem refusal (aes : AesBlock) (blk : UserDataBlock) (link : Option ManufacturerId) (k out : List UInt8)
    (hk : k.length = 16) (e : DecryptionError) (h : (decryptUserData aes blk link k out).1 = .err e) :
    (∃ m, e = .unsupportedMode m ∧ ¬ CbcMode blk) ∨
      ((∀ m, e ≠ .unsupportedMode m) ∧ e ≠ .invalidKeyLength) := by
  have main : ∀ getKey ctx data, getKey ctx = .ok k → (decryptInto aes getKey ctx data out).1 = .err e →
      (∃ m, e = .unsupportedMode m ∧
        ¬ (ctx.securityMode = .aesCbc128IvZero ∨ ctx.securityMode = .aesCbc128IvNonZero)) ∨
      ((∀ m, e ≠ .unsupportedMode m) ∧ e ≠ .invalidKeyLength) := by
    intro getKey ctx data hg h
    rw [C39_decrypt_result, hg] at h
    simp only [hk, ne_eq, not_true_eq_false, if_false] at h
    split at h
    · split at h <;> cases h
      exact .inr (by simp)
    · split at h
      · split at h
        · cases h; exact .inr (by simp)
        · split at h <;> cases h
          exact .inr (by simp)
      · rename_i hm
        cases h
        exact .inl ⟨_, rfl, hm⟩
  cases blk with
  | long ell header block =>
    simp only [decryptUserData] at h
    cases hm : header.manufacturer with
    | ok code =>
      obtain ⟨p, h1, h2⟩ := static_key code.toId (UInt32.ofNat header.identificationNumber) k
      rw [hm] at h
      simp only [h1, UserDataBlock.decryptVariableData, hm] at h
      split at h
      · cases h; exact .inr (by simp)
      · rcases main _ _ _ (by exact h2 _ rfl rfl) h with ⟨m, h3, h4⟩ | h
        · exact .inl ⟨m, h3, fun hc => h4 (cbc_modes _ hc)⟩
        · exact .inr h
    | err e' => rw [hm] at h; cases h; exact .inr (by simp)
    | panic => rw [hm] at h; cases h; exact .inr (by simp)
  | short ell header block =>
    simp only [decryptUserData] at h
    split at h
    · rename_i hn
      cases h
      exact .inl ⟨_, rfl, fun hc => by have := cbc_modes _ hc; rw [hn] at this; simp at this⟩
    · cases link with
      | none => cases h; exact .inr (by simp)
      | some id =>
        obtain ⟨p, h1, h2⟩ := static_key id.manufacturerCode.toId (UInt32.ofNat id.identificationNumber) k
        simp only [h1, UserDataBlock.decryptVariableDataWithContext] at h
        split at h
        · cases h; exact .inr (by simp)
        · rcases main _ _ _ (by exact h2 _ rfl rfl) h with ⟨m, h3, h4⟩ | h
          · exact .inl ⟨m, h3, fun hc => h4 (cbc_modes _ hc)⟩
          · exact .inr h
  | _ => cases h; exact .inr (by simp)

theorem prepare_code (aes : AesBlock) (blk : UserDataBlock) (link : Option ManufacturerId)
    (key : Option (List UInt8)) (out : List UInt8) (hkey : ∀ k, key = some k → k.length = 16) (e : SecurityError)
    (h : prepareSecurity aes (some blk) link key out = .err e) :
    ((OutputError.security e).failure.code = "security.unsupported_mode".toList ∧ ¬ CbcMode blk) ∨
      (OutputError.security e).failure.code = "security.decryption_failed".toList := by
  cases key with
  | none => rw [prepareSecurity_no_key] at h; cases h
  | some k =>
    by_cases henc : userDataIsEncrypted (some blk) = true
    · rw [prepare_decrypts _ _ _ _ _ henc] at h
      have hr := refusal aes blk link k out (hkey k rfl)
      rcases hd : decryptUserData aes blk link k out with ⟨r, o⟩
      rw [hd] at h hr
      cases r with
      | panic => cases h
      | ok len =>
        simp only at h
        cases hs : sliceTo? o len with
        | none => rw [hs] at h; cases h; exact .inr rfl
        | some x => rw [hs] at h; cases h
      | err e' =>
        simp only [Res.err.injEq] at h
        subst h
        rcases hr e' rfl with ⟨m, rfl, h1⟩ | ⟨h1, h2⟩
        · exact .inl ⟨rfl, h1⟩
        · right
          cases e' with
          | unsupportedMode m => exact absurd rfl (h1 m)
          | invalidKeyLength => exact absurd rfl h2
          | _ => rfl
    · have : ¬ CbcMode blk := by
        intro hc
        apply henc
        cases blk with
        | long ell header block =>
          exact (not_encrypted_mode _).2 (by rcases hc with hc | hc <;> omega)
        | short ell header block =>
          exact (not_encrypted_mode _).2 (by rcases hc with hc | hc <;> omega)
        | _ => cases hc
      left
      refine ⟨?_, this⟩
      unfold prepareSecurity at h
      rcases hs : securityFields (some blk) with ⟨enc, mode, ell⟩
      rw [hs] at h
      cases enc with
      | false => cases h
      | true =>
        simp only at h
        split at h
        · cases h; rfl
        · rename_i hn
          exfalso
          apply henc
          have hf : (securityFields (some blk)).1 = true := by rw [hs]
          cases blk with
          | short ell' header block =>
            simp only [securityFields] at hs hf
            split at hs
            · cases hs; simp at hn
            · rename_i hx; rw [if_neg hx] at hf; exact hf
          | long ell' header block => exact hf
          | _ => cases hf

/-- C118: an error of a structured format names its cause: the bytes are no telegram, the data are encrypted
and the key does not decrypt them, or the table is too narrow.  If the mode is said to be unsupported, it is
neither mode 5 nor mode 7. -/
theorem C118_cause (cfg : Cfg) (env : FrontEnv) (aes : AesBlock) (haes : BlockSized aes) (bytes : List UInt8)
    (hne : bytes ≠ []) (format : OutputFormat)
    (hf : format = .json ∨ format = .csv ∨ format = .mermaid ∨ format = .table) (options : RenderOptions)
    (hkey : ∀ k, options.decode.key = some k → k.length = 16)
    (e : Failure) (h : renderBytes cfg env aes bytes format options = .err e) :
    (e.code = "frame.invalid".toList ∧ e.layer = "link".toList ∧ NoTelegram bytes) ∨
    (e.layer = "security".toList ∧ ∃ link payload blk k, Telegram bytes link payload ∧ Block payload blk ∧
      Secured blk ∧ options.decode.key = some k ∧ (∀ plain, ¬ Recovered aes k link blk plain) ∧
      (e.code = "security.unsupported_mode".toList ∧ ¬ CbcMode blk ∨
        e.code = "security.decryption_failed".toList)) ∨
    (e.code = "option.invalid".toList ∧ e.layer = "render".toList ∧ format = .table ∧
      options.tableWidth.getD 100 < 32 ∧ ∃ o, decodeBytes cfg aes bytes options.decode = .ok o) := by
  obtain ⟨s1, s2, s3⟩ := C116_structured cfg env aes bytes options format hf
  cases hd : decodeBytes cfg aes bytes options.decode with
  | panic => rw [s2 hd] at h; cases h
  | ok o =>
    have := s3 o hd
    split at this
    · rename_i hw
      rw [this] at h
      cases h
      exact .inr (.inr ⟨rfl, rfl, hw.1, hw.2, o, rfl⟩)
    · obtain ⟨text, ht⟩ := this
      rw [ht] at h
      cases h
  | err e' =>
    rw [s1 e' hd] at h
    cases h
    cases e' with
    | emptyInput => exact absurd ((C83_empty_iff cfg aes bytes options.decode).1 hd) hne
    | invalidFrame a b =>
      exact .inl ⟨rfl, rfl, ((C83_invalid_iff cfg aes bytes options.decode).1 ⟨a, b, hd⟩).2.1⟩
    | security s =>
      right; left
      refine ⟨by cases s <;> rfl, ?_⟩
      obtain ⟨link, payload, blk, k, ht, hb, hs, hk, hn⟩ :=
        (C118_security_iff cfg aes haes bytes options.decode hkey).1 ⟨s, hd⟩
      refine ⟨link, payload, blk, k, ht, hb, hs, hk, hn, ?_⟩
      have hp : prepareSecurity aes (some blk) link options.decode.key (List.replicate 512 0) = .err s := by
        obtain ⟨protocol, frame, normalized, stripped, hx⟩ := decode_telegram cfg aes bytes link payload ht
        rw [hx, (C32_accepts_iff _ _).2 hb] at hd
        exact (finish_refused _ _ _ _ _ _ _ _ _ _ _ _).1 hd
      rcases prepare_code aes blk link options.decode.key _ hkey s hp with h | h
      · exact .inl h
      · exact .inr h

/-- An invalid frame, a mode that is not supported, encrypted data of which there are none, and a narrow
table. -/
example (cfg : Cfg) (env : FrontEnv) (aes : AesBlock) :
    (∃ e, renderBytes cfg env aes [0x10, 0x40, 0x01] .json ⟨⟨none, true⟩, none⟩ = .err e ∧
      e.code = "frame.invalid".toList) ∧
    (∃ e, renderBytes cfg env aes (olderWired 8 [1, 2, 3]) .csv ⟨⟨some (List.replicate 16 7), true⟩, none⟩ = .err e ∧
      e.code = "security.unsupported_mode".toList) ∧
    (∃ e, renderBytes cfg env aes (olderWired 5 []) .csv ⟨⟨some (List.replicate 16 7), true⟩, none⟩ = .err e ∧
      e.code = "security.decryption_failed".toList) ∧
    ∃ e, renderBytes cfg env aes [0xE5] .table ⟨⟨none, true⟩, some 31⟩ = .err e ∧
      e.code = "option.invalid".toList := by
  obtain ⟨oc, tf⟩ := cfg
  cases oc <;> cases tf <;>
    exact ⟨⟨_, by with_unfolding_all rfl, rfl⟩, ⟨_, by with_unfolding_all rfl, rfl⟩,
      ⟨_, by with_unfolding_all rfl, rfl⟩, _, by with_unfolding_all rfl, rfl⟩

/-- A text without bytes, and one that is no spelling. -/
example : NoBytes " -:".toList ∧ ¬ NoBytes "0G".toList ∧ ∀ bytes, ¬ Spelled "0G".toList bytes := by
  refine ⟨(C43_empty_iff _).1 (by decide +kernel), fun h => ?_, fun bytes h => ?_⟩
  · have := (C43_empty_iff _).2 h
    revert this; decide +kernel
  · have h1 := (decode_iff _ _).2 h
    have h2 : decodeHexBytes "0G".toList = .err (.invalidHex 0) := by decide +kernel
    rw [h2] at h1; cases h1

/-- C118 fails for positions: they count from the first character that is not white space. -/
theorem C118_position_fails (cfg : Cfg) (env : FrontEnv) (aes : AesBlock) (format : OutputFormat)
    (options : RenderOptions) :
    ∃ input e, renderHex cfg env aes input format options = .err e ∧ e.byteOffset = some 0 ∧
      input.head? = some ' ' ∧ BadToken (input.drop 1) 0 := by
  have h : decodeHexBytes " 0G".toList = .err (.invalidHex 0) := by decide +kernel
  refine ⟨" 0G".toList, .invalidHex 0, by unfold renderHex; rw [h]; rfl, rfl, by decide +kernel, ?_⟩
  obtain ⟨t, h1, h2⟩ := C43_position _ _ h
  rw [trimmed_iff] at h1
  have : t = "0G".toList := by rw [← h1]; decide +kernel
  subst this
  rcases h2 with ⟨h2, -⟩ | h2
  · exact absurd h2 (by decide +kernel)
  · exact h2

/-- C118 fails for XML: whatever the cause, the code says that the telegram has no XML, and the layer is that
of the application. -/
theorem C118_xml_fails (cfg : Cfg) (env : FrontEnv) (aes : AesBlock) :
    (∀ data options e, renderBytes cfg env aes data .xml options = .err e →
      e.code = "xml.unsupported".toList ∧ e.layer = "application".toList ∧ e.byteOffset = none) ∧
    (∃ e, renderBytes cfg env aes [] .xml ⟨⟨none, true⟩, none⟩ = .err e) ∧
    (∃ e, renderBytes cfg env aes [0x10, 0x40, 0x01] .xml ⟨⟨none, true⟩, none⟩ = .err e) ∧
    ∃ e, renderBytes cfg env aes (olderWired 8 [1, 2, 3]) .xml ⟨⟨some (List.replicate 16 7), true⟩, none⟩ =
      .err e := by
  refine ⟨fun data options e h => ?_, ?_⟩
  · rw [xml_bytes] at h
    cases hx : renderFromBytes cfg env.xml aes data options.decode.key with
    | ok t => rw [hx] at h; cases h
    | panic => rw [hx] at h; cases h
    | err e' => rw [hx] at h; cases h; exact ⟨rfl, rfl, rfl⟩
  · obtain ⟨oc, tf⟩ := cfg
    cases oc <;> cases tf <;>
      exact ⟨⟨_, by with_unfolding_all rfl⟩, ⟨_, by with_unfolding_all rfl⟩, _, by with_unfolding_all rfl⟩

end MBus
