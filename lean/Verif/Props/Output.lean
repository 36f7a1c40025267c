import Verif.Lemmas.Output
/-!
# Properties of the telegram decoder `decode_bytes`
-/
namespace MBus
open Spec

/-! ## C53 -/

/-- An encrypted payload that is accepted and has no session number below an extended link layer I is
parsed to an encrypted block. -/
theorem encrypted_block (payload : List UInt8) (he : Encrypted payload) :
    ∀ blk, Block payload blk → ¬ HiddenSession payload → BlockEncrypted blk := by
  have noci : ∀ ci : UInt8, (ci = 0x73 ∨ ci = 0x77) → ¬ isShortCi ci ∧ ci ≠ 0xA0 := by
    intro ci h; rcases h with rfl | rfl <;> decide +kernel
  induction he with
  | long reversed i0 i1 i2 i3 m0 m1 version device acc st c0 c1 block hc =>
    intro blk hb _
    have hr := (C32_accepts_iff _ _).2 hb
    generalize hd : [longCi reversed, i0, i1, i2, i3, m0, m1, version, device, acc, st, c0, c1] ++ block
      = data at hb
    cases hb with
    | long r j0 j1 j2 j3 n0 n1 ver dev ac s d0 d1 bl h =>
      cases r <;> cases reversed <;> cases hd <;> simp only [BlockEncrypted, mode_bytes] <;> exact hc
    | fixed ci => rename_i h _ _ _; cases reversed <;> cases hd <;> exact absurd h (by decide)
    | short ci _ _ _ _ _ h => cases reversed <;> cases hd <;> exact absurd h (by decide +kernel)
    | _ => cases reversed <;> cases hd
  | short ci acc st c0 c1 block hci hc =>
    intro blk hb _
    rw [← C32_accepts_iff, (C32_accepts_iff _ _).2 (.short ci acc st c0 c1 block hci)] at hb
    cases hb
    simp only [BlockEncrypted, mode_bytes]
    exact Or.inl hc
  | shortA0 x acc st c0 c1 block hc =>
    intro blk hb _
    rw [← C32_accepts_iff, (C32_accepts_iff _ _).2 (.shortA0 x acc st c0 c1 block)] at hb
    cases hb
    simp only [BlockEncrypted, mode_bytes]
    exact Or.inl hc
  | ellII cc acc s0 s1 s2 s3 r0 r1 block =>
    intro blk hb _
    rw [← C32_accepts_iff, (C32_accepts_iff _ _).2 (.ellII cc acc s0 s1 s2 s3 r0 r1 block)] at hb
    cases hb
    exact Or.inr ⟨_, _, rfl, rfl⟩
  | ellIII cc acc m0 m1 a0 a1 a2 a3 a4 a5 s0 s1 s2 s3 r0 r1 block =>
    intro blk hb _
    rw [← C32_accepts_iff,
      (C32_accepts_iff _ _).2 (.ellIII cc acc m0 m1 a0 a1 a2 a3 a4 a5 s0 s1 s2 s3 r0 r1 block)] at hb
    cases hb
    exact Or.inr ⟨_, _, rfl, rfl⟩
  | ellI cc acc inner he ih =>
    intro blk hb hn
    have hn' : ¬ HiddenSession inner := by
      rintro ⟨hs, x, h1, h2, h3⟩
      exact hn ⟨(cc, acc) :: hs, x, by simp, by simp [h2, ellChain], h3⟩
    have hn2 : ¬ (inner.head? = some 0x8D ∨ inner.head? = some 0x8E) :=
      fun h => hn ⟨[(cc, acc)], inner, by simp, by simp [ellChain], h⟩
    generalize hd : [0x8C, cc, acc] ++ inner = data at hb
    cases hb with
    | long r => cases r <;> cases hd
    | fixed ci => rename_i h _ _ _; cases hd; exact absurd h (by decide)
    | short ci _ _ _ _ _ h => cases hd; exact absurd h (by decide +kernel)
    | ellI cc' acc' inner' blk0 _ hb0 hw =>
      cases hd
      have := ih blk0 hb0 hn'
      cases blk0 with
      | short ell h block =>
        simp only [withEll, Option.some.injEq] at hw
        subst hw
        simp only [BlockEncrypted] at this ⊢
        rcases this with h | ⟨e, s, h1, h2⟩
        · exact Or.inl h
        · exfalso
          cases hb0 with
          | ellII => simp at hn2
          | ellIII => simp at hn2
          | short => cases h1
          | shortA0 => cases h1
          | ellI cc2 acc2 inner2 blk2 _ hb2 hw2 =>
            cases blk2 <;> simp [withEll] at hw2
            obtain ⟨rfl, rfl, rfl⟩ := hw2
            cases h1
            cases h2
      | noTpl => exact absurd this (by simp [BlockEncrypted])
      | _ => simp [withEll] at hw
    | _ => cases hd

/-- C53, without a key: a telegram whose payload is encrypted decodes to an output without records that
says so: it is partial, the payload is reported as encrypted and shown as received, the missing key is
reported as a warning, and no plaintext is shown.  Missing: an extended link layer with a session number
below another extended link layer, see `C53_fails`; and payloads the library does not accept, see C91. -/
theorem C53_no_key_partial (cfg : Cfg) (aes : AesBlock) (data : List UInt8)
    (link : Option ManufacturerId) (payload : List UInt8) (enrich : Bool)
    (ht : Telegram data link payload) (he : Encrypted payload) (hb : ∃ blk, Block payload blk)
    (hn : ¬ HiddenSession payload) :
    ∃ o, decodeBytes cfg aes data ⟨none, enrich⟩ = .ok o ∧ o.records = [] ∧
      o.decodeState = "partial".toList ∧ o.security.payloadProtection = "encrypted".toList ∧
      o.security.decryptionState = "key_missing".toList ∧ o.security.keySupplied = false ∧
      o.security.encryptedPayloadHex = some (hexString payload) ∧
      o.security.decryptedPayloadHex = none ∧
      ∃ d ∈ o.diagnostics, d.severity = "warning".toList ∧ d.code = "security.key_missing".toList := by
  obtain ⟨blk, hb⟩ := hb
  have hbe := (securityFields_encrypted blk).2 (encrypted_block payload he blk hb hn)
  obtain ⟨protocol, frame, normalized, stripped, hdec⟩ := decode_telegram cfg aes data link payload ht
  rw [hdec, (C32_accepts_iff _ _).2 hb]
  simp only [finish, prepareSecurity_no_key, hbe]
  refine ⟨_, rfl, ?_, ?_, ?_, ?_, ?_, ?_, ?_, ⟨_, List.mem_cons_self .., ?_, ?_⟩⟩ <;>
    simp [recordOutputs]

/-- The hypotheses are met: a wired long frame with security mode 5. -/
example : Telegram (wiredLong [0x7A, 1, 0, 0x20, 0x05, 0x01, 0x13, 0x07]) none
      [0x7A, 1, 0, 0x20, 0x05, 0x01, 0x13, 0x07] ∧
    Encrypted [0x7A, 1, 0, 0x20, 0x05, 0x01, 0x13, 0x07] ∧
    (∃ blk, Block [0x7A, 1, 0, 0x20, 0x05, 0x01, 0x13, 0x07] blk) ∧
    ¬ HiddenSession [0x7A, 1, 0, 0x20, 0x05, 0x01, 0x13, 0x07] := by
  refine ⟨.wired (.rspUd false false) (.primary 1) _
    ((C01_wired_accepts_exactly_telegrams cfgRelease _ _).1 (by decide +kernel)),
    .short 0x7A 1 0 0x20 5 [1, 0x13, 7] (Or.inl rfl) (by decide),
    ⟨_, .short 0x7A 1 0 0x20 5 [1, 0x13, 7] (Or.inl rfl)⟩, ?_⟩
  rintro ⟨hs, inner, h1, h2, -⟩
  rcases hs with _ | ⟨h, hs⟩
  · exact h1 rfl
  · simp [ellChain] at h2

theorem prepareSecurity_any_aes (aes aes' : AesBlock) (ud : Option UserDataBlock)
    (link : Option ManufacturerId) (output : List UInt8) :
    prepareSecurity aes ud link none output = prepareSecurity aes' ud link none output := by
  unfold prepareSecurity
  rcases securityFields ud with ⟨_ | _, m, l⟩ <;> cases ud <;> rfl

/-- Without a key the block cipher does not matter. -/
theorem decode_any_aes (cfg : Cfg) (aes aes' : AesBlock) (data : List UInt8) (enrich : Bool) :
    decodeBytes cfg aes data ⟨none, enrich⟩ = decodeBytes cfg aes' data ⟨none, enrich⟩ := by
  unfold decodeBytes
  simp only [prepareSecurity_any_aes aes aes']

/-- C53 is false for nested extended link layers: what follows an extended link layer with a session
number is shown as clear records when an extended link layer I precedes it. -/
theorem C53_fails (cfg : Cfg) (aes : AesBlock) :
    ∃ data payload, Telegram data none payload ∧ Encrypted payload ∧ (∃ blk, Block payload blk) ∧
      ∃ o, decodeBytes cfg aes data ⟨none, true⟩ = .ok o ∧ o.records.length = 1 ∧
        o.decodeState = "complete".toList ∧ o.security.payloadProtection = "cleartext".toList ∧
        o.diagnostics = [] := by
  have hblk : Block ([0x8C, 1, 2] ++ ([0x8D, 3, 4, 5, 6, 7, 0x28, 8, 9] ++ [0x01, 0x13, 0x07])) _ :=
    .ellI 1 2 _ _ _ (.ellII 3 4 5 6 7 0x28 8 9 [0x01, 0x13, 0x07]) rfl
  refine ⟨wiredLong ([0x8C, 1, 2] ++ ([0x8D, 3, 4, 5, 6, 7, 0x28, 8, 9] ++ [0x01, 0x13, 0x07])),
    [0x8C, 1, 2] ++ ([0x8D, 3, 4, 5, 6, 7, 0x28, 8, 9] ++ [0x01, 0x13, 0x07]),
    .wired (.rspUd false false) (.primary 1) _
      ((C01_wired_accepts_exactly_telegrams cfgRelease _ _).1 (by decide +kernel)),
    .ellI 1 2 _ (.ellII 3 4 5 6 7 0x28 8 9 _), ⟨_, hblk⟩, ?_⟩
  rw [decode_any_aes cfg aes (fun _ b => b)]
  have key : (match decodeBytes cfg (fun _ b => b)
      (wiredLong ([0x8C, 1, 2] ++ ([0x8D, 3, 4, 5, 6, 7, 0x28, 8, 9] ++ [0x01, 0x13, 0x07])))
      ⟨none, true⟩ with
    | .ok o => decide (o.records.length = 1 ∧ o.decodeState = "complete".toList ∧
        o.security.payloadProtection = "cleartext".toList ∧ o.diagnostics = [])
    | _ => false) = true := by
    obtain ⟨oc, tf⟩ := cfg
    cases oc <;> cases tf <;> decide +kernel
  split at key
  · rename_i o ho
    exact ⟨o, ho, of_decide_eq_true key⟩
  · cases key

/-- C53, with a key: if the telegram is not reported as encrypted without a key, then supplying one
changes nothing but `key_supplied` and one additional diagnostic. -/
theorem C53_key_unused (cfg : Cfg) (aes aes' : AesBlock) (data key : List UInt8) (enrich : Bool)
    (o : DecodedOutput) (h : decodeBytes cfg aes data ⟨none, enrich⟩ = .ok o)
    (hc : o.security.payloadProtection ≠ "encrypted".toList) :
    ∃ before after d, o.diagnostics = before ++ after ∧ d.code = "security.key_unused".toList ∧
      d.severity = "info".toList ∧
      decodeBytes cfg aes' data ⟨some key, enrich⟩ =
        .ok { o with
          security := { o.security with keySupplied := true }
          diagnostics := before ++ [d] ++ after } := by
  have main : ∀ {F : Type} (protocol : List Char) (frame : FrameOutput) (normalized : List UInt8)
      (stripped : Bool) (payload : Option (List UInt8)) (parsed : MbusData F)
      (link : Option ManufacturerId),
      finish cfg aes protocol frame data normalized stripped payload parsed link ⟨none, enrich⟩ =
        .ok o →
      ∃ before after d, o.diagnostics = before ++ after ∧ d.code = "security.key_unused".toList ∧
        d.severity = "info".toList ∧
        finish cfg aes' protocol frame data normalized stripped payload parsed link
            ⟨some key, enrich⟩ =
          .ok { o with
            security := { o.security with keySupplied := true }
            diagnostics := before ++ [d] ++ after } := by
    intro F protocol frame normalized stripped payload parsed link h
    by_cases hs : (securityFields parsed.userData).1 = false
    · unfold finish at h ⊢
      rw [prepareSecurity_clear _ _ _ _ _ hs] at h ⊢
      simp only [buildOutput, recordsToShow] at h ⊢
      rcases hcol : collectRecords cfg parsed.dataRecords with _ | ⟨outs, err⟩
      · simp [hcol] at h
      · simp only [hcol, Bool.false_eq_true, if_false] at h ⊢
        cases h
        exact ⟨(parsed.applicationError.map applicationDiagnostic).toList,
          (err.map recordDiagnostic).toList, ⟨"info".toList, "security.key_unused".toList, "security".toList,
          "a key was supplied for a cleartext frame and was not used".toList, none⟩,
          by simp [securityDiagnostics], rfl, rfl, by simp [securityDiagnostics]⟩
    · exfalso
      rw [Bool.not_eq_false] at hs
      rcases hud : parsed.userData with _ | blk
      · rw [hud] at hs; simp [securityFields] at hs
      unfold finish at h
      rw [hud] at h hs
      simp only [prepareSecurity_no_key, hs, buildOutput] at h
      rcases hcol : collectRecords cfg (recordsToShow parsed
        ⟨true, (securityFields (some blk)).2.1, (securityFields (some blk)).2.2, false, false, none⟩)
        with _ | ⟨outs, err⟩
      · simp [hcol] at h
      · simp only [hcol] at h
        cases h
        exact hc (by simp)
  unfold decodeBytes at h ⊢
  by_cases hne : data = []
  · simp [hne] at h
  rw [if_neg hne] at h ⊢
  rcases hw : MbusData.tryFromWired cfg data with parsed | e | _
  · rw [hw] at h
    simp only at h ⊢
    exact main _ _ _ _ _ parsed none h
  · rw [hw] at h
    simp only at h ⊢
    rcases hst : stripFormatACrcs data (List.replicate 512 0) with ⟨r, b⟩ | _ | _
    · rw [hst] at h
      simp only at h ⊢
      rcases hwl : MbusData.tryFromWireless (r.getD data) with parsed | _ | _
      · rw [hwl] at h
        simp only at h ⊢
        exact main _ _ _ _ _ parsed _ h
      · rw [hwl] at h; cases h
      · rw [hwl] at h; cases h
    · rw [hst] at h; cases h
    · rw [hst] at h; cases h
  · rw [hw] at h; cases h

/-! ## C78 -/

theorem telegram_length (data : List UInt8) (link : Option ManufacturerId) (payload : List UInt8)
    (h : Telegram data link payload) : payload.length ≤ 253 := by
  cases h with
  | wired fn a _ hw => cases hw; assumption
  | wireless f frame _ _ hw =>
    cases hw with
    | mk l c m0 m1 d0 d1 d2 d3 ver dev ci rest payload i j k fn hl _ _ _ _ _ _ hp =>
      have := l.toNat_lt
      cases hp with
      | crc _ _ _ hb =>
        have := congrArg List.length hb
        simp at this ⊢
        omega
      | plain => simp; omega

theorem finish_records {F G : Type} (cfg : Cfg) (protocol protocol' : List Char)
    (frame frame' : FrameOutput) (data data' normalized normalized' : List UInt8)
    (stripped stripped' : Bool) (payload payload' : Option (List UInt8)) (parsed : MbusData F)
    (parsed' : MbusData G) (link : Option ManufacturerId) (aes aes' : AesBlock)
    (options options' : DecodeOptions) (c c' : SecurityContext)
    (hc : prepareSecurity aes parsed.userData link options.key (List.replicate 512 0) = .ok c)
    (hc' : prepareSecurity aes' parsed'.userData link options'.key (List.replicate 512 0) = .ok c')
    (hr : recordsToShow parsed c = recordsToShow parsed' c')
    (hm : (meterAndTransport parsed.userData link).1 = (meterAndTransport parsed'.userData link).1)
    (he : parsed.applicationError = parsed'.applicationError)
    (hp : (c.encrypted && !c.decrypted) = (c'.encrypted && !c'.decrypted)) :
    SameContents
      (finish cfg aes protocol frame data normalized stripped payload parsed link options)
      (finish cfg aes' protocol' frame' data' normalized' stripped' payload' parsed' link options') := by
  unfold finish
  rw [hc, hc']
  simp only [buildOutput, hr, he, hp]
  rcases hcol : collectRecords cfg (recordsToShow parsed' c') with _ | ⟨outs, err⟩
  · exact Or.inl ⟨rfl, rfl⟩
  · exact Or.inr ⟨_, _, rfl, rfl, rfl, hm, rfl⟩

theorem headerIv_context (m0 m1 d0 d1 d2 d3 version device acc st c0 c1 : UInt8)
    (hb : AllBcd [d0, d1, d2, d3]) (code : ManufacturerCode)
    (hcode : ManufacturerCode.fromId (le16 m0 m1) = .ok code) (iv : List UInt8)
    (hiv : CbcIv (c1.toNat % 32) m0 m1 [d0, d1, d2, d3] version device acc iv) :
    (modeNumber ⟨le16 c0 c1⟩ = 7 ∧ iv = List.replicate 16 0) ∨
      (modeNumber ⟨le16 c0 c1⟩ = 5 ∧
        iv = deriveIv (contextOf code (bcdValue [d0, d1, d2, d3]) version (DeviceType.fromByte device)
          ⟨acc, st, ⟨le16 c0 c1⟩⟩)) := by
  rw [mode_bytes]
  cases hiv with
  | zero h => exact Or.inl ⟨h, rfl⟩
  | address h =>
    right
    refine ⟨h, ?_⟩
    rw [le16_eq] at hcode
    have := C41_iv_is_address_field m0 m1 d0 d1 d2 d3 version device acc
      (⟨le16 c0 c1⟩ : ConfigurationField).securityMode code _ hcode (bcdHex_of d0 d1 d2 d3 hb)
    unfold contextOf
    rw [this]
    rfl

/-- C78 for long headers: a telegram whose data are CBC encrypted under the meter's key decodes, with
the key, to the same records, meter and state as the telegram with the same header, except that it says
security mode 0, and the plain data.  Any telegrams, wired or wireless, that carry the two payloads.
Missing: CI 76, see `C78_fails`. -/
theorem C78_long_partial (cfg : Cfg) (enc dec aes : AesBlock) (key : List UInt8)
    (hk : key.length = 16) (hlen : ∀ b, b.length = 16 → (enc key b).length = 16)
    (hinv : ∀ b, b.length = 16 → dec key (enc key b) = b)
    (i0 i1 i2 i3 m0 m1 version device acc st c0 c1 e0 e1 : UInt8) (hb : AllBcd [i0, i1, i2, i3])
    (code : ManufacturerCode) (hcode : ManufacturerCode.fromId (le16 m0 m1) = .ok code)
    (iv : List UInt8)
    (hiv : CbcIv (c1.toNat % 32) m0 m1 [i0, i1, i2, i3] version device acc iv)
    (hclear : e1.toNat % 32 = 0)
    (blocks : List (List UInt8)) (hbl : ∀ b ∈ blocks, b.length = 16) (hne : blocks ≠ [])
    (tail : List UInt8) (ht : tail.length < 16)
    (sealed plain : List UInt8) (link : Option ManufacturerId)
    (hs : Telegram sealed link
      ([0x72, i0, i1, i2, i3, m0, m1, version, device, acc, st, c0, c1] ++
        (cbcEncrypt enc key iv blocks ++ tail)))
    (hp : Telegram plain link
      ([0x72, i0, i1, i2, i3, m0, m1, version, device, acc, st, e0, e1] ++ (blocks.flatten ++ tail)))
    (enrich : Bool) (anyKey : Option (List UInt8)) :
    SameContents (decodeBytes cfg dec sealed ⟨some key, enrich⟩)
      (decodeBytes cfg aes plain ⟨anyKey, enrich⟩) := by
  have hsz := telegram_length _ _ _ hp
  have hfl : (blocks.flatten ++ tail).length = 16 * blocks.length + tail.length := by
    rw [List.length_append, List.length_flatten]
    have : blocks.map List.length = List.replicate blocks.length 16 :=
      List.eq_replicate_iff.mpr ⟨by simp, by simpa using hbl⟩
    rw [this]; simp; omega
  rw [List.length_append, hfl] at hsz
  obtain ⟨pr, fr, no, sp, hd⟩ := decode_telegram cfg dec sealed link _ hs
  obtain ⟨pr', fr', no', sp', hd'⟩ := decode_telegram cfg aes plain link _ hp
  have u := (C32_accepts_iff _ _).2 (.long false i0 i1 i2 i3 m0 m1 version device acc st c0 c1
    (cbcEncrypt enc key iv blocks ++ tail) hb)
  have u' := (C32_accepts_iff _ _).2 (.long false i0 i1 i2 i3 m0 m1 version device acc st e0 e1
    (blocks.flatten ++ tail) hb)
  rw [show longCi false = 0x72 from rfl] at u u'
  rw [hd, hd', u, u']
  have hclear' := (securityFields_encrypted (.long none ⟨bcdValue (idBytes false i0 i1 i2 i3),
    ManufacturerCode.fromId (le16 m0 m1), version, DeviceType.fromByte device, ⟨acc, st, ⟨le16 e0 e1⟩⟩,
    false⟩ (blocks.flatten ++ tail))).not.2 (by simp [BlockEncrypted, mode_bytes, hclear])
  rw [Bool.not_eq_true] at hclear'
  apply finish_records (c := _) (c' := _)
    (hc := prepare_long enc dec key hk hlen hinv none _ code hcode iv
      (headerIv_context m0 m1 i0 i1 i2 i3 version device acc st c0 c1 hb code hcode iv hiv)
      blocks hbl hne tail ht (by simp at hsz; omega) link)
    (hc' := prepareSecurity_clear _ _ _ _ _ hclear')
  · rfl
  · rfl
  · rfl
  · rfl

/-- The hypotheses are met, here with byte-wise complement as the block cipher. -/
example : SameContents
    (decodeBytes cfgRelease (fun _ b => b.map (~~~ ·))
      (wiredLong ([0x72, 0x78, 0x56, 0x34, 0x12, 0xE6, 0x1E, 0x3C, 0x07, 0x2A, 0, 0x10, 0x05] ++
        (cbcEncrypt (fun _ b => b.map (~~~ ·)) (List.replicate 16 1)
          (headerIv 0xE6 0x1E [0x78, 0x56, 0x34, 0x12] 0x3C 0x07 0x2A)
          [[0x2F, 0x2F, 0x0C, 0x13, 0x78, 0x56, 0x34, 0x12] ++ List.replicate 8 0x2F] ++
            [0x01, 0x13, 0x05])))
      ⟨some (List.replicate 16 1), true⟩)
    (decodeBytes cfgRelease (fun _ b => b)
      (wiredLong ([0x72, 0x78, 0x56, 0x34, 0x12, 0xE6, 0x1E, 0x3C, 0x07, 0x2A, 0, 0x10, 0x00] ++
        ([[0x2F, 0x2F, 0x0C, 0x13, 0x78, 0x56, 0x34, 0x12] ++ List.replicate 8 0x2F].flatten ++
            [0x01, 0x13, 0x05])))
      ⟨none, true⟩) :=
  C78_long_partial cfgRelease (fun _ b => b.map (~~~ ·)) (fun _ b => b.map (~~~ ·)) (fun _ b => b)
    (List.replicate 16 1) (by simp) (by simp) (by intro b _; simp [Function.comp_def])
    0x78 0x56 0x34 0x12 0xE6 0x1E 0x3C 0x07 0x2A 0 0x10 0x05 0x10 0x00 (by decide +kernel)
    ⟨71, 87, 70⟩ (by decide +kernel) _ (.address rfl) rfl
    [[0x2F, 0x2F, 0x0C, 0x13, 0x78, 0x56, 0x34, 0x12] ++ List.replicate 8 0x2F] (by decide) (by simp)
    [0x01, 0x13, 0x05] (by decide) _ _ none
    (wired_telegram _ _ (.rspUd false false) (.primary 1) (by decide +kernel))
    (wired_telegram _ _ (.rspUd false false) (.primary 1) (by decide +kernel)) true none

/-- C78 for short headers, whose meter address comes from the wireless link layer. -/
theorem C78_short (cfg : Cfg) (enc dec aes : AesBlock) (key : List UInt8)
    (hk : key.length = 16) (hlen : ∀ b, b.length = 16 → (enc key b).length = 16)
    (hinv : ∀ b, b.length = 16 → dec key (enc key b) = b)
    (ci acc st c0 c1 e0 e1 : UInt8) (hci : isShortCi ci) (hclear : e1.toNat % 32 = 0)
    (link : ManufacturerId) (m0 m1 d0 d1 d2 d3 device : UInt8) (hb : AllBcd [d0, d1, d2, d3])
    (hcode : ManufacturerCode.fromId (le16 m0 m1) = .ok link.manufacturerCode)
    (hid : link.identificationNumber = bcdValue [d0, d1, d2, d3])
    (hdev : link.deviceType = DeviceType.fromByte device)
    (iv : List UInt8) (hiv : CbcIv (c1.toNat % 32) m0 m1 [d0, d1, d2, d3] link.version device acc iv)
    (blocks : List (List UInt8)) (hbl : ∀ b ∈ blocks, b.length = 16) (hne : blocks ≠ [])
    (tail : List UInt8) (ht : tail.length < 16) (sealed plain : List UInt8)
    (hs : Telegram sealed (some link)
      ([ci, acc, st, c0, c1] ++ (cbcEncrypt enc key iv blocks ++ tail)))
    (hp : Telegram plain (some link) ([ci, acc, st, e0, e1] ++ (blocks.flatten ++ tail)))
    (enrich : Bool) (anyKey : Option (List UInt8)) :
    SameContents (decodeBytes cfg dec sealed ⟨some key, enrich⟩)
      (decodeBytes cfg aes plain ⟨anyKey, enrich⟩) := by
  have hsz := telegram_length _ _ _ hp
  have hfl : (blocks.flatten ++ tail).length = 16 * blocks.length + tail.length := by
    rw [List.length_append, List.length_flatten]
    have : blocks.map List.length = List.replicate blocks.length 16 :=
      List.eq_replicate_iff.mpr ⟨by simp, by simpa using hbl⟩
    rw [this]; simp; omega
  rw [List.length_append, hfl] at hsz
  obtain ⟨pr, fr, no, sp, hd⟩ := decode_telegram cfg dec sealed (some link) _ hs
  obtain ⟨pr', fr', no', sp', hd'⟩ := decode_telegram cfg aes plain (some link) _ hp
  have u := (C32_accepts_iff _ _).2 (.short ci acc st c0 c1 (cbcEncrypt enc key iv blocks ++ tail) hci)
  have u' := (C32_accepts_iff _ _).2 (.short ci acc st e0 e1 (blocks.flatten ++ tail) hci)
  rw [hd, hd', u, u']
  have hclear' := (securityFields_encrypted (.short none ⟨acc, st, ⟨le16 e0 e1⟩⟩
    (blocks.flatten ++ tail))).not.2 (by simp [BlockEncrypted, mode_bytes, hclear])
  rw [Bool.not_eq_true] at hclear'
  have hm := headerIv_context m0 m1 d0 d1 d2 d3 link.version device acc st c0 c1 hb _ hcode iv hiv
  rw [← hid, ← hdev] at hm
  obtain ⟨l, hl⟩ := prepare_short enc dec key hk hlen hinv none ⟨acc, st, ⟨le16 c0 c1⟩⟩ link iv hm
    blocks hbl hne tail ht (by simp at hsz; omega)
  apply finish_records (c := _) (c' := _) (hc := hl) (hc' := prepareSecurity_clear _ _ _ _ _ hclear')
  · rfl
  · rfl
  · rfl
  · rfl

/-- A wireless frame around a payload. -/
def wirelessFrame (payload : List UInt8) : List UInt8 :=
  UInt8.ofNat (payload.length + 9) ::
    [0x44, 0xE6, 0x1E, 0x78, 0x56, 0x34, 0x12, 0x3C, 0x07] ++ payload

/-- The hypotheses are met. -/
example : SameContents
    (decodeBytes cfgRelease (fun _ b => b.map (~~~ ·))
      (wirelessFrame ([0x7A, 0x2A, 0, 0x10, 0x05] ++
        (cbcEncrypt (fun _ b => b.map (~~~ ·)) (List.replicate 16 1)
          (headerIv 0xE6 0x1E [0x78, 0x56, 0x34, 0x12] 0x3C 0x07 0x2A)
          [[0x2F, 0x2F, 0x0C, 0x13, 0x78, 0x56, 0x34, 0x12] ++ List.replicate 8 0x2F] ++ [])))
      ⟨some (List.replicate 16 1), true⟩)
    (decodeBytes cfgRelease (fun _ b => b)
      (wirelessFrame ([0x7A, 0x2A, 0, 0x10, 0x00] ++
        ([[0x2F, 0x2F, 0x0C, 0x13, 0x78, 0x56, 0x34, 0x12] ++ List.replicate 8 0x2F].flatten ++ [])))
      ⟨none, true⟩) :=
  C78_short cfgRelease (fun _ b => b.map (~~~ ·)) (fun _ b => b.map (~~~ ·)) (fun _ b => b)
    (List.replicate 16 1) (by simp) (by simp) (by intro b _; simp [Function.comp_def])
    0x7A 0x2A 0 0x10 0x05 0x10 0x00 (Or.inl rfl) rfl
    ⟨⟨71, 87, 70⟩, 12345678, .waterMeter, 0x3C, false⟩ 0xE6 0x1E 0x78 0x56 0x34 0x12 0x07
    (by decide +kernel) (by decide +kernel) (by decide +kernel) (by decide +kernel) _ (.address rfl)
    [[0x2F, 0x2F, 0x0C, 0x13, 0x78, 0x56, 0x34, 0x12] ++ List.replicate 8 0x2F] (by decide) (by simp)
    [] (by decide) _ _
    (isWireless_telegram _ _ _ (by decide +kernel)) (isWireless_telegram _ _ _ (by decide +kernel))
    true none

/-- The value texts of the records of an output. -/
def valueTexts (r : Res OutputError DecodedOutput) : Option (List (Option (List Char))) :=
  match r with
  | .ok o => some (o.records.map (fun r => match r.value.value with | some (.str s) => some s | _ => none))
  | _ => none

/-- C78 is false for CI 76: the byte order the header announces is applied to decrypted data only, so
that the clear telegram and the encrypted one give different values. -/
theorem C78_fails (cfg : Cfg) :
    ∃ (enc dec aes : AesBlock) (key sealed plain : List UInt8) (blocks : List (List UInt8)),
      (∀ b, b.length = 16 → (enc key b).length = 16 ∧ dec key (enc key b) = b) ∧
      Telegram sealed none
        ([0x76, 0x12, 0x34, 0x56, 0x78, 0xE6, 0x1E, 0x3C, 0x07, 0x2A, 0, 0x10, 0x05] ++
          cbcEncrypt enc key (headerIv 0xE6 0x1E [0x78, 0x56, 0x34, 0x12] 0x3C 0x07 0x2A) blocks) ∧
      Telegram plain none
        ([0x76, 0x12, 0x34, 0x56, 0x78, 0xE6, 0x1E, 0x3C, 0x07, 0x2A, 0, 0x10, 0x00] ++
          blocks.flatten) ∧
      valueTexts (decodeBytes cfg dec sealed ⟨some key, false⟩) = some [some "1.234".toList] ∧
      valueTexts (decodeBytes cfg aes plain ⟨none, false⟩) = some [some "3.412".toList] := by
  refine ⟨fun _ b => b.map (~~~ ·), fun _ b => b.map (~~~ ·), fun _ b => b, List.replicate 16 1,
    wiredLong ([0x76, 0x12, 0x34, 0x56, 0x78, 0xE6, 0x1E, 0x3C, 0x07, 0x2A, 0, 0x10, 0x05] ++
      cbcEncrypt (fun _ b => b.map (~~~ ·)) (List.replicate 16 1)
        (headerIv 0xE6 0x1E [0x78, 0x56, 0x34, 0x12] 0x3C 0x07 0x2A)
        [[0x0A, 0x13, 0x12, 0x34] ++ List.replicate 12 0x2F]),
    wiredLong ([0x76, 0x12, 0x34, 0x56, 0x78, 0xE6, 0x1E, 0x3C, 0x07, 0x2A, 0, 0x10, 0x00] ++
        [[0x0A, 0x13, 0x12, 0x34] ++ List.replicate 12 0x2F].flatten),
    [[0x0A, 0x13, 0x12, 0x34] ++ List.replicate 12 0x2F],
    fun b hb => ⟨by simpa using hb, by simp [Function.comp_def]⟩,
    wired_telegram _ _ (.rspUd false false) (.primary 1) (by decide +kernel),
    wired_telegram _ _ (.rspUd false false) (.primary 1) (by decide +kernel), ?_⟩
  obtain ⟨oc, tf⟩ := cfg
  cases oc <;> cases tf <;> decide +kernel

end MBus
