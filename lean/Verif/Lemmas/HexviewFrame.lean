import Verif.Lemmas.Hexview
/-! # Lemmas: the decrypted view of wired and wireless frames -/
namespace MBus
open Spec

theorem meterIv_length (code : ManufacturerCode) (n : Nat) (version : UInt8) (device : DeviceType)
    (acc : UInt8) : (meterIv code n version device acc).length = 16 := by
  simp [meterIv, headerIv, bcdBytes]

theorem deciphered_length {aes : AesBlock} (haes : BlockSized aes) {key iv data plain : List UInt8}
    (hiv : iv.length = 16) (h : Deciphered aes key iv data plain) : plain.length = data.length := by
  obtain ⟨_, blocks, tail, h1, h2, rfl, rfl⟩ := h
  rw [List.length_append, List.length_append, cbcPlain_length aes haes key iv blocks h1 hiv,
    flatten_length16 blocks h1]

theorem modeIv_length {cf : ConfigurationField} {meter iv : List UInt8} (hm : meter.length = 16)
    (h : ModeIv cf meter iv) : iv.length = 16 := by
  rcases h with ⟨_, rfl⟩ | ⟨_, rfl⟩
  · simp
  · exact hm

theorem recovered_length {aes : AesBlock} (haes : BlockSized aes) {key : List UInt8}
    {link : Option ManufacturerId} {blk : UserDataBlock} {plain : List UInt8}
    (h : Recovered aes key link blk plain) :
    plain.length = (variableData blk).length ∧ variableData blk ≠ [] := by
  cases h with
  | long ell h block code iv _ h1 h2 h3 =>
    exact ⟨deciphered_length haes (modeIv_length (meterIv_length _ _ _ _ _) h2) h3, h3.1⟩
  | short ell h block id iv _ h1 h2 h3 =>
    exact ⟨deciphered_length haes (modeIv_length (meterIv_length _ _ _ _ _) h2) h3, h3.1⟩

/-- Decryption undoes encryption. -/
theorem deciphered_encrypt (enc dec : AesBlock) (key : List UInt8)
    (hlen : ∀ b, b.length = 16 → (enc key b).length = 16)
    (hinv : ∀ b, b.length = 16 → dec key (enc key b) = b) (blocks : List (List UInt8))
    (iv : List UInt8) (hiv : iv.length = 16) (hb : ∀ b ∈ blocks, b.length = 16) (hne : blocks ≠ [])
    (tail : List UInt8) (ht : tail.length < 16) :
    Deciphered dec key iv (cbcEncrypt enc key iv blocks ++ tail) (blocks.flatten ++ tail) := by
  have hcl := cbcEncrypt_length enc key hlen blocks iv hiv hb
  have key' : ∀ (blocks : List (List UInt8)) (iv : List UInt8), iv.length = 16 →
      (∀ b ∈ blocks, b.length = 16) → ∃ cs : List (List UInt8), (∀ b ∈ cs, b.length = 16) ∧
        cbcEncrypt enc key iv blocks = cs.flatten ∧ cbcPlain dec key iv cs = blocks.flatten := by
    intro blocks
    induction blocks with
    | nil => intro iv _ _; exact ⟨[], by simp, rfl, rfl⟩
    | cons b bs ih =>
      intro iv hiv hb
      have hx : (List.zipWith (· ^^^ ·) b iv).length = 16 := by simp [hb b (by simp), hiv]
      obtain ⟨cs, h1, h2, h3⟩ := ih (enc key (List.zipWith (· ^^^ ·) b iv)) (hlen _ hx)
        (fun x hx => hb x (by simp [hx]))
      refine ⟨enc key (List.zipWith (· ^^^ ·) b iv) :: cs, ?_, ?_, ?_⟩
      · intro y hy
        rcases List.mem_cons.mp hy with rfl | hy
        · exact hlen _ hx
        · exact h1 y hy
      · simp only [cbcEncrypt, List.flatten_cons, h2]
      · have := xor_cancel b iv (by rw [hb b (by simp), hiv])
        unfold xorBlock at this
        unfold cbcPlain at h3 ⊢
        simp only [List.map_cons, List.zipWith_cons_cons, List.flatten_cons, h3, hinv _ hx, this]
  obtain ⟨cs, h1, h2, h3⟩ := key' blocks iv hiv hb
  refine ⟨?_, cs, tail, h1, ht, by rw [h2], by rw [h3]⟩
  intro h
  have := congrArg List.length h
  rw [List.length_append, hcl] at this
  rcases blocks with _ | ⟨b, bs⟩
  · exact hne rfl
  · simp at this

theorem recovered_unique {aes : AesBlock} {key : List UInt8}
    {link : Option ManufacturerId} {blk : UserDataBlock} {p q : List UInt8}
    (h1 : Recovered aes key link blk p) (h2 : Recovered aes key link blk q) : p = q := by
  have iv_unique : ∀ {cf m iv iv'}, ModeIv cf m iv → ModeIv cf m iv' → iv = iv' := by
    intro cf m iv iv' k1 k2
    rcases k1 with ⟨a1, rfl⟩ | ⟨a1, rfl⟩ <;> rcases k2 with ⟨a2, rfl⟩ | ⟨a2, rfl⟩
    · rfl
    · rw [a1] at a2; cases a2
    · rw [a1] at a2; cases a2
    · rfl
  cases h1 with
  | long ell h block code iv _ k1 k2 k3 =>
    cases h2 with
    | long _ _ _ code' iv' _ l1 l2 l3 =>
      rw [k1] at l1; cases l1
      rw [iv_unique k2 l2] at k3
      exact deciphered_unique k3 l3
  | short ell h block id iv _ k1 k2 k3 =>
    cases h2 with
    | short _ _ _ id' iv' _ l1 l2 l3 =>
      rw [k1] at l1; cases l1
      rw [iv_unique k2 l2] at k3
      exact deciphered_unique k3 l3

theorem blockNumber_lt {payload : List UInt8} {blk : UserDataBlock} (h : Block payload blk) :
    blockNumber blk < 2 ^ 32 := by
  cases h with
  | long reversed i0 i1 i2 i3 m0 m1 version device acc st c0 c1 block hb =>
    have h2 : ∀ b ∈ idBytes reversed i0 i1 i2 i3, IsBcd b := by
      intro b hm
      apply hb
      cases reversed <;> simp [idBytes] at hm ⊢ <;> tauto
    have := bcdValue_lt _ h2
    have hl : (idBytes reversed i0 i1 i2 i3).length = 4 := by cases reversed <;> rfl
    rw [hl] at this
    simp only [blockNumber]
    omega
  | ellI cc acc inner b b' _ he =>
    cases b <;> cases he <;> simp [blockNumber]
  | _ => simp [blockNumber]

theorem splice_mid (pre old post new : List UInt8) :
    splice (pre ++ old ++ post) pre.length (pre.length + old.length) new =
      .ok (pre ++ new ++ post) := by
  unfold splice
  have h1 : (pre ++ old ++ post).take pre.length = pre := by rw [List.append_assoc, List.take_left]
  have h2 : (pre ++ old ++ post).drop (pre.length + old.length) = post := by
    rw [← List.length_append, List.drop_left]
  rw [if_pos (by simp), h1, h2]

theorem slice?_mid (pre mid post : List UInt8) (n : Nat) (hn : n = pre.length + mid.length) :
    slice? (pre ++ mid ++ post) pre.length n = some mid := by
  unfold slice?
  rw [if_pos (by simp; omega), hn, ← List.length_append, List.take_left, List.drop_left]

theorem set_mid (pre post : List UInt8) (old new : UInt8) (n : Nat) (hn : n = pre.length) :
    (pre ++ old :: post).set n new = pre ++ new :: post := by
  subst hn
  simp

theorem fixWired_long (x c a cs : UInt8) (payload : List UInt8) (l : UInt8) (hl : payload.length ≤ 253) :
    fixWired ([0x68, l, l, x, c, a] ++ payload ++ [cs, 0x16]) = .ok (longFrameBytes x c a payload) := by
  unfold fixWired
  have hlen : ([0x68, l, l, x, c, a] ++ payload ++ [cs, 0x16]).length = payload.length + 8 := by simp
  rw [hlen, if_pos (by omega)]
  simp only [Res.ofOption, Res.bind_ok]
  rw [if_neg (by omega)]
  have e1 : (([0x68, l, l, x, c, a] ++ payload ++ [cs, 0x16]).set 1
      (UInt8.ofNat (payload.length + 8 - 6))).set 2 (UInt8.ofNat (payload.length + 8 - 6)) =
      [0x68, UInt8.ofNat (payload.length + 2), UInt8.ofNat (payload.length + 2), x] ++
        (c :: a :: payload) ++ [cs, 0x16] := by
    rw [show payload.length + 8 - 6 = payload.length + 2 by omega]
    rfl
  rw [e1]
  generalize hp : [0x68, UInt8.ofNat (payload.length + 2), UInt8.ofNat (payload.length + 2), x] = pre
  have hp4 : pre.length = 4 := by rw [← hp]; rfl
  have e2 : (pre ++ (c :: a :: payload) ++ [cs, 0x16]).length - 2 =
      pre.length + (c :: a :: payload).length := by
    simp; omega
  rw [e2]
  have e3 := slice?_mid pre (c :: a :: payload) [cs, 0x16] _ rfl
  rw [hp4] at e3 ⊢
  rw [e3]
  simp only [Res.bind_ok, foldl_zero_eq]
  rw [set_mid _ _ _ _ _ (by rw [List.length_append, hp4]), ← hp]
  simp [longFrameBytes]

/-- The decrypted view of a wired frame. -/
theorem decryptedWired_iff (cfg : Cfg) (aes : AesBlock) (haes : BlockSized aes)
    (key data display : List UInt8) :
    decryptedWired cfg aes key data = .ok display ↔
    key.length = 16 ∧ ∃ x c a fn header blk plain, FunctionCode c fn ∧ c ≠ 0x53 ∧
      (header ++ variableData blk).length ≤ 253 ∧ Block (header ++ variableData blk) blk ∧
      Recovered aes key none blk plain ∧
      data = longFrameBytes x c a (header ++ variableData blk) ∧
      display = longFrameBytes x c a (header ++ plain) := by
  -- decryption of a frame whose payload is a block
  have run : ∀ x c a fn header blk, FunctionCode c fn → c ≠ 0x53 →
      (header ++ variableData blk).length ≤ 253 → Block (header ++ variableData blk) blk →
      variableData blk ≠ [] →
      decryptedWired cfg aes key (longFrameBytes x c a (header ++ variableData blk)) =
        (match decryptWithKey aes blk none key (List.replicate 256 0) with
          | (.ok len, out) =>
            match sliceTo? out len with
            | some plain => do
              let display ← splice (longFrameBytes x c a (header ++ variableData blk))
                (6 + header.length) (6 + header.length + (variableData blk).length) plain
              fixWired display
            | none => (.err () : Res Unit (List UInt8))
          | (.err _, _) => .err ()
          | (.panic, _) => .panic) := by
    intro x c a fn header blk hf hc hl hb hv
    have hw := (C01_wired_accepts_exactly_telegrams cfg _ _).2 (.long x c a _ fn hf hc hl)
    have ho := (C32_accepts_iff _ _).2 hb
    have hvl : blk.variableDataLen ≠ 0 := by
      rw [variableDataLen_eq]
      exact fun h => hv (List.length_eq_zero_iff.mp h)
    unfold decryptedWired MbusData.tryFromWired
    rw [hw]
    simp only [Res.bind_ok, MbusData.ofPayload, ho, Res.mapErr, Res.ofOption, hvl, if_false,
      wiredUserDataLen, checkedSub]
    rw [variableDataLen_eq, if_pos (by simp)]
    generalize decryptWithKey aes blk none key (List.replicate 256 0) = r
    obtain ⟨r, out⟩ := r
    cases r with
    | err e => rfl
    | panic => rfl
    | ok len =>
      simp only [Res.bind_ok]
      have hd : (header ++ variableData blk).length - (variableData blk).length = header.length := by
        simp
      rw [hd]
      cases sliceTo? out len <;> rfl
  have disp : ∀ x c a header (block plain : List UInt8), (header ++ block).length ≤ 253 →
      plain.length = block.length →
      (do
        let display ← splice (longFrameBytes x c a (header ++ block))
          (6 + header.length) (6 + header.length + block.length) plain
        fixWired display) = .ok (longFrameBytes x c a (header ++ plain)) := by
    intro x c a header block plain hl hp
    have hs : longFrameBytes x c a (header ++ block) =
        ([0x68, UInt8.ofNat ((header ++ block).length + 2), UInt8.ofNat ((header ++ block).length + 2),
          x, c, a] ++ header) ++ block ++ [checksum (c :: a :: (header ++ block)), 0x16] := by
      simp [longFrameBytes]
    have := splice_mid ([0x68, UInt8.ofNat ((header ++ block).length + 2),
      UInt8.ofNat ((header ++ block).length + 2), x, c, a] ++ header) block
      [checksum (c :: a :: (header ++ block)), 0x16] plain
    rw [hs]
    rw [show ([0x68, UInt8.ofNat ((header ++ block).length + 2),
      UInt8.ofNat ((header ++ block).length + 2), x, c, a] ++ header).length = 6 + header.length by
        simp; omega] at this
    rw [this, Res.bind_ok, List.append_assoc _ header plain]
    exact fixWired_long x c a _ _ _ (by rw [List.length_append] at hl ⊢; omega)
  constructor
  · intro h
    have h' := h
    unfold decryptedWired at h'
    rw [Res.bind_eq_ok] at h'
    obtain ⟨m, hm, h'⟩ := h'
    rw [Res.bind_eq_ok] at h'
    obtain ⟨blk, hblk, h'⟩ := h'
    rw [mapErr_eq_ok] at hm
    unfold MbusData.tryFromWired at hm
    rw [Res.bind_eq_ok] at hm
    obtain ⟨f, hf, hm⟩ := hm
    have hu : m.userData = some blk := by
      revert hblk
      cases m.userData <;> simp [Res.ofOption]
    cases (C01_wired_accepts_exactly_telegrams _ _ _).1 hf with
    | single rest => cases hm; cases hu
    | short c a fn hfn => cases hm; cases hu
    | control x a payload hl => cases hm; cases hu
    | long x c a payload fn hfn hc hl =>
      simp only [MbusData.ofPayload] at hm
      cases ho : UserDataBlock.tryFrom payload with
      | err e => rw [ho] at hm; cases hm; cases hu
      | panic => rw [ho] at hm; cases hm
      | ok blk' =>
        rw [ho] at hm
        cases hm
        cases hu
        have hb := (C32_accepts_iff _ _).1 ho
        by_cases hv : variableData blk = []
        · rw [if_pos (by rw [variableDataLen_eq, hv]; rfl)] at h'
          cases h'
        · obtain ⟨header, rfl, _⟩ := block_header hb hv
          rw [run x c a fn header blk hfn hc hl hb hv] at h
          have hk : key.length = 16 := by
            revert h
            have := (decryptWithKey_key aes key blk none (List.replicate 256 0)).2
            generalize decryptWithKey aes blk none key (List.replicate 256 0) = r at this
            obtain ⟨r, out⟩ := r
            cases r with
            | err e => intro h; cases h
            | panic => intro h; cases h
            | ok len => intro _; exact this len rfl
          obtain ⟨k1, k2⟩ := decryptWithKey_iff aes haes key hk blk none (List.replicate 256 0)
            (by rw [List.length_replicate]; rw [List.length_append] at hl; omega) (blockNumber_lt hb)
            (fun id h => by cases h)
          generalize decryptWithKey aes blk none key (List.replicate 256 0) = r at h k1 k2
          obtain ⟨r, out⟩ := r
          cases r with
          | err e => cases h
          | panic => cases h
          | ok len =>
            obtain ⟨plain, hr, h1, h2, h3⟩ := k1 len out rfl
            simp only [h3] at h
            rw [disp x c a header _ plain hl (by rw [h2, h1])] at h
            cases h
            exact ⟨hk, x, c, a, fn, header, blk, plain, hfn, hc, hl, hb, hr, rfl, rfl⟩
  · rintro ⟨hk, x, c, a, fn, header, blk, plain, hfn, hc, hl, hb, hr, rfl, rfl⟩
    obtain ⟨hlen, hv⟩ := recovered_length haes hr
    rw [run x c a fn header blk hfn hc hl hb hv]
    obtain ⟨k1, k2⟩ := decryptWithKey_iff aes haes key hk blk none (List.replicate 256 0)
      (by rw [List.length_replicate]; rw [List.length_append] at hl; omega) (blockNumber_lt hb)
      (fun id h => by cases h)
    obtain ⟨out, h1, h2⟩ := k2 plain hr
    rw [h1]
    simp only [h2]
    exact disp x c a header _ plain hl hlen

theorem withoutFormatA_iff (data frame : List UInt8) :
    withoutFormatA data = .ok frame ↔ Normalized data frame := by
  have key : ∀ frame, Normalized data frame → withoutFormatA data = .ok frame := by
    intro frame h
    obtain ⟨r, b, h1, h2⟩ := normalized_strip data frame h
    unfold withoutFormatA
    rw [h1]
    cases r with
    | none => exact congrArg Res.ok h2
    | some r => exact congrArg Res.ok h2
  refine ⟨fun h => ?_, key frame⟩
  obtain ⟨frame', h'⟩ := normalized_exists data
  rw [key frame' h'] at h
  cases h
  exact h'

/-- The parts of a wireless frame: link layer, payload, and possibly a CRC. -/
theorem wireless_parts {frame : List UInt8} {f : WirelessFrame} (h : WirelessTelegram frame f) :
    ∃ link crc, link.length = 10 ∧ frame = link ++ f.data ++ crc ∧ (crc.length = 0 ∨ crc.length = 2) ∧
      frame.length ≤ 256 ∧ (∀ l rest, frame = l :: rest → l.toNat = rest.length) ∧
      f.manufacturerId.identificationNumber < 2 ^ 32 := by
  cases h with
  | mk l c m0 m1 d0 d1 d2 d3 ver dev ci rest payload i j k fn hl hfn hi hj hk hm hbcd hp =>
    have hn : bcdValue [d0, d1, d2, d3] < 2 ^ 32 := by
      have := bcdValue_lt [d0, d1, d2, d3] (by
        obtain ⟨h0, h1, h2, h3⟩ := hbcd
        intro b hb
        simp only [List.mem_cons, List.not_mem_nil, or_false] at hb
        rcases hb with rfl | rfl | rfl | rfl <;> assumption)
      simp only [List.length_cons, List.length_nil] at this
      omega
    have hll : (l :: c :: m0 :: m1 :: d0 :: d1 :: d2 :: d3 :: ver :: dev :: ci :: rest).length ≤ 256 := by
      have := l.toNat_lt
      simp only [List.length_cons]
      omega
    have hrest : ∀ l' rest', l :: c :: m0 :: m1 :: d0 :: d1 :: d2 :: d3 :: ver :: dev :: ci :: rest =
        l' :: rest' → l'.toNat = rest'.length := by
      intro l' rest' h
      cases h
      simp only [List.length_cons]
      omega
    cases hp with
    | crc _ hi lo hb hc =>
      refine ⟨[l, c, m0, m1, d0, d1, d2, d3, ver, dev], [hi, lo], rfl, ?_, .inr rfl, hll, hrest, hn⟩
      rw [List.append_assoc, ← hb]
      rfl
    | plain h =>
      refine ⟨[l, c, m0, m1, d0, d1, d2, d3, ver, dev], [], rfl, ?_, .inl rfl, hll, hrest, hn⟩
      simp

theorem fixWireless_same (display : List UInt8)
    (h : ∀ l rest, display = l :: rest → l.toNat = rest.length) : fixWireless display = display := by
  unfold fixWireless
  split
  · rfl
  · rename_i l rest
    have := h l rest rfl
    split
    · rw [← this]; simp
    · rfl

/-- The decrypted view of a wireless frame. -/
theorem decryptedWireless_iff (aes : AesBlock) (haes : BlockSized aes)
    (key data display : List UInt8) :
    decryptedWireless aes key data = .ok display ↔
    key.length = 16 ∧ ∃ frame f header blk plain, Normalized data frame ∧ WirelessTelegram frame f ∧
      f.data = header ++ variableData blk ∧ Block f.data blk ∧
      Recovered aes key (some f.manufacturerId) blk plain ∧
      display = frame.take (frame.length - (variableData blk).length) ++ plain := by
  have run : ∀ frame f header blk, Normalized data frame → WirelessTelegram frame f →
      f.data = header ++ variableData blk → Block f.data blk → variableData blk ≠ [] →
      decryptedWireless aes key data =
        (match decryptWithKey aes blk (some f.manufacturerId) key (List.replicate 256 0) with
          | (.ok len, out) =>
            match sliceTo? out len with
            | some plain => do
              let display ← splice frame (frame.length - f.data.length + header.length)
                (frame.length - f.data.length + header.length + (variableData blk).length) plain
              .ok (fixWireless display)
            | none => (.err () : Res Unit (List UInt8))
          | (.err _, _) => .err ()
          | (.panic, _) => .panic) := by
    intro frame f header blk hn hf hd hb hv
    have hw := (C12_wireless_accepts_exactly_telegrams _ _).2 hf
    have ho := (C32_accepts_iff _ _).2 hb
    have hvl : blk.variableDataLen ≠ 0 := by
      rw [variableDataLen_eq]
      exact fun h => hv (List.length_eq_zero_iff.mp h)
    obtain ⟨link, crc, _, hfr, _⟩ := wireless_parts hf
    have hle : f.data.length ≤ frame.length := by rw [hfr]; simp; omega
    have hle2 : (variableData blk).length ≤ f.data.length := by rw [hd]; simp
    have hd2 : f.data.length - (variableData blk).length = header.length := by rw [hd]; simp
    unfold decryptedWireless MbusData.tryFromWireless
    rw [(withoutFormatA_iff _ _).2 hn]
    simp only [Res.bind_ok, hw, MbusData.ofPayload, ho, Res.mapErr, Res.ofOption, hvl, if_false,
      checkedSub]
    rw [variableDataLen_eq, if_pos hle, if_pos hle2, hd2]
    generalize decryptWithKey aes blk (some f.manufacturerId) key (List.replicate 256 0) = r
    obtain ⟨r, out⟩ := r
    cases r with
    | err e => rfl
    | panic => rfl
    | ok len =>
      simp only [Res.bind_ok]
      cases sliceTo? out len <;> rfl
  have disp : ∀ frame f header (block plain : List UInt8), WirelessTelegram frame f →
      f.data = header ++ block → plain.length = block.length →
      (do
        let display ← splice frame (frame.length - f.data.length + header.length)
          (frame.length - f.data.length + header.length + block.length) plain
        .ok (fixWireless display)) =
      (.ok (frame.take (frame.length - block.length) ++ plain) : Res Unit (List UInt8)) := by
    intro frame f header block plain hf hd hp
    obtain ⟨link, crc, h10, hfr, hcrc, hlen, hl, _⟩ := wireless_parts hf
    have hfl : frame.length = 10 + (header.length + block.length) + crc.length := by
      rw [hfr, hd]; simp [h10]; omega
    have e1 : frame.length - f.data.length + header.length = frame.length - block.length := by
      rw [hd, List.length_append]; omega
    have e2 : frame.length - block.length + block.length = frame.length := by omega
    rw [e1, e2]
    unfold splice
    rw [if_pos ⟨by omega, le_refl _⟩, List.drop_length, List.append_nil, Res.bind_ok]
    congr 1
    apply fixWireless_same
    intro l rest hlr
    have h1 : frame.head? = some l := by
      have := congrArg List.head? hlr
      rw [List.head?_append, List.head?_take, if_neg (by omega)] at this
      cases hh : frame.head? with
      | none => rw [List.head?_eq_none_iff] at hh; rw [hh] at hfl; simp at hfl; omega
      | some y => rw [hh] at this; simpa using this
    have h2 : frame.length = rest.length + 1 := by
      have := congrArg List.length hlr
      simp only [List.length_append, List.length_take, List.length_cons] at this
      omega
    rcases hfrm : frame with _ | ⟨y, ys⟩
    · rw [hfrm] at h1; cases h1
    · rw [hfrm] at h1 h2
      cases h1
      have := hl _ _ hfrm
      simp only [List.length_cons] at h2
      omega
  constructor
  · intro h
    obtain ⟨frame, hn⟩ := normalized_exists data
    have h' := h
    unfold decryptedWireless at h'
    rw [(withoutFormatA_iff _ _).2 hn, Res.bind_ok, Res.bind_eq_ok] at h'
    obtain ⟨m, hm, h'⟩ := h'
    rw [Res.bind_eq_ok] at h'
    obtain ⟨blk, hblk, h'⟩ := h'
    rw [mapErr_eq_ok] at hm
    unfold MbusData.tryFromWireless at hm
    rw [Res.bind_eq_ok] at hm
    obtain ⟨f, hf, hm⟩ := hm
    have hu : m.userData = some blk := by
      revert hblk
      cases m.userData <;> simp [Res.ofOption]
    have ht := (C12_wireless_accepts_exactly_telegrams _ _).1 hf
    simp only [MbusData.ofPayload] at hm
    cases ho : UserDataBlock.tryFrom f.data with
    | err e => rw [ho] at hm; cases hm; cases hu
    | panic => rw [ho] at hm; cases hm
    | ok blk' =>
      rw [ho] at hm
      cases hm
      cases hu
      have hb := (C32_accepts_iff _ _).1 ho
      by_cases hv : variableData blk = []
      · rw [if_pos (by rw [variableDataLen_eq, hv]; rfl)] at h'
        cases h'
      · obtain ⟨header, hd, _⟩ := block_header hb hv
        rw [run frame f header blk hn ht hd hb hv] at h
        have hk : key.length = 16 := by
          revert h
          have := (decryptWithKey_key aes key blk (some f.manufacturerId) (List.replicate 256 0)).2
          generalize decryptWithKey aes blk (some f.manufacturerId) key (List.replicate 256 0) = r at this
          obtain ⟨r, out⟩ := r
          cases r with
          | err e => intro h; cases h
          | panic => intro h; cases h
          | ok len => intro _; exact this len rfl
        obtain ⟨link, crc, h10, hfr, hcrc, hlen, hl, hid⟩ := wireless_parts ht
        obtain ⟨k1, k2⟩ := decryptWithKey_iff aes haes key hk blk (some f.manufacturerId)
          (List.replicate 256 0)
          (by rw [List.length_replicate]; rw [hfr, hd] at hlen; simp at hlen; omega) (blockNumber_lt hb)
          (fun id h => by cases h; exact hid)
        generalize decryptWithKey aes blk (some f.manufacturerId) key (List.replicate 256 0) = r at h k1 k2
        obtain ⟨r, out⟩ := r
        cases r with
        | err e => cases h
        | panic => cases h
        | ok len =>
          obtain ⟨plain, hr, h1, h2, h3⟩ := k1 len out rfl
          simp only [h3] at h
          rw [disp frame f header _ plain ht hd (by rw [h2, h1])] at h
          cases h
          exact ⟨hk, frame, f, header, blk, plain, hn, ht, hd, hb, hr, rfl⟩
  · rintro ⟨hk, frame, f, header, blk, plain, hn, ht, hd, hb, hr, rfl⟩
    obtain ⟨hlen', hv⟩ := recovered_length haes hr
    rw [run frame f header blk hn ht hd hb hv]
    obtain ⟨link, crc, h10, hfr, hcrc, hlen, hl, hid⟩ := wireless_parts ht
    obtain ⟨k1, k2⟩ := decryptWithKey_iff aes haes key hk blk (some f.manufacturerId)
      (List.replicate 256 0)
      (by rw [List.length_replicate]; rw [hfr, hd] at hlen; simp at hlen; omega) (blockNumber_lt hb)
      (fun id h => by cases h; exact hid)
    obtain ⟨out, h1, h2⟩ := k2 plain hr
    rw [h1]
    simp only [h2]
    exact disp frame f header _ plain ht hd hlen'

end MBus
