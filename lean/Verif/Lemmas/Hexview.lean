import Verif.Model.Hexview
import Verif.Spec.Hexview
import Verif.Lemmas.AnnotateAgree
import Verif.Lemmas.Output
/-! # Lemmas: the decrypted view of a telegram -/
namespace MBus
open Spec

/-! ## Decryption -/

theorem deriveIv_eq (code : ManufacturerCode) (n : Nat) (hn : n < 2 ^ 32) (version : UInt8)
    (device : DeviceType) (h : ShortTplHeader) :
    deriveIv (contextOf code n version device h) = meterIv code n version device h.accessNumber := by
  have hb : ∀ v : Nat, bcdByte v = UInt8.ofNat (16 * (v / 10 % 10) + v % 10) := by
    intro v
    have key : ∀ a, a < 10 → ∀ b, b < 10 →
        ((UInt8.ofNat b <<< 4) ||| UInt8.ofNat a) = UInt8.ofNat (16 * b + a) := by decide
    exact key _ (Nat.mod_lt _ (by omega)) _ (Nat.mod_lt _ (by omega))
  have hu : (UInt32.ofNat n).toNat = n := by
    rw [UInt32.toNat_ofNat']; exact Nat.mod_eq_of_lt hn
  have hm : ∀ m : UInt16, m.toUInt8 = UInt8.ofNat m.toNat ∧
      (m >>> 8).toUInt8 = UInt8.ofNat (m.toNat / 256) := by
    intro m
    constructor
    · apply UInt8.toNat_inj.mp; simp
    · apply UInt8.toNat_inj.mp; simp [Nat.shiftRight_eq_div_pow]
  unfold deriveIv meterIv headerIv bcdBytes
  rw [decimalToBcd_eq]
  simp only [contextOf, hu, hb, (hm _).1, (hm _).2, List.map_cons, List.map_nil, Nat.div_div_eq_div_mul]
  have h8 : code.toId.toNat >>> (UInt16.toNat 8 % 16) = code.toId.toNat / 256 := by
    rw [Nat.shiftRight_eq_div_pow]; rfl
  norm_num [Nat.div_div_eq_div_mul]
  rw [h8]

theorem cbcDecrypt_blocks (aes : AesBlock) (key : List UInt8) (blocks : List (List UInt8))
    (hb : ∀ b ∈ blocks, b.length = 16) (prev : List UInt8) :
    cbcDecrypt aes key blocks.length prev blocks.flatten = cbcPlain aes key prev blocks := by
  induction blocks generalizing prev with
  | nil => rfl
  | cons b bs ih =>
    have h16 : b.length = 16 := hb b (by simp)
    rw [List.length_cons, cbcDecrypt, List.flatten_cons, List.take_left' h16, List.drop_left' h16,
      ih (fun x hx => hb x (by simp [hx])) b]
    rfl

theorem cbcPlain_length (aes : AesBlock) (haes : BlockSized aes) (key iv : List UInt8)
    (blocks : List (List UInt8)) (hb : ∀ b ∈ blocks, b.length = 16) (hiv : iv.length = 16) :
    (cbcPlain aes key iv blocks).length = 16 * blocks.length := by
  induction blocks generalizing iv with
  | nil => rfl
  | cons b bs ih =>
    have h16 : b.length = 16 := hb b (by simp)
    have := ih b (fun x hx => hb x (by simp [hx])) h16
    unfold cbcPlain at this ⊢
    simp only [List.map_cons, List.zipWith_cons_cons, List.flatten_cons, List.length_append, this,
      List.length_zipWith, haes key b h16, hiv, List.length_cons]
    omega

theorem blocks_exist (data : List UInt8) :
    ∃ (blocks : List (List UInt8)) (tail : List UInt8), (∀ b ∈ blocks, b.length = 16) ∧
    tail.length < 16 ∧ data = blocks.flatten ++ tail := by
  induction hn : data.length using Nat.strong_induction_on generalizing data with
  | _ n ih =>
    subst hn
    by_cases h : data.length < 16
    · exact ⟨[], data, by simp, h, rfl⟩
    · obtain ⟨bs, t, h1, h2, h3⟩ := ih (data.drop 16).length (by simp; omega) _ rfl
      refine ⟨data.take 16 :: bs, t, ?_, h2, ?_⟩
      · intro b hb
        rcases List.mem_cons.mp hb with rfl | hb
        · simp; omega
        · exact h1 b hb
      · rw [List.flatten_cons, List.append_assoc, ← h3, List.take_append_drop]

theorem flatten_length16 (blocks : List (List UInt8)) (hb : ∀ b ∈ blocks, b.length = 16) :
    blocks.flatten.length = 16 * blocks.length := by
  induction blocks with
  | nil => rfl
  | cons b bs ih =>
    rw [List.flatten_cons, List.length_append, ih (fun x hx => hb x (by simp [hx])), hb b (by simp)]
    simp; omega

/-- CBC decryption into a buffer that is large enough. -/
theorem cbcInto (aes : AesBlock) (haes : BlockSized aes) (data key iv output : List UInt8)
    (hk : key.length = 16) (hiv : iv.length = 16) (hd : data ≠ [])
    (ho : data.length ≤ output.length) :
    ∃ out' plain, decryptAesCbcInto aes data key iv output = (.ok data.length, out') ∧
      sliceTo? out' data.length = some plain ∧ plain.length = data.length ∧
      Deciphered aes key iv data plain := by
  obtain ⟨blocks, tail, h1, h2, h3⟩ := blocks_exist data
  have hf := flatten_length16 blocks h1
  have hlen : data.length = 16 * blocks.length + tail.length := by
    rw [h3, List.length_append, hf]
  have hq : data.length / 16 = blocks.length := by omega
  have hc := cbcPlain_length aes haes key iv blocks h1 hiv
  rw [decryptAesCbcInto_ok aes data key iv output hk hiv hd ho]
  refine ⟨_, cbcPlain aes key iv blocks ++ tail, rfl, ?_, by simp [hc, hlen],
    hd, blocks, tail, h1, h2, h3, rfl⟩
  have hres : (if data.length < 16 then overwrite output data else
      overwrite (overwrite output data)
        (cbcDecrypt aes key (data.length / 16) iv (data.take (16 * (data.length / 16))))) =
      cbcPlain aes key iv blocks ++ tail ++ output.drop data.length := by
    split
    · rename_i h16
      have : blocks = [] := by
        rcases blocks with _ | ⟨b, bs⟩
        · rfl
        · simp at hlen; omega
      subst this
      simp [overwrite, cbcPlain, h3]
    · rw [hq, h3, ← hf, List.take_left, cbcDecrypt_blocks aes key blocks h1]
      unfold overwrite
      rw [hc, ← hf, List.append_assoc blocks.flatten, List.drop_left, List.append_assoc]
  rw [hres]
  unfold sliceTo?
  have hl : (cbcPlain aes key iv blocks ++ tail).length = data.length := by simp [hc, hlen]
  rw [if_pos (by simp only [List.length_append, List.length_drop] at hl ⊢; omega), ← hl, List.take_left]

theorem deciphered_unique {aes : AesBlock} {key iv data p q : List UInt8}
    (h1 : Deciphered aes key iv data p) (h2 : Deciphered aes key iv data q) : p = q := by
  obtain ⟨_, b1, t1, k1, k2, k3, rfl⟩ := h1
  obtain ⟨_, b2, t2, l1, l2, l3, rfl⟩ := h2
  have key : ∀ (b1 b2 : List (List UInt8)) (t1 t2 : List UInt8), (∀ b ∈ b1, b.length = 16) →
      (∀ b ∈ b2, b.length = 16) → t1.length < 16 → t2.length < 16 →
      b1.flatten ++ t1 = b2.flatten ++ t2 → b1 = b2 ∧ t1 = t2 := by
    intro b1
    induction b1 with
    | nil =>
      intro b2 t1 t2 _ h2 ht1 ht2 he
      rcases b2 with _ | ⟨b, bs⟩
      · exact ⟨rfl, by simpa using he⟩
      · have := congrArg List.length he
        have hb := h2 b (by simp)
        simp at this; omega
    | cons b bs ih =>
      intro b2 t1 t2 h1 h2 ht1 ht2 he
      have hb := h1 b (by simp)
      rcases b2 with _ | ⟨c, cs⟩
      · have := congrArg List.length he
        simp at this; omega
      · have hc := h2 c (by simp)
        rw [List.flatten_cons, List.flatten_cons, List.append_assoc, List.append_assoc] at he
        obtain ⟨e1, e2⟩ := List.append_inj he (by omega)
        obtain ⟨e3, e4⟩ := ih cs t1 t2 (fun x hx => h1 x (by simp [hx])) (fun x hx => h2 x (by simp [hx]))
          ht1 ht2 e2
        exact ⟨by rw [e1, e3], e4⟩
  obtain ⟨rfl, rfl⟩ := key b1 b2 t1 t2 k1 l1 k2 l2 (by rw [← k3, ← l3])
  rfl

theorem mode_iv_of (cf : ConfigurationField) (ctxIv iv : List UInt8)
    (h : cf.securityMode = .aesCbc128IvZero ∧ iv = List.replicate 16 0 ∨
      cf.securityMode = .aesCbc128IvNonZero ∧ iv = ctxIv) : ModeIv cf ctxIv iv := by
  have hb := C10_security_mode_bits cf
  unfold ModeIv modeNumber
  rcases h with ⟨h1, h2⟩ | ⟨h1, h2⟩
  · left; rw [h1] at hb; exact ⟨by rw [← hb]; rfl, h2⟩
  · right; rw [h1] at hb; exact ⟨by rw [← hb]; rfl, h2⟩

/-- Decryption of a payload under a context, into a large enough buffer. -/
theorem decryptInto_iff (aes : AesBlock) (haes : BlockSized aes) (key : List UInt8)
    (hk : key.length = 16) (getKey : KeyContext → Res DecryptionError (List UInt8))
    (code : ManufacturerCode) (n : Nat) (hn : n < 2 ^ 32) (version : UInt8) (device : DeviceType)
    (h : ShortTplHeader) (hg : getKey (contextOf code n version device h) = .ok key)
    (hmode : modeNumber h.configurationField ≠ 0)
    (data output : List UInt8) (ho : data.length ≤ output.length) :
    (∀ len out', decryptInto aes getKey (contextOf code n version device h) data output =
        (.ok len, out') →
      ∃ iv plain, ModeIv h.configurationField (meterIv code n version device h.accessNumber) iv ∧
        Deciphered aes key iv data plain ∧ len = data.length ∧ plain.length = data.length ∧
        sliceTo? out' len = some plain) ∧
    (∀ iv plain, ModeIv h.configurationField (meterIv code n version device h.accessNumber) iv →
      Deciphered aes key iv data plain →
      ∃ out', decryptInto aes getKey (contextOf code n version device h) data output =
        (.ok data.length, out') ∧ sliceTo? out' data.length = some plain) := by
  have hiv := deriveIv_eq code n hn version device h
  have hne : h.configurationField.securityMode ≠ .noEncryption := by
    have := (mode_zero_iff h.configurationField).2 hmode
    simpa using this
  have run : ∀ iv, (h.configurationField.securityMode = .aesCbc128IvZero ∧ iv = List.replicate 16 0 ∨
      h.configurationField.securityMode = .aesCbc128IvNonZero ∧
        iv = meterIv code n version device h.accessNumber) →
      decryptInto aes getKey (contextOf code n version device h) data output =
        decryptAesCbcInto aes data key iv output ∧ iv.length = 16 := by
    intro iv hv
    unfold decryptInto
    rw [hg]
    rcases hv with ⟨h1, rfl⟩ | ⟨h1, rfl⟩
    · refine ⟨?_, by simp⟩
      simp only [contextOf, h1]
    · refine ⟨?_, by rw [← hiv]; exact deriveIv_length _⟩
      rw [← hiv]
      simp only [contextOf, h1]
  constructor
  · intro len out' hd
    have hm : ∃ iv, (h.configurationField.securityMode = .aesCbc128IvZero ∧ iv = List.replicate 16 0 ∨
        h.configurationField.securityMode = .aesCbc128IvNonZero ∧
          iv = meterIv code n version device h.accessNumber) := by
      unfold decryptInto at hd
      rw [hg] at hd
      by_cases h1 : h.configurationField.securityMode = .aesCbc128IvZero
      · exact ⟨_, .inl ⟨h1, rfl⟩⟩
      by_cases h2 : h.configurationField.securityMode = .aesCbc128IvNonZero
      · exact ⟨_, .inr ⟨h2, rfl⟩⟩
      simp only [contextOf] at hd
      cases hd
    obtain ⟨iv, hv⟩ := hm
    obtain ⟨e, hl⟩ := run iv hv
    rw [e] at hd
    have hne' : data ≠ [] := by
      rintro rfl
      unfold decryptAesCbcInto at hd
      simp [hk, hl] at hd
    obtain ⟨o, plain, h1, h2, h3, h4⟩ := cbcInto aes haes data key iv output hk hl hne' ho
    rw [h1] at hd
    cases hd
    exact ⟨iv, plain, mode_iv_of _ _ _ hv, h4, rfl, h3, h2⟩
  · intro iv plain hv hd
    obtain ⟨e, hl⟩ := run iv (cbc_mode_fields _ _ _ hv)
    obtain ⟨o, p', h1, h2, h3, h4⟩ := cbcInto aes haes data key iv output hk hl hd.1 ho
    rw [deciphered_unique hd h4, e, h1]
    exact ⟨o, rfl, h2⟩

/-- The identification number a block carries. -/
def blockNumber : UserDataBlock → Nat
  | .long _ h _ => h.identificationNumber
  | _ => 0

theorem variableDataLen_eq (blk : UserDataBlock) : blk.variableDataLen = (variableData blk).length := by
  cases blk <;> rfl

theorem not_encrypted_mode (cf : ConfigurationField) :
    (cf.securityMode != .noEncryption) = true ↔ modeNumber cf ≠ 0 := by
  exact mode_zero_iff cf

/-- Decryption of the variable data under a key, into a buffer that is large enough. -/
theorem decryptWithKey_iff (aes : AesBlock) (haes : BlockSized aes) (key : List UInt8)
    (hk : key.length = 16) (blk : UserDataBlock) (link : Option ManufacturerId) (output : List UInt8)
    (ho : (variableData blk).length ≤ output.length) (hn : blockNumber blk < 2 ^ 32)
    (hl : ∀ id, link = some id → id.identificationNumber < 2 ^ 32) :
    (∀ len out', decryptWithKey aes blk link key output = (.ok len, out') →
      ∃ plain, Recovered aes key link blk plain ∧ len = (variableData blk).length ∧
        plain.length = len ∧ sliceTo? out' len = some plain) ∧
    (∀ plain, Recovered aes key link blk plain →
      ∃ out', decryptWithKey aes blk link key output = (.ok (variableData blk).length, out') ∧
        sliceTo? out' (variableData blk).length = some plain) := by
  cases blk with
  | reset _ => exact ⟨fun _ _ h => (by cases h), fun _ h => (by cases h)⟩
  | fixed _ _ _ _ _ _ => exact ⟨fun _ _ h => (by cases h), fun _ h => (by cases h)⟩
  | noTpl _ _ => exact ⟨fun _ _ h => (by cases h), fun _ h => (by cases h)⟩
  | long ell h block =>
    simp only [variableData, blockNumber] at ho hn ⊢
    by_cases hm : modeNumber h.short.configurationField = 0
    · have he : (h.short.configurationField.securityMode != .noEncryption) = false := by
        rw [Bool.eq_false_iff]; exact fun h => (not_encrypted_mode _).mp h hm
      refine ⟨fun len out' hd => ?_, fun plain hr => ?_⟩
      · simp [decryptWithKey, LongTplHeader.isEncrypted, he] at hd
      · cases hr with
        | long _ _ _ code iv _ h1 h2 h3 =>
          rcases h2 with ⟨h2, _⟩ | ⟨h2, _⟩ <;> rw [hm] at h2 <;> cases h2
    · have he : (h.short.configurationField.securityMode != .noEncryption) = true :=
        (not_encrypted_mode _).mpr hm
      cases hc : h.manufacturer with
      | err e =>
        refine ⟨fun len out' hd => ?_, fun plain hr => ?_⟩
        · simp [decryptWithKey, hc] at hd
        · cases hr with
          | long _ _ _ code iv _ h1 h2 h3 => rw [hc] at h1; cases h1
      | panic =>
        refine ⟨fun len out' hd => ?_, fun plain hr => ?_⟩
        · simp [decryptWithKey, hc] at hd
        · cases hr with
          | long _ _ _ code iv _ h1 h2 h3 => rw [hc] at h1; cases h1
      | ok code =>
        obtain ⟨p, hp, hget⟩ := static_key code.toId (UInt32.ofNat h.identificationNumber) key
        have hrun : decryptWithKey aes (.long ell h block) link key output =
            ((decryptInto aes p.getKey
              (contextOf code h.identificationNumber h.version h.deviceType h.short) block output).1.mapErr
                (fun _ => ()),
             (decryptInto aes p.getKey
              (contextOf code h.identificationNumber h.version h.deviceType h.short) block output).2) := by
          simp only [decryptWithKey, hc, hp, UserDataBlock.decryptVariableData, LongTplHeader.isEncrypted,
            he, Bool.not_true, Bool.false_eq_true, if_false, contextOf]
        obtain ⟨k1, k2⟩ := decryptInto_iff aes haes key hk p.getKey code _ hn h.version h.deviceType h.short
          (hget _ rfl rfl) hm block output ho
        refine ⟨fun len out' hd => ?_, fun plain hr => ?_⟩
        · rw [hrun] at hd
          obtain ⟨hd1, hd2⟩ := Prod.mk.inj hd
          obtain ⟨iv, plain, h1, h2, h3, h4, h5⟩ := k1 len out' (Prod.ext ((mapErr_eq_ok _ _ _).mp hd1) hd2)
          exact ⟨plain, .long _ _ _ _ _ _ hc h1 h2, h3, by rw [h4, h3], h5⟩
        · cases hr with
          | long _ _ _ code' iv _ h1 h2 h3 =>
            rw [hc] at h1; cases h1
            obtain ⟨out', e1, e2⟩ := k2 iv plain h2 h3
            exact ⟨out', by rw [hrun, e1]; rfl, e2⟩
  | short ell h block =>
    simp only [variableData] at ho ⊢
    by_cases hm : modeNumber h.configurationField = 0
    · have he : (h.configurationField.securityMode != .noEncryption) = false := by
        rw [Bool.eq_false_iff]; exact fun h => (not_encrypted_mode _).mp h hm
      refine ⟨fun len out' hd => ?_, fun plain hr => ?_⟩
      · simp [decryptWithKey, ShortTplHeader.isEncrypted, he] at hd
      · cases hr with
        | short _ _ _ code iv _ h1 h2 h3 =>
          rcases h2 with ⟨h2, _⟩ | ⟨h2, _⟩ <;> rw [hm] at h2 <;> cases h2
    · have he : (h.configurationField.securityMode != .noEncryption) = true :=
        (not_encrypted_mode _).mpr hm
      cases hc : link with
      | none =>
        refine ⟨fun len out' hd => ?_, fun plain hr => ?_⟩
        · simp [decryptWithKey] at hd
        · cases hr with
          | short _ _ _ id iv _ h1 h2 h3 => cases h1
      | some id =>
        obtain ⟨p, hp, hget⟩ := static_key id.manufacturerCode.toId (UInt32.ofNat id.identificationNumber) key
        have hrun : decryptWithKey aes (.short ell h block) (some id) key output =
            ((decryptInto aes p.getKey
              (contextOf id.manufacturerCode id.identificationNumber id.version id.deviceType h)
                block output).1.mapErr (fun _ => ()),
             (decryptInto aes p.getKey
              (contextOf id.manufacturerCode id.identificationNumber id.version id.deviceType h)
                block output).2) := by
          simp only [decryptWithKey, hp, UserDataBlock.decryptVariableDataWithContext,
            ShortTplHeader.isEncrypted, he, Bool.not_true, Bool.false_eq_true, if_false, contextOf]
        obtain ⟨k1, k2⟩ := decryptInto_iff aes haes key hk p.getKey id.manufacturerCode _ (hl id hc)
          id.version id.deviceType h (hget _ rfl rfl) hm block output ho
        refine ⟨fun len out' hd => ?_, fun plain hr => ?_⟩
        · rw [hrun] at hd
          obtain ⟨hd1, hd2⟩ := Prod.mk.inj hd
          obtain ⟨iv, plain, h1, h2, h3, h4, h5⟩ := k1 len out' (Prod.ext ((mapErr_eq_ok _ _ _).mp hd1) hd2)
          exact ⟨plain, .short _ _ _ _ _ _ rfl h1 h2, h3, by rw [h4, h3], h5⟩
        · cases hr with
          | short _ _ _ id' iv _ h1 h2 h3 =>
            cases h1
            obtain ⟨out', e1, e2⟩ := k2 iv plain h2 h3
            exact ⟨out', by rw [hrun, e1]; rfl, e2⟩

/-- A key of another length never decrypts, and decryption never panics. -/
theorem decryptWithKey_key (aes : AesBlock) (key : List UInt8) (blk : UserDataBlock)
    (link : Option ManufacturerId) (output : List UInt8) :
    (decryptWithKey aes blk link key output).1 ≠ .panic ∧
    ∀ len, (decryptWithKey aes blk link key output).1 = .ok len → key.length = 16 := by
  have into : ∀ (p : StaticKeyProvider) (ctx : KeyContext) (data : List UInt8), p.getKey ctx = .ok key →
      ctx.securityMode ≠ .noEncryption →
      (decryptInto aes p.getKey ctx data output).1 ≠ .panic ∧
      ∀ len, (decryptInto aes p.getKey ctx data output).1 = .ok len → key.length = 16 := by
    intro p ctx data hg hs
    rw [C39_decrypt_result, hg]
    simp only [hs, if_false]
    constructor
    · repeat' split
      all_goals intro h; cases h
    · intro len
      split
      · split
        · intro h; cases h
        · rename_i h; intro _; simpa using h
      · intro h; cases h
  cases blk with
  | reset _ => exact ⟨fun h => (by cases h), fun _ h => (by cases h)⟩
  | fixed _ _ _ _ _ _ => exact ⟨fun h => (by cases h), fun _ h => (by cases h)⟩
  | noTpl _ _ => exact ⟨fun h => (by cases h), fun _ h => (by cases h)⟩
  | long ell h block =>
    simp only [decryptWithKey]
    cases he : h.isEncrypted with
    | false => simp
    | true =>
      simp only [Bool.not_true, Bool.false_eq_true, if_false]
      cases hc : h.manufacturer with
      | err e => simp
      | panic => simp
      | ok code =>
        obtain ⟨p, hp, hget⟩ := static_key code.toId (UInt32.ofNat h.identificationNumber) key
        simp only [hp, UserDataBlock.decryptVariableData, he, Bool.not_true, Bool.false_eq_true, if_false, hc]
        have hs : h.short.configurationField.securityMode ≠ .noEncryption := by
          simpa [LongTplHeader.isEncrypted] using he
        obtain ⟨h1, h2⟩ := into p (contextOf code h.identificationNumber h.version h.deviceType h.short)
          block (hget _ rfl rfl) hs
        refine ⟨fun hp => h1 ?_, fun len hp => h2 len ((mapErr_eq_ok _ _ _).mp hp)⟩
        revert hp
        simp only [contextOf]
        generalize (decryptInto aes p.getKey _ block output).1 = r
        cases r <;> simp [Res.mapErr]
  | short ell h block =>
    simp only [decryptWithKey]
    cases he : h.isEncrypted with
    | false => simp
    | true =>
      simp only [Bool.not_true, Bool.false_eq_true, if_false]
      cases hc : link with
      | none => simp
      | some id =>
        obtain ⟨p, hp, hget⟩ := static_key id.manufacturerCode.toId (UInt32.ofNat id.identificationNumber) key
        simp only [hp, UserDataBlock.decryptVariableDataWithContext, he, Bool.not_true, Bool.false_eq_true,
          if_false]
        have hs : h.configurationField.securityMode ≠ .noEncryption := by
          simpa [ShortTplHeader.isEncrypted] using he
        obtain ⟨h1, h2⟩ := into p (contextOf id.manufacturerCode id.identificationNumber id.version
          id.deviceType h) block (hget _ rfl rfl) hs
        refine ⟨fun hp => h1 ?_, fun len hp => h2 len ((mapErr_eq_ok _ _ _).mp hp)⟩
        revert hp
        simp only [contextOf]
        generalize (decryptInto aes p.getKey _ block output).1 = r
        cases r <;> simp [Res.mapErr]

/-! ## The header of a block -/

theorem block_header {payload : List UInt8} {blk : UserDataBlock} (h : Block payload blk)
    (hv : variableData blk ≠ []) :
    ∃ header, payload = header ++ variableData blk ∧
      ∀ plain, Block (header ++ plain) (withData plain blk) := by
  induction h with
  | reset _ _ _ _ => exact absurd rfl hv
  | fixed => exact absurd rfl hv
  | long reversed i0 i1 i2 i3 m0 m1 version device acc st c0 c1 block hb =>
    exact ⟨_, rfl, fun plain => .long reversed i0 i1 i2 i3 m0 m1 version device acc st c0 c1 plain hb⟩
  | short ci acc st c0 c1 block hc => exact ⟨_, rfl, fun plain => .short ci acc st c0 c1 plain hc⟩
  | shortA0 x acc st c0 c1 block => exact ⟨_, rfl, fun plain => .shortA0 x acc st c0 c1 plain⟩
  | noTpl block => exact ⟨_, rfl, fun plain => .noTpl plain⟩
  | ellI cc acc inner blk blk' hb he ih =>
    cases blk with
    | short e h block =>
      cases he
      obtain ⟨header, h1, h2⟩ := ih hv
      exact ⟨[0x8C, cc, acc] ++ header, by rw [h1]; rfl, fun plain => by
        rw [List.append_assoc]
        exact .ellI cc acc (header ++ plain) _ _ (h2 plain) rfl⟩
    | noTpl e block =>
      cases he
      obtain ⟨header, h1, h2⟩ := ih hv
      exact ⟨[0x8C, cc, acc] ++ header, by rw [h1]; rfl, fun plain => by
        rw [List.append_assoc]
        exact .ellI cc acc (header ++ plain) _ _ (h2 plain) rfl⟩
    | long _ _ _ => cases he
    | fixed _ _ _ _ _ _ => cases he
    | reset _ => cases he
  | ellII cc acc s0 s1 s2 s3 r0 r1 block => exact ⟨_, rfl, fun plain => .ellII cc acc s0 s1 s2 s3 r0 r1 plain⟩
  | ellIII cc acc m0 m1 a0 a1 a2 a3 a4 a5 s0 s1 s2 s3 r0 r1 block =>
    exact ⟨_, rfl, fun plain => .ellIII cc acc m0 m1 a0 a1 a2 a3 a4 a5 s0 s1 s2 s3 r0 r1 plain⟩

end MBus
