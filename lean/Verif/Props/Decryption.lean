import Verif.Lemmas.Decryption
import Verif.Props.Core
/-!
# Properties of decryption and the key provider: C38-C41
-/
namespace MBus
open Spec

/-! ## C38 -/

/-- C38: after any history of `add_key` calls on a provider of any capacity, looking up a meter
gives the key of the first accepted request for it, or `KeyNotFound`. -/
theorem C38_key_provider_first_wins (n : Nat) (reqs : List AddReq) (ctx : KeyContext) :
    (afterAdds n reqs).getKey ctx =
      match firstWins n reqs ctx.manufacturer.toId ctx.identificationNumber with
      | some key => .ok key
      | none => .err .keyNotFound := by
  obtain ⟨h1, h2, h3⟩ := afterAdds_inv n reqs
  unfold StaticKeyProvider.getKey firstWins
  rw [if_pos (by omega), h3, List.find?_map]
  have : ((fun e : UInt64 × List UInt8 =>
        e.1 == StaticKeyProvider.computeKeyId ctx.manufacturer.toId ctx.identificationNumber) ∘
      fun r : AddReq => (StaticKeyProvider.computeKeyId r.manufacturer r.ident, r.key)) =
      fun r : AddReq => decide (r.manufacturer = ctx.manufacturer.toId ∧
        r.ident = ctx.identificationNumber) := by
    funext r
    rw [Bool.eq_iff_iff]
    simp [computeKeyId_inj]
  rw [this]
  cases (reqs.take n).find? (fun r => decide (r.manufacturer = ctx.manufacturer.toId ∧
    r.ident = ctx.identificationNumber)) <;> simp

/-- C38: an `add_key` after `reqs` earlier calls succeeds exactly when fewer than `n` calls were
made before, and a refused call changes nothing. -/
theorem C38_key_provider_capacity (n : Nat) (reqs : List AddReq) (r : AddReq) :
    ((afterAdds n reqs).addKey r.manufacturer r.ident r.key).1 =
        (if reqs.length < n then .ok () else .err .invalidDataLength) ∧
      (n ≤ reqs.length →
        ((afterAdds n reqs).addKey r.manufacturer r.ident r.key).2 = afterAdds n reqs) := by
  obtain ⟨h1, h2, h3⟩ := afterAdds_inv n reqs
  unfold StaticKeyProvider.addKey
  simp only [h1, h2]
  by_cases hlt : reqs.length < n
  · simp [hlt]
  · simp [hlt]

/-- C38: keys stored for one meter are never returned for another one. -/
theorem C38_key_provider_no_confusion (n : Nat) (reqs : List AddReq) (ctx : KeyContext)
    (key : List UInt8) (h : (afterAdds n reqs).getKey ctx = .ok key) :
    ∃ r ∈ reqs, r.manufacturer = ctx.manufacturer.toId ∧ r.ident = ctx.identificationNumber ∧
      r.key = key := by
  rw [C38_key_provider_first_wins] at h
  unfold firstWins at h
  cases hf : (reqs.take n).find? (fun r => r.manufacturer = ctx.manufacturer.toId ∧
      r.ident = ctx.identificationNumber) with
  | none => rw [hf] at h; simp at h
  | some r =>
    rw [hf] at h
    simp at h
    have hp := List.find?_some hf
    simp at hp
    exact ⟨r, List.mem_of_mem_take (List.mem_of_find?_eq_some hf), hp.1, hp.2, h⟩

/-- A concrete meter used in the examples: manufacturer `GWF`, id 12345678. -/
def sampleCtx (mode : SecurityMode) : KeyContext :=
  ⟨⟨71, 87, 70⟩, 12345678, 0x3C, .waterMeter, mode, 0x2A⟩

example : (afterAdds 2 [⟨1, 2, [9]⟩, ⟨0x1EE6, 12345678, [7]⟩, ⟨0x1EE6, 12345678, [8]⟩]).getKey
    (sampleCtx .noEncryption) = .ok [7] := by decide
example : (afterAdds 1 [⟨1, 2, [9]⟩, ⟨0x1EE6, 12345678, [7]⟩]).getKey
    (sampleCtx .noEncryption) = .err .keyNotFound := by decide

/-! ## C39 -/

/-- `aes` maps 16-byte blocks to 16-byte blocks, as every block cipher does. -/
def BlockSized (aes : AesBlock) : Prop := ∀ k b, b.length = 16 → (aes k b).length = 16

/-- C39: exactly when `decrypt_into` succeeds, and with what value. -/
theorem C39_decrypt_result (aes : AesBlock) (getKey : KeyContext → Res DecryptionError (List UInt8))
    (ctx : KeyContext) (data output : List UInt8) :
    (decryptInto aes getKey ctx data output).1 =
      match getKey ctx with
      | .err e => .err e
      | .panic => .panic
      | .ok key =>
        if ctx.securityMode = .noEncryption then
          if data.length ≤ output.length then .ok data.length else .err .invalidDataLength
        else if ctx.securityMode = .aesCbc128IvZero ∨ ctx.securityMode = .aesCbc128IvNonZero then
          if key.length ≠ 16 then .err .invalidKeyLength
          else if data = [] then .err .invalidDataLength
          else if data.length ≤ output.length then .ok data.length else .err .invalidDataLength
        else .err (.unsupportedMode ctx.securityMode) := by
  have key : ∀ k iv : List UInt8, iv.length = 16 →
      (decryptAesCbcInto aes data k iv output).1 =
        if k.length ≠ 16 then .err .invalidKeyLength
        else if data = [] then .err .invalidDataLength
        else if data.length ≤ output.length then .ok data.length else .err .invalidDataLength := by
    intro k iv hiv
    by_cases hk : k.length = 16
    · by_cases hd : data = []
      · simp [decryptAesCbcInto, hk, hiv, hd]
      · by_cases ho : data.length ≤ output.length
        · rw [decryptAesCbcInto_ok aes data k iv output hk hiv hd ho]
          simp [hk, hd, ho]
        · have hd' : data.isEmpty = false := by simpa using hd
          unfold decryptAesCbcInto
          simp only [hk, hiv, hd', ho, hd]
          split <;> simp
    · simp [decryptAesCbcInto, hk]
  unfold decryptInto
  cases hg : getKey ctx with
  | err e => simp
  | panic => simp
  | ok k =>
    cases hm : ctx.securityMode <;> simp [key, deriveIv_length]
    split <;> simp

/-- C39: an error leaves the output buffer untouched. -/
theorem C39_decrypt_error_leaves_output (aes : AesBlock)
    (getKey : KeyContext → Res DecryptionError (List UInt8)) (ctx : KeyContext)
    (data output : List UInt8) (e : DecryptionError)
    (h : (decryptInto aes getKey ctx data output).1 = .err e) :
    (decryptInto aes getKey ctx data output).2 = output := by
  have key : ∀ k iv : List UInt8, (decryptAesCbcInto aes data k iv output).1 = .err e →
      (decryptAesCbcInto aes data k iv output).2 = output := by
    intro k iv
    unfold decryptAesCbcInto
    simp only
    repeat' split
    all_goals simp
  unfold decryptInto at *
  cases hg : getKey ctx with
  | err e => simp
  | panic => simp
  | ok k =>
    simp only [hg] at h ⊢
    cases hm : ctx.securityMode <;> simp only [hm] at h ⊢
    case noEncryption =>
      split at h
      · simp at h
      · rename_i hn; rw [if_neg hn]
    case aesCbc128IvZero => exact key _ _ h
    case aesCbc128IvNonZero => exact key _ _ h

/-- C39: on success exactly the first `data.length` bytes of the output are written, the trailing
partial block (`len % 16` bytes) is copied unchanged, and without encryption everything is copied
unchanged. -/
theorem C39_decrypt_writes (aes : AesBlock) (haes : BlockSized aes)
    (getKey : KeyContext → Res DecryptionError (List UInt8)) (ctx : KeyContext)
    (data output : List UInt8) (n : Nat) (out' : List UInt8)
    (h : decryptInto aes getKey ctx data output = (.ok n, out')) :
    n = data.length ∧ out'.length = output.length ∧ out'.drop n = output.drop n ∧
      (out'.take n).drop (n - n % 16) = data.drop (n - n % 16) ∧
      (ctx.securityMode = .noEncryption → out'.take n = data) := by
  have base : data.length ≤ output.length →
      (overwrite output data).length = output.length ∧
      (overwrite output data).drop data.length = output.drop data.length ∧
      (overwrite output data).take data.length = data := by
    intro ho
    refine ⟨overwrite_length _ _ ho, ?_, ?_⟩ <;> simp [overwrite]
  have key : ∀ k iv : List UInt8, iv.length = 16 →
      decryptAesCbcInto aes data k iv output = (.ok n, out') →
      n = data.length ∧ out'.length = output.length ∧ out'.drop n = output.drop n ∧
      (out'.take n).drop (n - n % 16) = data.drop (n - n % 16) := by
    intro k iv hiv h
    have hk : k.length = 16 := by
      by_contra hk
      simp [decryptAesCbcInto, hk] at h
    have hd : data ≠ [] := by
      intro hd
      simp [decryptAesCbcInto, hk, hiv, hd] at h
    have ho : data.length ≤ output.length := by
      by_contra ho
      have hd' : data.isEmpty = false := by simpa using hd
      unfold decryptAesCbcInto at h
      simp only [hk, hiv, hd', ho] at h
      split at h <;> simp at h
    rw [decryptAesCbcInto_ok aes data k iv output hk hiv hd ho] at h
    obtain ⟨b1, b2, b3⟩ := base ho
    split at h
    · cases h
      exact ⟨rfl, b1, b2, by rw [b3]⟩
    · rename_i hl
      cases h
      have hc := cbcDecrypt_length aes k haes (data.length / 16) iv
        (data.take (16 * (data.length / 16))) hiv (by simp; omega)
      generalize hcd : cbcDecrypt aes k (data.length / 16) iv
        (data.take (16 * (data.length / 16))) = c at hc
      have e : data.length - data.length % 16 = 16 * (data.length / 16) := by omega
      refine ⟨rfl, ?_, ?_, ?_⟩
      · rw [overwrite_length _ _ (by omega), b1]
      · rw [overwrite, List.drop_append, List.drop_eq_nil_of_le (by omega), List.nil_append,
          List.drop_drop, show c.length + (data.length - c.length) = data.length by omega, b2]
      · rw [e, overwrite, List.take_append, List.take_of_length_le (l := c) (by omega),
          List.drop_append, List.drop_eq_nil_of_le (by omega), List.nil_append, hc]
        simp only [Nat.sub_self, List.drop_zero]
        rw [List.take_drop, show 16 * (data.length / 16) + (data.length - 16 * (data.length / 16))
          = data.length by omega, b3]
  unfold decryptInto at h
  cases hg : getKey ctx with
  | err e => simp [hg] at h
  | panic => simp [hg] at h
  | ok k =>
    simp only [hg] at h
    cases hm : ctx.securityMode <;> simp only [hm] at h
    case noEncryption =>
      split at h
      · rename_i ho
        cases h
        obtain ⟨b1, b2, b3⟩ := base ho
        exact ⟨rfl, b1, b2, by rw [b3], fun _ => b3⟩
      · simp at h
    case aesCbc128IvZero =>
      obtain ⟨a1, a2, a3, a4⟩ := key _ _ (by simp) h
      exact ⟨a1, a2, a3, a4, by simp⟩
    case aesCbc128IvNonZero =>
      obtain ⟨a1, a2, a3, a4⟩ := key _ _ (deriveIv_length _) h
      exact ⟨a1, a2, a3, a4, by simp⟩
    all_goals simp at h

/-- Non-vacuity: 18 bytes in mode 7 with an (identity) block function: one block is processed, two
bytes are copied, the rest of the buffer is kept. -/
example : decryptInto (fun _ b => b) (fun _ => .ok (List.replicate 16 1)) (sampleCtx .aesCbc128IvZero)
    (List.replicate 18 5) (List.replicate 20 9) =
    (.ok 18, List.replicate 18 5 ++ [9, 9]) := by decide
example : BlockSized (fun _ b => b) := fun _ _ h => h

/-! ## C40 -/

/-- C40: if the payload is the CBC encryption of whole plaintext blocks followed by a clear partial
block, decryption returns the plaintext followed by that partial block.  Mode 7 uses the zero IV,
mode 5 the IV derived from the context. -/
theorem C40_cbc_inverts_encryption (enc dec : AesBlock) (key : List UInt8)
    (hk : key.length = 16)
    (hlen : ∀ b, b.length = 16 → (enc key b).length = 16)
    (hinv : ∀ b, b.length = 16 → dec key (enc key b) = b)
    (getKey : KeyContext → Res DecryptionError (List UInt8)) (ctx : KeyContext)
    (hgk : getKey ctx = .ok key) (iv : List UInt8)
    (hmode : (ctx.securityMode = .aesCbc128IvZero ∧ iv = List.replicate 16 0) ∨
      (ctx.securityMode = .aesCbc128IvNonZero ∧ iv = deriveIv ctx))
    (blocks : List (List UInt8)) (hb : ∀ b ∈ blocks, b.length = 16) (hne : blocks ≠ [])
    (tail : List UInt8) (ht : tail.length < 16) (output : List UInt8)
    (ho : 16 * blocks.length + tail.length ≤ output.length) :
    ∃ out', decryptInto dec getKey ctx (cbcEncrypt enc key iv blocks ++ tail) output =
        (.ok (16 * blocks.length + tail.length), out') ∧
      out'.take (16 * blocks.length + tail.length) = blocks.flatten ++ tail := by
  have hiv : iv.length = 16 := by
    rcases hmode with ⟨_, rfl⟩ | ⟨_, rfl⟩
    · simp
    · exact deriveIv_length _
  have hcl := cbcEncrypt_length enc key hlen blocks iv hiv hb
  have hbl : 1 ≤ blocks.length := by
    rcases blocks with _ | ⟨b, bs⟩
    · exact absurd rfl hne
    · simp
  have hrt := cbc_roundtrip enc dec key hlen hinv blocks iv hiv hb []
  generalize hc : cbcEncrypt enc key iv blocks = c at *
  have hred : decryptInto dec getKey ctx (c ++ tail) output =
      decryptAesCbcInto dec (c ++ tail) key iv output := by
    unfold decryptInto
    rw [hgk]
    rcases hmode with ⟨hm, rfl⟩ | ⟨hm, rfl⟩ <;> simp [hm]
  have hne' : c ++ tail ≠ [] := by
    intro h
    have := congrArg List.length h
    rw [List.length_append, hcl, List.length_nil] at this
    omega
  have hlen' : (c ++ tail).length = 16 * blocks.length + tail.length := by simp [hcl]
  rw [hred, decryptAesCbcInto_ok dec _ key iv output hk hiv hne' (by omega), hlen',
    if_neg (show ¬ (16 * blocks.length + tail.length < 16) by omega)]
  refine ⟨_, rfl, ?_⟩
  clear hred hne' hc hlen'
  have hq : (16 * blocks.length + tail.length) / 16 = blocks.length := by omega
  rw [hq]
  rw [show List.take (16 * blocks.length) (c ++ tail) = c by
    rw [List.take_append_of_le_length (by omega), List.take_of_length_le (by omega)]]
  rw [List.append_nil] at hrt
  rw [hrt]
  have hfl : blocks.flatten.length = 16 * blocks.length := by
    rw [List.length_flatten]
    have : blocks.map List.length = List.replicate blocks.length 16 := by
      apply List.eq_replicate_iff.mpr
      simp; exact hb
    rw [this]; simp; omega
  unfold overwrite
  rw [hfl, List.append_assoc, List.drop_append, List.drop_eq_nil_of_le (by omega), hcl]
  simp only [List.nil_append, Nat.sub_self, List.drop_zero]
  rw [List.take_append, List.take_of_length_le (l := blocks.flatten) (by omega), hfl]
  congr 1
  rw [List.take_append_of_le_length (by omega), List.take_of_length_le (by omega)]

/-- Non-vacuity: with byte-wise complement as the block cipher all hypotheses hold. -/
example : ∃ out', decryptInto (fun _ b => b.map (~~~ ·)) (fun _ => .ok (List.replicate 16 1))
      (sampleCtx .aesCbc128IvNonZero)
      (cbcEncrypt (fun _ b => b.map (~~~ ·)) (List.replicate 16 1)
        (deriveIv (sampleCtx .aesCbc128IvNonZero)) [List.replicate 16 3, List.replicate 16 4] ++ [1, 2])
      (List.replicate 40 0) = (.ok 34, out') ∧
      out'.take 34 = [List.replicate 16 3, List.replicate 16 4].flatten ++ [1, 2] :=
  C40_cbc_inverts_encryption (fun _ b => b.map (~~~ ·)) (fun _ b => b.map (~~~ ·))
    (List.replicate 16 1) (by simp) (by simp)
    (by intro b _; simp [Function.comp_def]) _ _ rfl _
    (Or.inr ⟨rfl, rfl⟩) [List.replicate 16 3, List.replicate 16 4] (by decide) (by simp) [1, 2]
    (by decide) (List.replicate 40 0) (by decide)

/-! ## C41 -/

/-- C41: for a context taken from a header, the mode 5 IV is the header's manufacturer and
identification bytes as transmitted, the version, the device type byte and eight copies of the
access number. -/
theorem C41_iv_is_address_field (m0 m1 d0 d1 d2 d3 version devType access : UInt8)
    (mode : SecurityMode) (code : ManufacturerCode) (n : Nat)
    (hm : ManufacturerCode.fromId (u16le m0 m1) = .ok code)
    (hn : bcdHexDigitsToU32 d0 d1 d2 d3 = .ok n) :
    deriveIv ⟨code, UInt32.ofNat n, version, DeviceType.fromByte devType, mode, access⟩ =
      [m0, m1, d0, d1, d2, d3, version, devType, access, access, access, access, access, access,
        access, access] := by
  have hb := C08_bcd_id_bound d0 d1 d2 d3 n hn
  have h1 := C07_manufacturer_to_id_from_id _ _ hm
  have h2 := C08_bcd_id_reencode d0 d1 d2 d3 n hn
  have hu := u16le_toNat m0 m1
  have l0 : (u16le m0 m1).toUInt8 = m0 := by
    apply UInt8.toNat_inj.mp
    have := m0.toNat_lt
    simp [hu]
  have l1 : (u16le m0 m1 >>> 8).toUInt8 = m1 := by
    apply UInt8.toNat_inj.mp
    have := m0.toNat_lt
    have := m1.toNat_lt
    simp [hu, Nat.shiftRight_eq_div_pow]; omega
  have hnn : (UInt32.ofNat n).toNat = n := by simp; omega
  simp [deriveIv, h1, h2, l0, l1, hnn, C09_device_type_roundtrip, List.replicate]

/-- C41: headers that differ in any of these fields have different IVs. -/
theorem C41_iv_injective (m0 m1 d0 d1 d2 d3 version devType access : UInt8)
    (m0' m1' d0' d1' d2' d3' version' devType' access' : UInt8)
    (mode mode' : SecurityMode) (code code' : ManufacturerCode) (n n' : Nat)
    (hm : ManufacturerCode.fromId (u16le m0 m1) = .ok code)
    (hn : bcdHexDigitsToU32 d0 d1 d2 d3 = .ok n)
    (hm' : ManufacturerCode.fromId (u16le m0' m1') = .ok code')
    (hn' : bcdHexDigitsToU32 d0' d1' d2' d3' = .ok n')
    (h : deriveIv ⟨code, UInt32.ofNat n, version, DeviceType.fromByte devType, mode, access⟩ =
      deriveIv ⟨code', UInt32.ofNat n', version', DeviceType.fromByte devType', mode', access'⟩) :
    code = code' ∧ n = n' ∧ version = version' ∧ devType = devType' ∧ access = access' := by
  rw [C41_iv_is_address_field m0 m1 d0 d1 d2 d3 version devType access mode code n hm hn,
    C41_iv_is_address_field m0' m1' d0' d1' d2' d3' version' devType' access' mode' code' n'
      hm' hn'] at h
  simp only [List.cons.injEq] at h
  obtain ⟨rfl, rfl, rfl, rfl, rfl, rfl, rfl, rfl, rfl, _⟩ := h
  rw [hm] at hm'
  rw [hn] at hn'
  cases hm'; cases hn'
  simp

example : deriveIv (sampleCtx .aesCbc128IvNonZero) =
    [0xE6, 0x1E, 0x78, 0x56, 0x34, 0x12, 0x3C, 0x07, 0x2A, 0x2A, 0x2A, 0x2A, 0x2A, 0x2A, 0x2A,
      0x2A] := by decide

end MBus
