import Verif.Lemmas.Core
import Verif.Spec.Decryption
import Mathlib.Data.List.Induction
namespace MBus
open Spec

theorem computeKeyId_toNat (m : UInt16) (i : UInt32) :
    (StaticKeyProvider.computeKeyId m i).toNat = m.toNat * 2 ^ 32 + i.toNat := by
  have := m.toNat_lt
  have := i.toNat_lt
  simp only [StaticKeyProvider.computeKeyId, UInt64.toNat_or, UInt64.toNat_shiftLeft,
    UInt16.toNat_toUInt64, UInt32.toNat_toUInt64]
  rw [Nat.shiftLeft_eq]
  have e : (UInt64.toNat 32 % 64) = 32 := rfl
  rw [e, Nat.mod_eq_of_lt (by omega), Nat.mul_comm, ← Nat.two_pow_add_eq_or_of_lt (i := 32) (by omega)]

theorem computeKeyId_inj (m m' : UInt16) (i i' : UInt32) :
    StaticKeyProvider.computeKeyId m i = StaticKeyProvider.computeKeyId m' i' ↔ m = m' ∧ i = i' := by
  constructor
  · intro h
    have := congrArg UInt64.toNat h
    rw [computeKeyId_toNat, computeKeyId_toNat] at this
    have h1 := i.toNat_lt
    have h2 := i'.toNat_lt
    exact ⟨UInt16.toNat_inj.mp (by omega), UInt32.toNat_inj.mp (by omega)⟩
  · rintro ⟨rfl, rfl⟩; rfl

theorem afterAdds_append (n : Nat) (reqs : List AddReq) (r : AddReq) :
    afterAdds n (reqs ++ [r]) = ((afterAdds n reqs).addKey r.manufacturer r.ident r.key).2 := by
  simp [afterAdds]

/-- Invariant of the provider after any history. -/
theorem afterAdds_inv (n : Nat) (reqs : List AddReq) :
    (afterAdds n reqs).entries.length = n ∧ (afterAdds n reqs).count = min reqs.length n ∧
    (afterAdds n reqs).entries.take (afterAdds n reqs).count =
      (reqs.take n).map (fun r => (StaticKeyProvider.computeKeyId r.manufacturer r.ident, r.key)) := by
  induction reqs using List.reverseRecOn with
  | nil => simp [afterAdds, StaticKeyProvider.new]
  | append_singleton reqs r ih =>
    rw [afterAdds_append]
    obtain ⟨h1, h2, h3⟩ := ih
    generalize afterAdds n reqs = p at *
    unfold StaticKeyProvider.addKey
    simp only [h1, h2]
    by_cases hlt : reqs.length < n
    · have hm : min reqs.length n = reqs.length := by omega
      simp only [hm, hlt, if_true, List.length_set, h1, List.length_append, List.length_cons,
        List.length_nil]
      refine ⟨trivial, by omega, ?_⟩
      rw [h2, hm] at h3
      rw [List.take_set, List.take_add_one, h3, List.take_of_length_le (l := reqs) (by omega),
        List.take_of_length_le (l := reqs ++ [r]) (by simp; omega)]
      have : p.entries[reqs.length]? = some (p.entries[reqs.length]'(by omega)) :=
        List.getElem?_eq_getElem _
      rw [this]
      simp
    · have hm : min reqs.length n = n := by omega
      simp only [hm, Nat.lt_irrefl, if_false, List.length_append]
      refine ⟨h1, by simp [h2]; omega, ?_⟩
      rw [h3, List.take_append_of_le_length (by omega)]

theorem overwrite_length (o s : List UInt8) (h : s.length ≤ o.length) :
    (overwrite o s).length = o.length := by
  simp [overwrite]; omega

theorem cbcDecrypt_length (aes : AesBlock) (key : List UInt8)
    (haes : ∀ k b, b.length = 16 → (aes k b).length = 16) (n : Nat) (prev data : List UInt8)
    (hp : prev.length = 16) (hd : data.length = 16 * n) :
    (cbcDecrypt aes key n prev data).length = 16 * n := by
  induction n generalizing prev data with
  | zero => simp [cbcDecrypt]
  | succ n ih =>
    have ht : (data.take 16).length = 16 := by simp; omega
    simp only [cbcDecrypt, List.length_append, xorBlock, List.length_zipWith,
      haes key _ ht, hp]
    rw [ih (data.take 16) (data.drop 16) ht (by simp; omega)]
    omega

theorem xor_cancel (p q : List UInt8) (h : p.length = q.length) :
    xorBlock (List.zipWith (· ^^^ ·) p q) q = p := by
  induction p generalizing q with
  | nil => simp [xorBlock]
  | cons a p ih =>
    cases q with
    | nil => simp at h
    | cons b q =>
      simp only [xorBlock] at ih
      simp only [xorBlock, List.zipWith_cons_cons]
      rw [ih q (by simpa using h), UInt8.xor_assoc, UInt8.xor_self, UInt8.xor_zero]

theorem cbc_roundtrip (enc dec : AesBlock) (key : List UInt8)
    (hlen : ∀ b, b.length = 16 → (enc key b).length = 16)
    (hinv : ∀ b, b.length = 16 → dec key (enc key b) = b) (blocks : List (List UInt8))
    (iv : List UInt8) (hiv : iv.length = 16) (hb : ∀ b ∈ blocks, b.length = 16)
    (rest : List UInt8) :
    cbcDecrypt dec key blocks.length iv (cbcEncrypt enc key iv blocks ++ rest) = blocks.flatten := by
  induction blocks generalizing iv with
  | nil => simp [cbcDecrypt]
  | cons b bs ih =>
    have hb0 : b.length = 16 := hb b (by simp)
    have hx : (List.zipWith (· ^^^ ·) b iv).length = 16 := by simp [hb0, hiv]
    have hc : (enc key (List.zipWith (· ^^^ ·) b iv)).length = 16 := hlen _ hx
    simp only [List.length_cons, cbcDecrypt, cbcEncrypt, List.append_assoc, List.flatten_cons]
    rw [List.take_left' hc, List.drop_left' hc, hinv _ hx, xor_cancel _ _ (by omega),
      ih _ hc (fun b hb' => hb b (by simp [hb']))]

theorem cbcEncrypt_length (enc : AesBlock) (key : List UInt8)
    (hlen : ∀ b, b.length = 16 → (enc key b).length = 16) (blocks : List (List UInt8))
    (iv : List UInt8) (hiv : iv.length = 16) (hb : ∀ b ∈ blocks, b.length = 16) :
    (cbcEncrypt enc key iv blocks).length = 16 * blocks.length := by
  induction blocks generalizing iv with
  | nil => simp [cbcEncrypt]
  | cons b bs ih =>
    have hb0 : b.length = 16 := hb b (by simp)
    have hx : (List.zipWith (· ^^^ ·) b iv).length = 16 := by simp [hb0, hiv]
    have hc : (enc key (List.zipWith (· ^^^ ·) b iv)).length = 16 := hlen _ hx
    simp only [cbcEncrypt, List.length_append, List.length_cons]
    rw [ih _ hc (fun b hb' => hb b (by simp [hb'])), hc]
    omega

theorem deriveIv_length (ctx : KeyContext) : (deriveIv ctx).length = 16 := by
  simp [deriveIv, decimalToBcd_eq]

/-- Closed form of `decryptAesCbcInto` on the inputs that pass the length checks. -/
theorem decryptAesCbcInto_ok (aes : AesBlock) (data key iv output : List UInt8)
    (hk : key.length = 16) (hiv : iv.length = 16) (hd : data ≠ [])
    (ho : data.length ≤ output.length) :
    decryptAesCbcInto aes data key iv output =
      (.ok data.length, if data.length < 16 then overwrite output data else
        overwrite (overwrite output data)
          (cbcDecrypt aes key (data.length / 16) iv (data.take (16 * (data.length / 16))))) := by
  have hd' : data.isEmpty = false := by simpa using hd
  have e : data.length - data.length % 16 = 16 * (data.length / 16) := by omega
  unfold decryptAesCbcInto
  simp only [hk, hiv, hd', ne_eq, not_true_eq_false, if_false, Bool.false_eq_true, e]
  by_cases hl : data.length < 16
  · have : 16 * (data.length / 16) = 0 := by omega
    simp [hl, this, ho]
  · have : ¬ 16 * (data.length / 16) = 0 := by omega
    have ht : (overwrite output data).take (16 * (data.length / 16)) =
        data.take (16 * (data.length / 16)) := by
      simp only [overwrite]
      rw [List.take_append_of_le_length (by omega)]
    rw [if_neg this, if_pos ho, if_neg hl, ht, Nat.mul_div_cancel_left _ (by omega)]

end MBus
