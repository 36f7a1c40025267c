import Verif.Lemmas.Base
import Verif.Spec.Core
import Verif.Model.Decryption
namespace MBus
open Spec

theorem lo_eq (b : UInt8) : (b &&& 0x0F).toNat = lo b := by
  simp only [UInt8.toNat_and, lo]
  exact Nat.and_two_pow_sub_one_eq_mod b.toNat 4

theorem hi_eq (b : UInt8) : (b >>> 4).toNat = hi b := by
  simp [UInt8.toNat_shiftRight, hi, Nat.shiftRight_eq_div_pow]

theorem hi_lt (b : UInt8) : hi b < 16 := by have := b.toNat_lt; unfold hi; omega
theorem lo_lt (b : UInt8) : lo b < 16 := by unfold lo; omega

theorem byte_ext {a b : UInt8} (h1 : lo a = lo b) (h2 : hi a = hi b) : a = b := by
  apply UInt8.toNat_inj.mp
  unfold lo hi at *
  omega

theorem isBcd_iff (b : UInt8) : (b &&& 0x0F > 9 || b >>> 4 > 9) = !(decide (IsBcd b)) := by
  revert b; decide +kernel

theorem bcdLoop_ok (o) (l : List UInt8) (acc n : Nat) :
    bcdLoop o l acc = .ok n ↔ (∀ b ∈ l, IsBcd b) ∧
      n = l.foldl (fun acc b => acc * 100 + hi b * 10 + lo b) acc := by
  induction l generalizing acc with
  | nil => simp [bcdLoop, eq_comm]
  | cons b l ih =>
    unfold bcdLoop
    simp only [isBcd_iff]
    by_cases h : IsBcd b
    · simp only [lo_eq, hi_eq]
      simp [h, ih]
    · simp [h]

theorem bcdLoop_ne_panic (o) (l : List UInt8) (acc : Nat) : bcdLoop o l acc ≠ .panic := by
  induction l generalizing acc with
  | nil => simp [bcdLoop]
  | cons b l ih =>
    unfold bcdLoop
    simp only
    split
    · simp
    · exact ih _

theorem bcdHex_ok (d0 d1 d2 d3 : UInt8) (n : Nat) :
    bcdHexDigitsToU32 d0 d1 d2 d3 = .ok n ↔
      (IsBcd d0 ∧ IsBcd d1 ∧ IsBcd d2 ∧ IsBcd d3) ∧ n = bcdValue [d0, d1, d2, d3] := by
  unfold bcdHexDigitsToU32
  rw [bcdLoop_ok]
  constructor
  · rintro ⟨h, rfl⟩
    simp at h
    refine ⟨by tauto, ?_⟩
    simp [bcdValue]; omega
  · rintro ⟨h, rfl⟩
    refine ⟨by simp; tauto, ?_⟩
    simp [bcdValue]; omega

theorem bcdByte_spec (v : Nat) : lo (bcdByte v) = v % 10 ∧ hi (bcdByte v) = v / 10 % 10 := by
  have key : ∀ a b : Fin 10, lo ((UInt8.ofNat b.val <<< 4) ||| UInt8.ofNat a.val) = a.val ∧
      hi ((UInt8.ofNat b.val <<< 4) ||| UInt8.ofNat a.val) = b.val := by decide +kernel
  exact key ⟨v % 10, by omega⟩ ⟨v / 10 % 10, by omega⟩

theorem decimalToBcd_eq (v : Nat) : decimalToBcd v =
    [bcdByte v, bcdByte (v / 100), bcdByte (v / 100 / 100), bcdByte (v / 100 / 100 / 100)] := rfl

end MBus
