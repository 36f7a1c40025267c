import Verif.Spec.Crc
import Verif.Lemmas.Base
import Verif.Model.Wireless
import Mathlib.Algebra.Polynomial.Degree.Lemmas
import Mathlib.Algebra.Polynomial.Monic
import Mathlib.Algebra.Polynomial.RingDivision
import Mathlib.Algebra.CharP.Two
import Mathlib.Tactic.ComputeDegree
import Mathlib.Tactic.LinearCombination
import Mathlib.Data.Nat.Bitwise
import Mathlib.RingTheory.Coprime.Lemmas
import Mathlib.Data.List.Induction
namespace MBus
open Spec Polynomial

theorem bitsPoly_xor (n a b : Nat) : bitsPoly n (a ^^^ b) = bitsPoly n a + bitsPoly n b := by
  unfold bitsPoly
  rw [← Finset.sum_add_distrib]
  apply Finset.sum_congr rfl
  intro i _
  rw [Nat.testBit_xor]
  cases a.testBit i <;> cases b.testBit i <;> simp [CharTwo.add_self_eq_zero]

theorem bitsPoly_coeff (n w p : Nat) :
    (bitsPoly n w).coeff p = if p < n ∧ w.testBit p then 1 else 0 := by
  unfold bitsPoly
  rw [finset_sum_coeff]
  by_cases hp : p < n
  · rw [Finset.sum_eq_single p]
    · by_cases hb : w.testBit p <;> simp [hb, hp]
    · intro b _ hbp
      by_cases hb : w.testBit b <;> simp [hb, coeff_X_pow, Ne.symm hbp]
    · simp [hp]
  · simp only [hp, false_and, if_false]
    apply Finset.sum_eq_zero
    intro i hi
    have : i < n := Finset.mem_range.mp hi
    by_cases hb : w.testBit i
    · simp [hb, coeff_X_pow]; omega
    · simp [hb]

theorem bitsPoly_degree (n w : Nat) : (bitsPoly n w).degree < n := by
  rw [degree_lt_iff_coeff_zero]
  intro m hm
  rw [bitsPoly_coeff]
  simp; omega

theorem crcGen_eq : crcGen = X ^ 16 + bitsPoly 16 0x3D65 := by
  unfold crcGen bitsPoly
  simp only [Finset.sum_range_succ, Finset.sum_range_zero]
  have h : ∀ i, Nat.testBit 0x3D65 i = decide (0x3D65 / 2 ^ i % 2 = 1) := by
    intro i; rw [Nat.testBit_eq_decide_div_mod_eq]
  simp [h]
  ring

theorem crcGen_degree : crcGen.degree = 16 := by
  unfold crcGen
  compute_degree!

theorem crcGen_natDegree : crcGen.natDegree = 16 := by
  unfold crcGen
  compute_degree!

theorem crcGen_ne_zero : crcGen ≠ 0 := by
  intro h
  have := crcGen_degree
  rw [h] at this
  simp at this

theorem crcGen_dvd_small (p : GF2X) (hp : p.degree < 16) (h : crcGen ∣ p) : p = 0 := by
  by_contra hne
  have := degree_le_of_dvd h hne
  rw [crcGen_degree] at this
  exact absurd (lt_of_le_of_lt this hp) (lt_irrefl _)

theorem crcBit_toNat (c : UInt16) : (crcBit c).toNat =
    (if c.toNat.testBit 15 then (2 * c.toNat % 65536) ^^^ 0x3D65 else 2 * c.toNat % 65536) := by
  have hb : (c &&& 0x8000 ≠ 0) ↔ c.toNat.testBit 15 = true := by
    rw [ne_eq, ← UInt16.toNat_inj]
    simp only [UInt16.toNat_and]
    have h8 : (UInt16.toNat 0x8000) = 2 ^ 15 := rfl
    rw [h8, Nat.and_two_pow]
    cases c.toNat.testBit 15 <;> simp
  have hs : (c <<< 1).toNat = 2 * c.toNat % 65536 := by
    rw [UInt16.toNat_shiftLeft]
    have : UInt16.toNat 1 % 16 = 1 := rfl
    rw [this, Nat.shiftLeft_eq]; omega
  unfold crcBit
  by_cases h : c.toNat.testBit 15 = true
  · rw [if_pos (hb.mpr h), if_pos h, UInt16.toNat_xor, hs]; rfl
  · rw [if_neg (fun h' => h (hb.mp h')), if_neg h, hs]

theorem bitsPoly_double (c : Nat) :
    bitsPoly 16 (2 * c % 65536) = bitsPoly 16 c * X + (if c.testBit 15 then X ^ 16 else 0) := by
  ext p
  rw [bitsPoly_coeff, coeff_add]
  have hcf : (if c.testBit 15 then (X ^ 16 : GF2X) else 0).coeff p
      = if c.testBit 15 ∧ p = 16 then 1 else 0 := by
    by_cases h : c.testBit 15 <;> simp [h, coeff_X_pow]
  rw [hcf, show 65536 = 2 ^ 16 from rfl, Nat.testBit_mod_two_pow]
  cases p with
  | zero => simp
  | succ p =>
    rw [coeff_mul_X, bitsPoly_coeff, show 2 * c = 2 ^ 1 * c by ring, Nat.testBit_two_pow_mul]
    by_cases hp : p = 15
    · subst hp
      by_cases hb : c.testBit 15
      · simp [hb, CharTwo.add_self_eq_zero]
      · simp [hb]
    · by_cases hp2 : p < 15
      · have h1 : p + 1 < 16 := by omega
        have h2 : p < 16 := by omega
        simp [h1, h2, hp, hp2]
      · have h1 : ¬ p + 1 < 16 := by omega
        have h2 : ¬ p < 16 := by omega
        simp [h1, h2, hp]

/-- Register content as a polynomial. -/
noncomputable def reg (c : UInt16) : GF2X := bitsPoly 16 c.toNat

theorem reg_crcBit (c : UInt16) : crcGen ∣ reg (crcBit c) + reg c * X := by
  unfold reg
  rw [crcBit_toNat]
  by_cases h : c.toNat.testBit 15
  · rw [if_pos h, bitsPoly_xor, bitsPoly_double, if_pos h, crcGen_eq]
    refine ⟨1, ?_⟩
    have := CharTwo.add_self_eq_zero (bitsPoly 16 c.toNat * X)
    linear_combination this
  · rw [if_neg h, bitsPoly_double, if_neg h]
    rw [add_zero, CharTwo.add_self_eq_zero]
    exact dvd_zero _

theorem reg_crcBit_trans (c : UInt16) (q : GF2X) (h : crcGen ∣ reg c + q) :
    crcGen ∣ reg (crcBit c) + q * X := by
  have h1 := reg_crcBit c
  have h2 := dvd_add h1 (dvd_mul_of_dvd_left h X)
  have e : reg (crcBit c) + reg c * X + (reg c + q) * X = reg (crcBit c) + q * X := by
    have := CharTwo.add_self_eq_zero (reg c * X)
    linear_combination this
  rwa [e] at h2

theorem reg_xor_byte (c : UInt16) (b : UInt8) :
    reg (c ^^^ (b.toUInt16 <<< 8)) = reg c + bitsPoly 8 b.toNat * X ^ 8 := by
  unfold reg
  rw [UInt16.toNat_xor, bitsPoly_xor]
  congr 1
  have hb := b.toNat_lt
  have e : (b.toUInt16 <<< 8).toNat = 2 ^ 8 * b.toNat := by
    rw [UInt16.toNat_shiftLeft, UInt8.toNat_toUInt16]
    have : UInt16.toNat 8 % 16 = 8 := rfl
    rw [this, Nat.shiftLeft_eq]; omega
  rw [e]
  ext p
  rw [bitsPoly_coeff, Nat.testBit_two_pow_mul, coeff_mul_X_pow']
  by_cases hp : 8 ≤ p
  · rw [if_pos hp, bitsPoly_coeff]
    have : p < 16 ↔ p - 8 < 8 := by omega
    simp [hp, this]
  · simp [hp]

theorem reg_crcByte (c : UInt16) (b : UInt8) (q : GF2X) (h : crcGen ∣ reg c + q) :
    crcGen ∣ reg (crcByte c b) + (q + bitsPoly 8 b.toNat * X ^ 8) * X ^ 8 := by
  have h0 : crcGen ∣ reg (c ^^^ (b.toUInt16 <<< 8)) + (q + bitsPoly 8 b.toNat * X ^ 8) := by
    rw [reg_xor_byte]
    have := CharTwo.add_self_eq_zero (bitsPoly 8 b.toNat * X ^ 8)
    have e : reg c + bitsPoly 8 b.toNat * X ^ 8 + (q + bitsPoly 8 b.toNat * X ^ 8) = reg c + q := by
      linear_combination this
    rwa [e]
  unfold crcByte
  have h8 := reg_crcBit_trans _ _ (reg_crcBit_trans _ _ (reg_crcBit_trans _ _ (reg_crcBit_trans _ _
    (reg_crcBit_trans _ _ (reg_crcBit_trans _ _ (reg_crcBit_trans _ _ (reg_crcBit_trans _ _ h0)))))))
  have e : (q + bitsPoly 8 b.toNat * X ^ 8) * X * X * X * X * X * X * X * X
      = (q + bitsPoly 8 b.toNat * X ^ 8) * X ^ 8 := by ring
  rwa [e] at h8

theorem reg_fold (data : List UInt8) (c : UInt16) (q : GF2X) (h : crcGen ∣ reg c + q * X ^ 16) :
    crcGen ∣ reg (data.foldl crcByte c) +
      data.foldl (fun p b => p * X ^ 8 + bitsPoly 8 b.toNat) q * X ^ 16 := by
  induction data generalizing c q with
  | nil => simpa using h
  | cons b data ih =>
    simp only [List.foldl_cons]
    apply ih
    have := reg_crcByte c b _ h
    have e : (q * X ^ 16 + bitsPoly 8 b.toNat * X ^ 8) * X ^ 8 =
        (q * X ^ 8 + bitsPoly 8 b.toNat) * X ^ 16 := by ring
    rwa [e] at this

theorem reg_zero : reg 0 = 0 := by
  unfold reg bitsPoly
  simp

theorem reg_xor (a b : UInt16) : reg (a ^^^ b) = reg a + reg b := by
  unfold reg; rw [UInt16.toNat_xor, bitsPoly_xor]

theorem reg_degree (c : UInt16) : (reg c).degree < 16 := bitsPoly_degree 16 _

theorem reg_eq_zero (c : UInt16) (h : reg c = 0) : c = 0 := by
  apply UInt16.toNat_inj.mp
  apply Nat.eq_of_testBit_eq
  intro i
  have hc := congrArg (fun p => p.coeff i) h
  simp only [reg, bitsPoly_coeff, coeff_zero] at hc
  by_cases hi : i < 16
  · simp [hi] at hc
    simpa using hc
  · have h1 : c.toNat.testBit i = false := by
      apply Nat.testBit_lt_two_pow
      calc c.toNat < 2 ^ 16 := c.toNat_lt
        _ ≤ 2 ^ i := Nat.pow_le_pow_right (by omega) (by omega)
    rw [h1]; simp

/-- The register after the data is the remainder of the message times `X^16`. -/
theorem reg_data (data : List UInt8) :
    crcGen ∣ reg (data.foldl crcByte 0) + msgPoly data * X ^ 16 := by
  apply reg_fold
  simp [reg_zero]

theorem reg_byte (b : UInt8) : reg b.toUInt16 = bitsPoly 8 b.toNat := by
  unfold reg
  rw [UInt8.toNat_toUInt16]
  ext p
  rw [bitsPoly_coeff, bitsPoly_coeff]
  by_cases hp : p < 8
  · have : p < 16 := by omega
    simp [hp, this]
  · have : b.toNat.testBit p = false := by
      apply Nat.testBit_lt_two_pow
      calc b.toNat < 2 ^ 8 := b.toNat_lt
        _ ≤ 2 ^ p := Nat.pow_le_pow_right (by omega) (by omega)
    simp [this]

theorem msgPoly_append_two (block : List UInt8) (a b : UInt8) :
    msgPoly (block ++ [a, b]) = msgPoly block * X ^ 16 + reg (u16be a b) := by
  have e : reg (u16be a b) = bitsPoly 8 a.toNat * X ^ 8 + bitsPoly 8 b.toNat := by
    have h1 := reg_xor_byte (b.toUInt16) a
    have h2 : (b.toUInt16 ^^^ (a.toUInt16 <<< 8)) = u16be a b := by
      apply UInt16.toNat_inj.mp
      rw [u16be, u16le, UInt16.toNat_xor, UInt16.toNat_or]
      apply Nat.eq_of_testBit_eq
      intro i
      rw [Nat.testBit_xor, Nat.testBit_or]
      have hb := b.toNat_lt
      have ha := a.toNat_lt
      have e : (a.toUInt16 <<< 8).toNat = 2 ^ 8 * a.toNat := by
        rw [UInt16.toNat_shiftLeft, UInt8.toNat_toUInt16]
        have : UInt16.toNat 8 % 16 = 8 := rfl
        rw [this, Nat.shiftLeft_eq]; omega
      rw [e, Nat.testBit_two_pow_mul, UInt8.toNat_toUInt16]
      by_cases hi : 8 ≤ i
      · have : b.toNat.testBit i = false := by
          apply Nat.testBit_lt_two_pow
          calc b.toNat < 2 ^ 8 := hb
            _ ≤ 2 ^ i := Nat.pow_le_pow_right (by omega) hi
        simp [this]
      · simp [hi]
    rw [← h2, h1, add_comm, reg_byte]
  rw [e]
  unfold msgPoly
  rw [List.foldl_append]
  simp only [List.foldl_cons, List.foldl_nil]
  ring

theorem u16be_not (hi lo : UInt8) : u16be (~~~hi) (~~~lo) = u16be hi lo ^^^ 0xFFFF := by
  have h : ∀ b : UInt8, (~~~b).toNat = 255 - b.toNat := by
    intro b; revert b; decide +kernel
  have h16 : ∀ w : UInt16, w ^^^ 0xFFFF = ~~~w := by
    intro w
    apply UInt16.toBitVec_inj.mp
    simp only [UInt16.toBitVec_xor, UInt16.toBitVec_not]
    exact BitVec.xor_allOnes
  rw [h16]
  apply UInt16.toNat_inj.mp
  rw [u16be, u16le_toNat, h, h, UInt16.toNat_not, u16be, u16le_toNat]
  have := hi.toNat_lt
  have := lo.toNat_lt
  simp; omega

/-- The implemented check is the polynomial check. -/
theorem crc16_iff (block : List UInt8) (hi lo : UInt8) :
    crc16 block = u16be hi lo ↔ CrcOk block hi lo := by
  unfold CrcOk crc16
  rw [msgPoly_append_two, u16be_not]
  have hd := reg_data block
  generalize block.foldl crcByte 0 = r at *
  have e : msgPoly block * X ^ 16 + reg (u16be hi lo ^^^ 0xFFFF) =
      (reg r + msgPoly block * X ^ 16) + reg (r ^^^ (u16be hi lo ^^^ 0xFFFF)) := by
    rw [reg_xor r]
    have := CharTwo.add_self_eq_zero (reg r)
    linear_combination -this
  rw [e]
  constructor
  · intro h
    rw [← h]
    have : r ^^^ (r ^^^ 0xFFFF ^^^ 0xFFFF) = 0 := by
      rw [UInt16.xor_assoc r, UInt16.xor_self, UInt16.xor_zero, UInt16.xor_self]
    rw [this, reg_zero, add_zero]
    exact hd
  · intro h
    have h2 := (dvd_add_right hd).mp h
    have h3 := reg_eq_zero _ (crcGen_dvd_small _ (reg_degree _) h2)
    have h4 : r = u16be hi lo ^^^ 0xFFFF := by
      have := congrArg (· ^^^ (u16be hi lo ^^^ 0xFFFF)) h3
      simpa [UInt16.xor_assoc] using this
    rw [h4, UInt16.xor_assoc, UInt16.xor_self, UInt16.xor_zero]


theorem msgPoly_append_one (w : List UInt8) (b : UInt8) :
    msgPoly (w ++ [b]) = msgPoly w * X ^ 8 + bitsPoly 8 b.toNat := by
  unfold msgPoly; rw [List.foldl_append]; rfl

theorem bitAt_append_lt (w : List UInt8) (b : UInt8) (p : Nat) (hp : p < 8) :
    bitAt (w ++ [b]) p = b.toNat.testBit p := by
  unfold bitAt
  rw [Nat.div_eq_of_lt hp, Nat.mod_eq_of_lt hp]
  simp

theorem bitAt_append_ge (w : List UInt8) (b : UInt8) (p : Nat) (hp : 8 ≤ p) :
    bitAt (w ++ [b]) p = bitAt w (p - 8) := by
  unfold bitAt
  have h1 : p / 8 = (p - 8) / 8 + 1 := by omega
  have h2 : p % 8 = (p - 8) % 8 := by omega
  rw [h1, h2, List.reverse_append]
  simp

theorem msgPoly_coeff (w : List UInt8) (p : Nat) :
    (msgPoly w).coeff p = if bitAt w p then 1 else 0 := by
  induction w using List.reverseRecOn generalizing p with
  | nil => simp [msgPoly, bitAt]
  | append_singleton w b ih =>
    rw [msgPoly_append_one, coeff_add, coeff_mul_X_pow', bitsPoly_coeff]
    by_cases hp : 8 ≤ p
    · rw [if_pos hp, ih, bitAt_append_ge _ _ _ hp]
      have : ¬ p < 8 := by omega
      simp [this]
    · rw [if_neg hp, bitAt_append_lt _ _ _ (by omega)]
      have : p < 8 := by omega
      simp [this]

theorem msgPoly_inj (w w' : List UInt8) (hl : w.length = w'.length) (h : msgPoly w = msgPoly w') :
    w = w' := by
  have hb : ∀ p, bitAt w p = bitAt w' p := by
    intro p
    have := congrArg (fun q => q.coeff p) h
    simp only [msgPoly_coeff] at this
    cases h1 : bitAt w p <;> cases h2 : bitAt w' p <;> simp [h1, h2] at this ⊢
  clear h
  induction w using List.reverseRecOn generalizing w' with
  | nil => simp at hl; exact (List.eq_nil_of_length_eq_zero hl.symm).symm
  | append_singleton w b ih =>
    rcases List.eq_nil_or_concat w' with rfl | ⟨w2, b2, rfl⟩
    · simp at hl
    · rw [List.concat_eq_append] at *
      have e1 : w = w2 := by
        apply ih
        · simpa using hl
        · intro p
          have := hb (p + 8)
          rw [bitAt_append_ge _ _ _ (by omega), bitAt_append_ge _ _ _ (by omega)] at this
          simpa using this
      have e2 : b = b2 := by
        apply UInt8.toNat_inj.mp
        apply Nat.eq_of_testBit_eq
        intro i
        by_cases hi : i < 8
        · have := hb i
          rwa [bitAt_append_lt _ _ _ hi, bitAt_append_lt _ _ _ hi] at this
        · have hb : ∀ c : UInt8, c.toNat.testBit i = false := by
            intro c
            apply Nat.testBit_lt_two_pow
            calc c.toNat < 2 ^ 8 := c.toNat_lt
              _ ≤ 2 ^ i := Nat.pow_le_pow_right (by omega) (by omega)
          rw [hb, hb]
      rw [e1, e2]

theorem codeword_dvd (w : List UInt8) (h : Codeword w) : crcGen ∣ msgPoly w + reg 0xFFFF := by
  obtain ⟨block, hi, lo, rfl, h⟩ := h
  unfold CrcOk at h
  rw [msgPoly_append_two, u16be_not, reg_xor] at h
  rw [msgPoly_append_two]
  rwa [add_assoc]

theorem codewords_dvd (w w' : List UInt8) (h : Codeword w) (h' : Codeword w') :
    crcGen ∣ msgPoly w + msgPoly w' := by
  have := dvd_add (codeword_dvd w h) (codeword_dvd w' h')
  have e : msgPoly w + reg 0xFFFF + (msgPoly w' + reg 0xFFFF) = msgPoly w + msgPoly w' := by
    have := CharTwo.add_self_eq_zero (reg 0xFFFF)
    linear_combination this
  rwa [e] at this

theorem crcGen_coprime_X : IsCoprime crcGen (X : GF2X) := by
  refine ⟨1, -(X ^ 15 + X ^ 12 + X ^ 11 + X ^ 10 + X ^ 9 + X ^ 7 + X ^ 5 + X ^ 4 + X), ?_⟩
  unfold crcGen
  ring

theorem burst_zero (D : GF2X) (k : Nat) (hdvd : crcGen ∣ D)
    (hw : ∀ p, D.coeff p ≠ 0 → k ≤ p ∧ p < k + 16) : D = 0 := by
  have hX : X ^ k ∣ D := by
    rw [X_pow_dvd_iff]
    intro d hd
    by_contra hne
    have := hw d hne
    omega
  obtain ⟨E, rfl⟩ := hX
  have hE : crcGen ∣ E := (IsCoprime.pow_right crcGen_coprime_X).dvd_of_dvd_mul_left hdvd
  have hdeg : E.degree < 16 := by
    have : ((16 : Nat) : WithBot Nat) = 16 := rfl
    rw [← this, degree_lt_iff_coeff_zero]
    intro m hm
    by_contra hne
    have h1 : (X ^ k * E).coeff (m + k) = E.coeff m := by
      rw [mul_comm, coeff_mul_X_pow]
    have := hw (m + k) (by rw [h1]; exact hne)
    omega
  rw [crcGen_dvd_small E hdeg hE, mul_zero]

theorem burst_detect (w w' : List UInt8) (hl : w.length = w'.length) (h : Codeword w)
    (h' : Codeword w') (k : Nat)
    (hw : ∀ p, bitAt w p ≠ bitAt w' p → k ≤ p ∧ p < k + 16) : w = w' := by
  apply msgPoly_inj w w' hl
  have hD := burst_zero _ k (codewords_dvd w w' h h') (by
    intro p hp
    apply hw
    intro e
    apply hp
    rw [coeff_add, msgPoly_coeff, msgPoly_coeff, e, CharTwo.add_self_eq_zero])
  exact CharTwo.add_eq_zero.mp hD

theorem eval_bitsPoly (b : UInt8) : (bitsPoly 8 b.toNat).eval 1 =
    (((List.range 8).filter (fun i => b.toNat.testBit i)).length : ZMod 2) := by
  unfold bitsPoly
  rw [eval_finset_sum, ← List.countP_eq_length_filter]
  have : ∀ n : Nat, (∑ i ∈ Finset.range n, eval 1 (if b.toNat.testBit i then (X ^ i : GF2X) else 0))
      = ((List.range n).countP (fun i => b.toNat.testBit i) : ZMod 2) := by
    intro n
    induction n with
    | zero => simp
    | succ n ih =>
      rw [Finset.sum_range_succ, ih, List.range_succ, List.countP_append]
      by_cases h : b.toNat.testBit n <;> simp [h]
  exact this 8

theorem eval_msgPoly (w : List UInt8) : (msgPoly w).eval 1 = (popcount w : ZMod 2) := by
  induction w using List.reverseRecOn with
  | nil => simp [msgPoly, popcount]
  | append_singleton w b ih =>
    rw [msgPoly_append_one, eval_add, eval_mul, ih, eval_bitsPoly]
    simp [popcount]

theorem parity_detect (w w' : List UInt8) (h : Codeword w) (h' : Codeword w') :
    popcount w % 2 = popcount w' % 2 := by
  obtain ⟨q, hq⟩ := codewords_dvd w w' h h'
  have h1 := congrArg (fun p => p.eval 1) hq
  simp only [eval_add, eval_mul, eval_msgPoly] at h1
  have hg : crcGen.eval 1 = 0 := by
    unfold crcGen
    simp
    decide
  rw [hg, zero_mul] at h1
  have h2 : ((popcount w + popcount w' : Nat) : ZMod 2) = 0 := by exact_mod_cast h1
  rw [ZMod.natCast_eq_zero_iff] at h2
  omega

end MBus
