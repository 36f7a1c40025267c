import Verif.Lemmas.Base
import Verif.Spec.DataInfo
namespace MBus
open Spec

theorem roundNat53_small (n : Nat) (h : n ≤ 2 ^ 53) : roundNat53 n = n := by
  unfold roundNat53
  by_cases h0 : n = 0
  · subst h0; decide
  by_cases hn : n = 2 ^ 53
  · subst hn; decide +kernel
  have hl : n.log2 < 53 := (Nat.log2_lt h0).mpr (by omega)
  have : n.log2 + 1 - 53 = 0 := by omega
  simp [this, Nat.mod_one]

theorem roundF64_small (v : Int) (h : v.natAbs ≤ 2 ^ 53) : roundF64 v = v := by
  unfold roundF64
  rw [roundNat53_small _ h]
  split <;> omega

/-- What the rounding computes for numbers above 2^53. -/
theorem roundNat53_big (n : Nat) (h : 2 ^ 53 < n) :
    ∃ u q, u = 2 ^ (n.log2 - 52) ∧ 2 ^ 52 ≤ q ∧ q < 2 ^ 53 ∧ q * u ≤ n ∧ n < (q + 1) * u ∧
      2 ^ n.log2 = 2 ^ 52 * u ∧
      ((roundNat53 n = q * u ∧ 2 * (n - q * u) ≤ u) ∨
        (roundNat53 n = (q + 1) * u ∧ 2 * ((q + 1) * u - n) ≤ u)) := by
  have hn0 : n ≠ 0 := by omega
  have hL : 53 ≤ n.log2 := (Nat.le_log2 hn0).mpr (by omega)
  have h1 : 2 ^ n.log2 ≤ n := Nat.log2_self_le hn0
  have h2 : n < 2 ^ (n.log2 + 1) := Nat.lt_log2_self
  have hd : n.log2 + 1 - 53 = n.log2 - 52 := by omega
  have hp : 2 ^ n.log2 = 2 ^ 52 * 2 ^ (n.log2 - 52) := by
    rw [← Nat.pow_add]; congr 1; omega
  have hpos : 0 < 2 ^ (n.log2 - 52) := Nat.two_pow_pos _
  refine ⟨2 ^ (n.log2 - 52), n / 2 ^ (n.log2 - 52), rfl, ?_, ?_, ?_, ?_, hp, ?_⟩
  · rw [Nat.le_div_iff_mul_le hpos]; omega
  · rw [Nat.div_lt_iff_lt_mul hpos]
    rw [Nat.pow_succ, hp] at h2; omega
  · exact Nat.div_mul_le_self _ _
  · have := Nat.lt_div_mul_add (a := n) hpos
    rw [Nat.add_mul]; omega
  · have hmod := Nat.div_add_mod n (2 ^ (n.log2 - 52))
    have hlt := Nat.mod_lt n hpos
    rw [Nat.mul_comm] at hmod
    unfold roundNat53
    simp only [hd]
    split
    · left; refine ⟨rfl, ?_⟩; omega
    · right; refine ⟨rfl, ?_⟩
      rw [Nat.add_mul]; omega

theorem representable_multiple (k u L : Nat) (hu : u = 2 ^ (L - 52)) (hL : 53 ≤ L)
    (hk : 2 ^ L ≤ k) (hr : ∃ m e, k = m * 2 ^ e ∧ m ≤ 2 ^ 53) : u ∣ k := by
  obtain ⟨m, e, rfl, hm⟩ := hr
  by_cases he : L - 52 ≤ e
  · rw [hu]; exact Dvd.dvd.mul_left (Nat.pow_dvd_pow 2 he) m
  · have he' : e ≤ L - 53 := by omega
    have h1 : 2 ^ e ≤ 2 ^ (L - 53) := Nat.pow_le_pow_right (by omega) he'
    have h2 : 2 ^ L = 2 ^ 53 * 2 ^ (L - 53) := by rw [← Nat.pow_add]; congr 1; omega
    have h3 : m * 2 ^ e ≤ 2 ^ 53 * 2 ^ (L - 53) := Nat.mul_le_mul hm h1
    have h4 : m * 2 ^ e = 2 ^ L := by omega
    rw [h4, hu]; exact Nat.pow_dvd_pow 2 (by omega)

theorem representable_natAbs (k : Int) (h : Representable k) :
    ∃ m e, k.natAbs = m * 2 ^ e ∧ m ≤ 2 ^ 53 := by
  obtain ⟨m, e, rfl, hm⟩ := h
  refine ⟨m.natAbs, e, ?_, hm⟩
  rw [Int.natAbs_mul, Int.natAbs_pow]; rfl

theorem roundNat53_nearest (n : Nat) : (∃ m e, roundNat53 n = m * 2 ^ e ∧ m ≤ 2 ^ 53) ∧
    ∀ k : Nat, (∃ m e, k = m * 2 ^ e ∧ m ≤ 2 ^ 53) →
      ((n : Int) - roundNat53 n).natAbs ≤ ((n : Int) - k).natAbs := by
  by_cases hs : n ≤ 2 ^ 53
  · rw [roundNat53_small n hs]
    exact ⟨⟨n, 0, by simp, hs⟩, by intro k _; simp⟩
  have hn0 : n ≠ 0 := by omega
  have hL : 53 ≤ n.log2 := (Nat.le_log2 hn0).mpr (by omega)
  obtain ⟨u, q, hu, hq1, hq2, h1, h2, h3, hr⟩ := roundNat53_big n (by omega)
  constructor
  · rcases hr with ⟨e, _⟩ | ⟨e, _⟩
    · exact ⟨q, _, by rw [e, hu], by omega⟩
    · exact ⟨q + 1, _, by rw [e, hu], by omega⟩
  · intro k hk
    have hmul : 2 ^ 52 * u ≤ q * u := Nat.mul_le_mul_right u hq1
    have hqu : (q + 1) * u = q * u + u := by ring
    have hk' : k ≤ q * u ∨ (q + 1) * u ≤ k := by
      by_cases hkL : 2 ^ n.log2 ≤ k
      · obtain ⟨c, rfl⟩ := representable_multiple k u n.log2 hu hL hkL hk
        rcases Nat.lt_or_ge q c with hc | hc
        · right; rw [Nat.mul_comm u c]; exact Nat.mul_le_mul_right u hc
        · left; rw [Nat.mul_comm u c]; exact Nat.mul_le_mul_right u hc
      · left; omega
    generalize (q + 1) * u = B at *
    generalize q * u = A at *
    rcases hr with ⟨e, h⟩ | ⟨e, h⟩ <;> rw [e] <;> omega

theorem roundF64_nearest (v : Int) : Nearest v (roundF64 v) := by
  obtain ⟨⟨m, e, h1, h2⟩, h⟩ := roundNat53_nearest v.natAbs
  constructor
  · unfold roundF64
    split
    · refine ⟨-(m : Int), e, ?_, by simpa using h2⟩
      rw [h1]; push_cast; ring
    · exact ⟨m, e, by rw [h1]; push_cast; ring, by simpa using h2⟩
  · intro k hk
    have := h k.natAbs (representable_natAbs k hk)
    unfold roundF64
    split <;> omega

end MBus
