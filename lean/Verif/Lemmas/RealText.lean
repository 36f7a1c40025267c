import Verif.Model.RealText
import Verif.Spec.RealText
import Verif.Lemmas.Decimal
import Verif.Lemmas.JsonFields
import Mathlib.Tactic.Linarith
import Mathlib.Tactic.Ring
import Mathlib.Tactic.FieldSimp
import Mathlib.Tactic.Positivity
/-!
# Lemmas about the texts of reals
-/
namespace MBus
open Spec

theorem double_neg {w : ℚ} (h : IsDouble w) : IsDouble (-w) := by
  obtain ⟨m, q, h1, h2, h3, h4⟩ := h
  refine ⟨m, q, h1, h2, h3, ?_⟩
  rcases h4 with rfl | rfl
  · exact .inr rfl
  · exact .inl (neg_neg _)

theorem even_neg {w : ℚ} (h : IsEvenDouble w) : IsEvenDouble (-w) := by
  obtain ⟨m, q, ⟨h1, h2, h3, h4⟩, h5⟩ := h
  refine ⟨m, q, ⟨h1, h2, h3, ?_⟩, h5⟩
  rcases h4 with rfl | rfl
  · exact .inr rfl
  · exact .inl (neg_neg _)

theorem reads_neg {x v : ℚ} (h : ReadsAs x v) : ReadsAs (-x) (-v) := by
  refine ⟨double_neg h.1, fun w hw hne => ?_⟩
  have e1 : |-x - -v| = |x - v| := by rw [← abs_neg]; congr 1; ring
  have e2 : |-x - w| = |x - -w| := by rw [← abs_neg]; congr 1; ring
  rw [e1, e2]
  rcases h.2 (-w) (double_neg hw) (fun e => hne (by rw [← e, neg_neg])) with h | ⟨h, h'⟩
  · exact .inl h
  · exact .inr ⟨h, even_neg h'⟩

theorem reads_neg_iff {x v : ℚ} : ReadsAs (-x) (-v) ↔ ReadsAs x v :=
  ⟨fun h => by have := reads_neg h; rwa [neg_neg, neg_neg] at this, reads_neg⟩

theorem reads_unique {x v v' : ℚ} (h : ReadsAs x v) (h' : ReadsAs x v') : v = v' ∨ (IsEvenDouble v ∧ IsEvenDouble v') := by
  by_cases e : v = v'
  · exact .inl e
  · right
    rcases h.2 v' h'.1 (Ne.symm e) with a | ⟨a, a'⟩ <;> rcases h'.2 v h.1 e with b | ⟨b, b'⟩
    · exact absurd a (not_lt.2 b.le)
    · exact absurd a (by rw [b]; exact lt_irrefl _)
    · exact absurd b (by rw [a]; exact lt_irrefl _)
    · exact ⟨a', b'⟩

/-- The width of the gap below `m`. -/
def gapBelow (m : Nat) : ℚ := if m = 2 ^ 52 then 1 / 2 else 1

theorem two_zpow_pos (q : Int) : (0 : ℚ) < 2 ^ q := zpow_pos (by norm_num) q

/-- The numbers of binary64 next to `m`·2^`q`. -/
theorem double_gap {m : Nat} {q : Int} (h1 : 2 ^ 52 ≤ m) {w : ℚ} (hw : IsDouble w)
    (hne : w ≠ m * 2 ^ q) : (m + 1) * 2 ^ q ≤ w ∨ w ≤ (m - gapBelow m) * 2 ^ q := by
  have ht := two_zpow_pos q
  have hm1 : (2 ^ 52 : ℚ) ≤ m := by exact_mod_cast h1
  have hg : gapBelow m ≤ 1 := by unfold gapBelow; split <;> norm_num
  obtain ⟨n, p, hn, -, -, hv | hv⟩ := hw
  · rcases le_or_gt q p with hqp | hqp
    · obtain ⟨j, rfl⟩ : ∃ j : Nat, p = q + j := ⟨(p - q).toNat, by omega⟩
      have e : w = ((n * 2 ^ j : Nat) : ℚ) * 2 ^ q := by
        rw [hv, zpow_add₀ (by norm_num), zpow_natCast]; push_cast; ring
      have hne' : n * 2 ^ j ≠ m := fun e' => hne (by rw [e, e'])
      rcases lt_or_gt_of_ne hne' with hlt | hgt
      · right
        have : ((n * 2 ^ j : Nat) : ℚ) + 1 ≤ m := by exact_mod_cast hlt
        rw [e]; exact mul_le_mul_of_nonneg_right (by linarith) ht.le
      · left
        have : (m : ℚ) + 1 ≤ ((n * 2 ^ j : Nat) : ℚ) := by exact_mod_cast hgt
        rw [e]; exact mul_le_mul_of_nonneg_right this ht.le
    · right
      have e1 : (2 : ℚ) ^ p ≤ 2 ^ (q - 1) := zpow_le_zpow_right₀ (by norm_num) (by omega)
      have e2 : (2 : ℚ) ^ (q - 1) = 2 ^ q / 2 := by rw [zpow_sub₀ (by norm_num)]; norm_num
      have hn' : (n : ℚ) ≤ 2 ^ 53 - 1 := by
        have : n + 1 ≤ 2 ^ 53 := hn
        have : (n : ℚ) + 1 ≤ 2 ^ 53 := by exact_mod_cast this
        linarith
      have e3 : w ≤ (2 ^ 53 - 1) * (2 ^ q / 2) := by
        rw [hv, ← e2]
        exact mul_le_mul hn' e1 (two_zpow_pos p).le (by norm_num)
      refine e3.trans ?_
      have : (2 ^ 53 - 1 : ℚ) / 2 ≤ m - gapBelow m := by
        unfold gapBelow; split
        · rename_i h; rw [h]; norm_num
        · rename_i h
          have : 2 ^ 52 + 1 ≤ m := by omega
          have : (2 ^ 52 + 1 : ℚ) ≤ m := by exact_mod_cast this
          linarith
      have := mul_le_mul_of_nonneg_right this ht.le
      linarith
  · right
    have : w ≤ 0 := by rw [hv]; have := two_zpow_pos p; exact neg_nonpos.2 (by positivity)
    refine this.trans (mul_nonneg ?_ ht.le)
    linarith

theorem gap_pos (m : Nat) : 0 < gapBelow m := by unfold gapBelow; split <;> norm_num
theorem gap_le (m : Nat) : gapBelow m ≤ 1 := by unfold gapBelow; split <;> norm_num

/-- Numbers within half the gaps are read as `m`·2^`q`. -/
theorem reads_of_near {m : Nat} {q : Int} (h1 : 2 ^ 52 ≤ m) (h2 : m < 2 ^ 53) (hq1 : -1074 ≤ q) (hq2 : q ≤ 971) {x : ℚ}
    (hlow : (m - gapBelow m / 2) * 2 ^ q ≤ x) (hhigh : x ≤ (m + 1 / 2) * 2 ^ q)
    (hodd : m % 2 ≠ 0 → (m - gapBelow m / 2) * 2 ^ q < x ∧ x < (m + 1 / 2) * 2 ^ q) :
    ReadsAs x (m * 2 ^ q) := by
  have ht := two_zpow_pos q
  have hform : DoubleForm m q ((m : ℚ) * 2 ^ q) := ⟨h2, hq1, hq2, .inl rfl⟩
  refine ⟨⟨m, q, hform⟩, fun w hw hne => ?_⟩
  have hgt : 0 < gapBelow m * 2 ^ q := mul_pos (gap_pos m) ht
  have hgle : gapBelow m * 2 ^ q ≤ 2 ^ q := by
    have := mul_le_mul_of_nonneg_right (gap_le m) ht.le; linarith
  rcases double_gap h1 hw hne with hw' | hw'
  · have h5 : w - x ≤ |x - w| := by rw [abs_sub_comm]; exact le_abs_self _
    by_cases he : m % 2 = 0
    · have : |x - m * 2 ^ q| ≤ |x - w| := by
        refine le_trans ?_ h5
        rw [abs_le]; constructor <;> linarith
      rcases this.lt_or_eq with h | h
      · exact .inl h
      · exact .inr ⟨h, m, q, hform, he⟩
    · left
      obtain ⟨a, b⟩ := hodd he
      refine lt_of_lt_of_le ?_ h5
      rw [abs_lt]; constructor <;> linarith
  · have h5 : x - w ≤ |x - w| := le_abs_self _
    by_cases he : m % 2 = 0
    · have : |x - m * 2 ^ q| ≤ |x - w| := by
        refine le_trans ?_ h5
        rw [abs_le]; constructor <;> linarith
      rcases this.lt_or_eq with h | h
      · exact .inl h
      · exact .inr ⟨h, m, q, hform, he⟩
    · left
      obtain ⟨a, b⟩ := hodd he
      refine lt_of_lt_of_le ?_ h5
      rw [abs_lt]; constructor <;> linarith

theorem even_form {m : Nat} {q : Int} (h1 : 2 ^ 52 ≤ m) (h : IsEvenDouble ((m : ℚ) * 2 ^ q)) : m % 2 = 0 := by
  obtain ⟨n, p, ⟨hn, -, -, hv⟩, he⟩ := h
  have ht := two_zpow_pos q
  have hm0 : (0 : ℚ) < m := by
    have : 0 < m := by omega
    exact_mod_cast this
  have hv : (m : ℚ) * 2 ^ q = n * 2 ^ p := by
    rcases hv with hv | hv
    · exact hv
    · have := mul_pos hm0 ht
      have h0 : 0 ≤ (n : ℚ) * 2 ^ p := mul_nonneg (by positivity) (two_zpow_pos p).le
      linarith
  rcases le_or_gt q p with hqp | hqp
  · obtain ⟨j, rfl⟩ : ∃ j : Nat, p = q + j := ⟨(p - q).toNat, by omega⟩
    rw [zpow_add₀ (by norm_num), zpow_natCast] at hv
    have : (m : ℚ) = ((n * 2 ^ j : Nat) : ℚ) := by
      push_cast
      have : (m : ℚ) * 2 ^ q = (n * 2 ^ j) * 2 ^ q := by rw [hv]; ring
      exact mul_right_cancel₀ ht.ne' this
    have : m = n * 2 ^ j := by exact_mod_cast this
    rw [this, Nat.mul_mod, he]; simp
  · obtain ⟨j, rfl⟩ : ∃ j : Nat, q = p + (j + 1 : Nat) := ⟨(q - p).toNat - 1, by omega⟩
    have hp := two_zpow_pos p
    rw [zpow_add₀ (by norm_num), zpow_natCast] at hv
    have : ((m * 2 ^ (j + 1) : Nat) : ℚ) = n := by
      push_cast
      have : ((m : ℚ) * 2 ^ (j + 1)) * 2 ^ p = n * 2 ^ p := by rw [← hv]; ring
      exact mul_right_cancel₀ hp.ne' this
    have : m * 2 ^ (j + 1) = n := by exact_mod_cast this
    have h3 : 2 ^ 1 ≤ 2 ^ (j + 1) := Nat.pow_le_pow_right (by norm_num) (by omega)
    have : m * 2 ≤ n := by rw [← this]; exact Nat.mul_le_mul_left _ (by simpa using h3)
    omega

/-- And only those. -/
theorem near_of_reads {m : Nat} {q : Int} (h1 : 2 ^ 52 ≤ m) (h2 : m < 2 ^ 53) (hq1 : -1074 < q) (hq2 : q < 971) {x : ℚ}
    (h : ReadsAs x (m * 2 ^ q)) :
    (m - gapBelow m / 2) * 2 ^ q ≤ x ∧ x ≤ (m + 1 / 2) * 2 ^ q ∧
    (m % 2 ≠ 0 → (m - gapBelow m / 2) * 2 ^ q < x ∧ x < (m + 1 / 2) * 2 ^ q) := by
  have ht := two_zpow_pos q
  have hgt : 0 < gapBelow m * 2 ^ q := mul_pos (gap_pos m) ht
  have up : IsDouble ((m + 1 : ℚ) * 2 ^ q) := by
    by_cases hm : m + 1 < 2 ^ 53
    · exact ⟨m + 1, q, hm, by omega, by omega, .inl (by push_cast; rfl)⟩
    · refine ⟨2 ^ 52, q + 1, by norm_num, by omega, by omega, .inl ?_⟩
      have : m = 2 ^ 53 - 1 := by omega
      rw [this, zpow_add₀ (by norm_num)]; push_cast; ring
  have down : IsDouble ((m - gapBelow m : ℚ) * 2 ^ q) := by
    by_cases hm : m = 2 ^ 52
    · refine ⟨2 ^ 53 - 1, q - 1, by norm_num, by omega, by omega, .inl ?_⟩
      rw [gapBelow, if_pos hm, hm, zpow_sub₀ (by norm_num)]; push_cast; ring
    · refine ⟨m - 1, q, by omega, by omega, by omega, .inl ?_⟩
      rw [gapBelow, if_neg hm, Nat.cast_sub (by omega)]; push_cast; ring
  have a := h.2 _ up (by intro e; have := mul_right_cancel₀ ht.ne' e; linarith)
  have b := h.2 _ down (by
    intro e; have := mul_right_cancel₀ ht.ne' e; have := gap_pos m; linarith)
  have key : ∀ y : ℚ, y < x → |x - m * 2 ^ q| ≤ |x - (m + 1) * 2 ^ q| → y = (m + 1 / 2) * 2 ^ q → False := by
    intro y hy hle he
    rw [he] at hy
    have e1 : x - m * 2 ^ q ≤ |x - m * 2 ^ q| := le_abs_self _
    rcases le_or_gt x ((m + 1) * 2 ^ q) with hx | hx
    · rw [abs_of_nonpos (a := x - (m + 1) * 2 ^ q) (by linarith)] at hle; linarith
    · rw [abs_of_pos (a := x - (m + 1) * 2 ^ q) (by linarith)] at hle; linarith
  have key' : x < (m - gapBelow m / 2) * 2 ^ q → |x - m * 2 ^ q| ≤ |x - (m - gapBelow m) * 2 ^ q| → False := by
    intro hy hle
    have e1 : m * 2 ^ q - x ≤ |x - m * 2 ^ q| := by rw [abs_sub_comm]; exact le_abs_self _
    rcases le_or_gt x ((m - gapBelow m) * 2 ^ q) with hx | hx
    · rw [abs_of_nonpos (a := x - (m - gapBelow m) * 2 ^ q) (by linarith)] at hle; linarith
    · rw [abs_of_pos (a := x - (m - gapBelow m) * 2 ^ q) (by linarith)] at hle; linarith
  have ale : |x - m * 2 ^ q| ≤ |x - (m + 1) * 2 ^ q| := by rcases a with a | a; exacts [a.le, a.1.le]
  have ble : |x - m * 2 ^ q| ≤ |x - (m - gapBelow m) * 2 ^ q| := by rcases b with b | b; exacts [b.le, b.1.le]
  have hh : x ≤ (m + 1 / 2) * 2 ^ q := not_lt.1 (fun hy => key _ hy ale rfl)
  have hl : (m - gapBelow m / 2) * 2 ^ q ≤ x := not_lt.1 (fun hy => key' hy ble)
  refine ⟨hl, hh, fun hodd => ⟨hl.lt_of_ne ?_, hh.lt_of_ne ?_⟩⟩
  · intro e
    rcases b with b | b
    · rw [← e] at b
      have e1 : ((m : ℚ) - gapBelow m / 2) * 2 ^ q - m * 2 ^ q = -(gapBelow m * 2 ^ q / 2) := by ring
      have e2 : ((m : ℚ) - gapBelow m / 2) * 2 ^ q - (m - gapBelow m) * 2 ^ q = gapBelow m * 2 ^ q / 2 := by ring
      rw [e1, e2, abs_neg] at b; exact lt_irrefl _ b
    · exact hodd (even_form h1 b.2)
  · intro e
    rcases a with a | a
    · rw [e] at a
      have e1 : ((m : ℚ) + 1 / 2) * 2 ^ q - m * 2 ^ q = 2 ^ q / 2 := by ring
      have e2 : ((m : ℚ) + 1 / 2) * 2 ^ q - (m + 1) * 2 ^ q = -(2 ^ q / 2) := by ring
      rw [e1, e2, abs_neg] at a; exact lt_irrefl _ a
    · exact hodd (even_form h1 a.2)

/-- The number that is read is determined. -/
theorem reads_eq {m : Nat} {q : Int} (h1 : 2 ^ 52 ≤ m) (h2 : m < 2 ^ 53) (hq1 : -1074 < q) (hq2 : q < 971) {x v' : ℚ}
    (h : ReadsAs x (m * 2 ^ q)) (h' : ReadsAs x v') : (m : ℚ) * 2 ^ q = v' := by
  by_contra hne
  obtain ⟨hl, hh, -⟩ := near_of_reads h1 h2 hq1 hq2 h
  have ht := two_zpow_pos q
  rcases reads_unique h h' with e | ⟨e, e'⟩
  · exact hne e
  have hm := even_form h1 e
  have heq : |x - m * 2 ^ q| = |x - v'| := by
    have a := h.2 v' h'.1 (Ne.symm hne)
    have b := h'.2 _ h.1 hne
    refine le_antisymm ?_ ?_
    · rcases a with a | a; exacts [a.le, a.1.le]
    · rcases b with b | b; exacts [b.le, b.1.le]
  have mid : 2 * x = m * 2 ^ q + v' := by
    rcases abs_eq_abs.1 heq with e | e
    · exact absurd (by linarith) hne
    · linarith
  rcases double_gap h1 h'.1 (Ne.symm hne) with hw | hw
  · have ev : v' = ((m + 1 : Nat) : ℚ) * 2 ^ q := by push_cast; linarith
    rw [ev] at e'
    have := even_form (by omega) e'
    omega
  · by_cases h52 : m = 2 ^ 52
    · have ev : v' = ((2 ^ 53 - 1 : Nat) : ℚ) * 2 ^ (q - 1) := by
        rw [gapBelow, if_pos h52] at hw hl
        rw [zpow_sub₀ (by norm_num)]
        rw [h52] at hw hl mid
        push_cast at *
        linarith
      rw [ev] at e'
      have := even_form (by norm_num) e'
      omega
    · have ev : v' = ((m - 1 : Nat) : ℚ) * 2 ^ q := by
        rw [gapBelow, if_neg h52] at hw hl
        rw [Nat.cast_sub (by omega)]
        push_cast; linarith
      rw [ev] at e'
      have := even_form (by omega) e'
      omega

/-! ## The search -/

theorem pow_split (a : ℚ) (ha : a ≠ 0) (k : Int) : a ^ (-k).toNat * a ^ k = a ^ k.toNat := by
  rcases le_total 0 k with h | h
  · obtain ⟨n, rfl⟩ := Int.eq_ofNat_of_zero_le h
    simp
  · obtain ⟨n, hn⟩ := Int.exists_eq_neg_ofNat h
    rw [hn]
    simp [ha]

/-- The factors of `roundAt`. -/
def numer (q k : Int) : Nat := 2 ^ q.toNat * 10 ^ (-k).toNat
def denom (q k : Int) : Nat := 2 ^ (-q).toNat * 10 ^ k.toNat

theorem numer_pos (q k : Int) : 0 < numer q k := by unfold numer; positivity
theorem denom_pos (q k : Int) : 0 < denom q k := by unfold denom; positivity

theorem numer_denom (q k : Int) : (numer q k : ℚ) * 10 ^ k = denom q k * 2 ^ q := by
  have h1 := pow_split 10 (by norm_num) k
  have h2 := pow_split 2 (by norm_num) q
  unfold numer denom
  push_cast
  rw [mul_assoc, h1, ← h2]
  ring

theorem scale_le (q k : Int) (a b : Nat) :
    a * numer q k ≤ b * denom q k ↔ (a : ℚ) * 2 ^ q ≤ b * 10 ^ k := by
  have hu : (0 : ℚ) < numer q k := by exact_mod_cast numer_pos q k
  have hd : (0 : ℚ) < denom q k := by exact_mod_cast denom_pos q k
  have ht := two_zpow_pos q
  have e := numer_denom q k
  have : a * numer q k ≤ b * denom q k ↔ (a : ℚ) * numer q k ≤ b * denom q k := by exact_mod_cast Iff.rfl
  rw [this]
  have e1 : (a : ℚ) * numer q k ≤ b * denom q k ↔ (a : ℚ) * numer q k * 2 ^ q ≤ b * denom q k * 2 ^ q :=
    (mul_le_mul_iff_left₀ ht).symm
  have e2 : (a : ℚ) * 2 ^ q ≤ b * 10 ^ k ↔ (a : ℚ) * 2 ^ q * numer q k ≤ b * 10 ^ k * numer q k :=
    (mul_le_mul_iff_left₀ hu).symm
  rw [e1, e2]
  have e3 : (b : ℚ) * 10 ^ k * numer q k = b * denom q k * 2 ^ q := by
    rw [mul_assoc, mul_comm ((10 : ℚ) ^ k), e]; ring
  have e4 : (a : ℚ) * 2 ^ q * numer q k = a * numer q k * 2 ^ q := by ring
  rw [e3, e4]

theorem scale_lt (q k : Int) (a b : Nat) :
    a * numer q k < b * denom q k ↔ (a : ℚ) * 2 ^ q < b * 10 ^ k := by
  have hu : (0 : ℚ) < numer q k := by exact_mod_cast numer_pos q k
  have ht := two_zpow_pos q
  have e := numer_denom q k
  have : a * numer q k < b * denom q k ↔ (a : ℚ) * numer q k < b * denom q k := by exact_mod_cast Iff.rfl
  rw [this]
  have e1 : (a : ℚ) * numer q k < b * denom q k ↔ (a : ℚ) * numer q k * 2 ^ q < b * denom q k * 2 ^ q :=
    (mul_lt_mul_iff_left₀ ht).symm
  have e2 : (a : ℚ) * 2 ^ q < b * 10 ^ k ↔ (a : ℚ) * 2 ^ q * numer q k < b * 10 ^ k * numer q k :=
    (mul_lt_mul_iff_left₀ hu).symm
  rw [e1, e2]
  have e3 : (b : ℚ) * 10 ^ k * numer q k = b * denom q k * 2 ^ q := by
    rw [mul_assoc, mul_comm ((10 : ℚ) ^ k), e]; ring
  have e4 : (a : ℚ) * 2 ^ q * numer q k = a * numer q k * 2 ^ q := by ring
  rw [e3, e4]

theorem scale_ge (q k : Int) (a b : Nat) :
    b * denom q k ≤ a * numer q k ↔ (b : ℚ) * 10 ^ k ≤ a * 2 ^ q := by
  rw [← not_lt, ← not_lt, scale_lt]

theorem scale_gt (q k : Int) (a b : Nat) :
    b * denom q k < a * numer q k ↔ (b : ℚ) * 10 ^ k < a * 2 ^ q := by
  rw [← not_le, ← not_le, scale_le]

/-- The numbers that are read as `m`·2^`q`. -/
def Near (m : Nat) (q : Int) (x : ℚ) : Prop :=
  (m - gapBelow m / 2) * 2 ^ q ≤ x ∧ x ≤ (m + 1 / 2) * 2 ^ q ∧
    (m % 2 ≠ 0 → (m - gapBelow m / 2) * 2 ^ q < x ∧ x < (m + 1 / 2) * 2 ^ q)

theorem reads_iff_near {m : Nat} {q : Int} (h1 : 2 ^ 52 ≤ m) (h2 : m < 2 ^ 53) (hq1 : -1074 < q) (hq2 : q < 971) {x : ℚ} :
    ReadsAs x (m * 2 ^ q) ↔ Near m q x :=
  ⟨near_of_reads h1 h2 hq1 hq2, fun h => reads_of_near h1 h2 hq1.le hq2.le h.1 h.2.1 h.2.2⟩

theorem readsBack_iff {m : Nat} (h1 : 2 ^ 52 ≤ m) (q k : Int) (c : Nat) :
    readsBack m (c * denom q k) (numer q k) = true ↔ Near m q (c * 10 ^ k) := by
  obtain ⟨low, hlow, hlq⟩ : ∃ low : Nat, (if m = 2 ^ 52 then 4 * m - 1 else 4 * m - 2) = low ∧
      (low : ℚ) = 4 * (m - gapBelow m / 2) := by
    refine ⟨_, rfl, ?_⟩
    unfold gapBelow
    split
    · rw [Nat.cast_sub (by omega)]; push_cast; ring
    · rw [Nat.cast_sub (by omega)]; push_cast; ring
  have hhq : ((4 * m + 2 : Nat) : ℚ) = 4 * (m + 1 / 2) := by push_cast; ring
  have e : 4 * (c * denom q k) = (4 * c) * denom q k := by ring
  have ec : ((4 * c : Nat) : ℚ) = 4 * c := by push_cast; rfl
  unfold readsBack Near
  simp only [hlow]
  have a1 : low * numer q k ≤ 4 * (c * denom q k) ↔ (m - gapBelow m / 2) * 2 ^ q ≤ (c : ℚ) * 10 ^ k := by
    rw [e, scale_le, hlq, ec]
    constructor <;> intro h <;> linarith
  have a2 : 4 * (c * denom q k) ≤ (4 * m + 2) * numer q k ↔ (c : ℚ) * 10 ^ k ≤ (m + 1 / 2) * 2 ^ q := by
    rw [e, scale_ge, hhq, ec]
    constructor <;> intro h <;> linarith
  have a3 : low * numer q k < 4 * (c * denom q k) ↔ (m - gapBelow m / 2) * 2 ^ q < (c : ℚ) * 10 ^ k := by
    rw [e, scale_lt, hlq, ec]
    constructor <;> intro h <;> linarith
  have a4 : 4 * (c * denom q k) < (4 * m + 2) * numer q k ↔ (c : ℚ) * 10 ^ k < (m + 1 / 2) * 2 ^ q := by
    rw [e, scale_gt, hhq, ec]
    constructor <;> intro h <;> linarith
  by_cases he : m % 2 = 0
  · rw [if_pos he, Bool.and_eq_true, decide_eq_true_iff, decide_eq_true_iff, a1, a2]
    exact ⟨fun h => ⟨h.1, h.2, fun h' => absurd he h'⟩, fun h => ⟨h.1, h.2.1⟩⟩
  · rw [if_neg he, Bool.and_eq_true, decide_eq_true_iff, decide_eq_true_iff, a3, a4]
    exact ⟨fun h => ⟨h.1.le, h.2.le, fun _ => h⟩, fun h => h.2.2 he⟩

theorem near_convex {m : Nat} {q : Int} {x y : ℚ} (h : Near m q x) (h1 : x ≤ y) (h2 : y ≤ m * 2 ^ q) : Near m q y := by
  have ht := two_zpow_pos q
  exact ⟨h.1.trans h1, by linarith, fun ho => ⟨(h.2.2 ho).1.trans_le h1, by linarith⟩⟩

theorem near_convex' {m : Nat} {q : Int} {x y : ℚ} (h : Near m q x) (h1 : y ≤ x) (h2 : m * 2 ^ q ≤ y) : Near m q y := by
  have ht := two_zpow_pos q
  have hg := mul_pos (gap_pos m) ht
  exact ⟨by linarith, h1.trans h.2.1, fun ho => ⟨by linarith, h1.trans_lt (h.2.2 ho).2⟩⟩

theorem roundAt_eq (halfUp : Bool) (m : Nat) (q k : Int) : ∃ near far,
    (near = m * numer q k / denom q k ∧ far = m * numer q k / denom q k + 1 ∨
      near = m * numer q k / denom q k + 1 ∧ far = m * numer q k / denom q k) ∧
    roundAt halfUp m q k = if readsBack m (near * denom q k) (numer q k) then some near else
      if readsBack m (far * denom q k) (numer q k) then some far else none := by
  refine ⟨_, _, ?_, rfl⟩
  split
  · exact .inl ⟨rfl, rfl⟩
  · exact .inr ⟨rfl, rfl⟩

theorem roundAt_some {halfUp : Bool} {m : Nat} (h1 : 2 ^ 52 ≤ m) {q k : Int} {c : Nat}
    (h : roundAt halfUp m q k = some c) : Near m q (c * 10 ^ k) := by
  obtain ⟨near, far, -, e⟩ := roundAt_eq halfUp m q k
  rw [e] at h
  split at h
  · rename_i hr; cases h; exact (readsBack_iff h1 q k _).1 hr
  · split at h
    · rename_i hr; cases h; exact (readsBack_iff h1 q k _).1 hr
    · cases h

theorem roundAt_none {halfUp : Bool} {m : Nat} (h1 : 2 ^ 52 ≤ m) {q k : Int}
    (h : roundAt halfUp m q k = none) (c : Nat) : ¬Near m q (c * 10 ^ k) := by
  intro hn
  have hd := denom_pos q k
  have hk : (0 : ℚ) < 10 ^ k := zpow_pos (by norm_num) k
  obtain ⟨c0, hc0⟩ : ∃ c0, c0 = m * numer q k / denom q k := ⟨_, rfl⟩
  have low : (c0 : ℚ) * 10 ^ k ≤ m * 2 ^ q := by
    rw [← scale_ge, hc0]; exact Nat.div_mul_le_self _ _
  have high : (m : ℚ) * 2 ^ q ≤ ((c0 + 1 : Nat) : ℚ) * 10 ^ k := by
    rw [← scale_le, hc0]
    exact (Nat.lt_mul_of_div_lt (Nat.lt_succ_self _) hd).le
  have both : readsBack m (c0 * denom q k) (numer q k) = true ∨ readsBack m ((c0 + 1) * denom q k) (numer q k) = true := by
    rw [readsBack_iff h1, readsBack_iff h1]
    rcases Nat.lt_or_ge c0 c with hlt | hge
    · right
      have : ((c0 + 1 : Nat) : ℚ) ≤ c := by exact_mod_cast hlt
      exact near_convex' hn (mul_le_mul_of_nonneg_right this hk.le) high
    · left
      have : (c : ℚ) ≤ c0 := by exact_mod_cast hge
      exact near_convex hn (mul_le_mul_of_nonneg_right this hk.le) low
  obtain ⟨near, far, hnf, e⟩ := roundAt_eq halfUp m q k
  rw [e] at h
  rw [← hc0] at hnf
  split at h
  · cases h
  rename_i r1
  split at h
  · cases h
  rename_i r2
  rcases hnf with ⟨rfl, rfl⟩ | ⟨rfl, rfl⟩ <;> rcases both with b | b <;> contradiction

theorem near_exact (m : Nat) (q : Int) : Near m q (m * 2 ^ q) := by
  have ht := two_zpow_pos q
  have hg := mul_pos (gap_pos m) ht
  exact ⟨by linarith, by linarith, fun _ => ⟨by linarith, by linarith⟩⟩

/-- Some multiple of 10^`k` is the number itself for small enough `k`. -/
theorem exact_multiple (m : Nat) (q k : Int) (h0 : k ≤ 0) (h : k ≤ q) : ∃ c : Nat, (c : ℚ) * 10 ^ k = m * 2 ^ q := by
  obtain ⟨a, rfl⟩ : ∃ a : Nat, k = -(a : Int) := ⟨(-k).toNat, by omega⟩
  obtain ⟨b, rfl⟩ : ∃ b : Nat, q = -(a : Int) + b := ⟨(q + a).toNat, by omega⟩
  refine ⟨m * 5 ^ a * 2 ^ b, ?_⟩
  rw [zpow_add₀ (by norm_num), zpow_neg, zpow_neg, zpow_natCast, zpow_natCast, zpow_natCast]
  push_cast
  have : (10 : ℚ) ^ a = 5 ^ a * 2 ^ a := by rw [← mul_pow]; norm_num
  rw [this]
  field_simp

theorem roundAt_found {halfUp : Bool} {m : Nat} (h1 : 2 ^ 52 ≤ m) {q k : Int} (h0 : k ≤ 0) (h : k ≤ q) :
    ∃ c, roundAt halfUp m q k = some c := by
  cases hr : roundAt halfUp m q k with
  | some c => exact ⟨c, rfl⟩
  | none =>
    obtain ⟨c, hc⟩ := exact_multiple m q k h0 h
    exact absurd (hc ▸ near_exact m q) (roundAt_none h1 hr c)

theorem shortestReal_spec {halfUp : Bool} {m : Nat} (h1 : 2 ^ 52 ≤ m) {q : Int} (fuel : Nat) (k : Int)
    (h0 : k - fuel ≤ 0) (h : k - fuel ≤ q) :
    Near m q ((shortestReal halfUp m q fuel k).1 * 10 ^ (shortestReal halfUp m q fuel k).2) ∧
    (shortestReal halfUp m q fuel k).2 ≤ k ∧
    ∀ j, (shortestReal halfUp m q fuel k).2 < j → j ≤ k → ∀ c : Nat, ¬Near m q (c * 10 ^ j) := by
  induction fuel generalizing k with
  | zero =>
    obtain ⟨c, hc⟩ := roundAt_found (halfUp := halfUp) h1 (k := k) (by simpa using h0) (by simpa using h)
    simp only [shortestReal, hc, Option.getD_some]
    exact ⟨roundAt_some h1 hc, le_refl _, fun j a b => absurd a (not_lt.2 b)⟩
  | succ fuel ih =>
    simp only [shortestReal]
    cases hr : roundAt halfUp m q k with
    | some c => exact ⟨roundAt_some h1 hr, le_refl _, fun j a b => absurd a (not_lt.2 b)⟩
    | none =>
      obtain ⟨a, b, c⟩ := ih (k - 1) (by push_cast at h0; omega) (by push_cast at h; omega)
      refine ⟨a, b.trans (by omega), fun j hj hjk => ?_⟩
      rcases eq_or_lt_of_le hjk with rfl | hlt
      · exact roundAt_none h1 hr
      · exact c j hj (by omega)

theorem near_pos {m : Nat} (h1 : 2 ^ 52 ≤ m) {q : Int} {x : ℚ} (h : Near m q x) : 0 < x := by
  have ht := two_zpow_pos q
  have hm : (2 ^ 52 : ℚ) ≤ m := by exact_mod_cast h1
  have := gap_le m
  exact lt_of_lt_of_le (mul_pos (by linarith) ht) h.1

/-- No number is near a multiple of a high power of ten. -/
theorem no_high {m : Nat} (h1 : 2 ^ 52 ≤ m) (h2 : m < 2 ^ 53) {q k : Int} (hk : (q.toNat : Int) + 17 ≤ k) (c : Nat) :
    ¬Near m q (c * 10 ^ k) := by
  intro h
  have hp := near_pos h1 h
  have hk0 : (0 : ℚ) < 10 ^ k := zpow_pos (by norm_num) k
  have hc : 1 ≤ c := by
    rcases Nat.eq_zero_or_pos c with rfl | h
    · simp at hp
    · exact h
  have hc' : (1 : ℚ) ≤ c := by exact_mod_cast hc
  have hm : (m : ℚ) + 1 ≤ 2 ^ 53 := by exact_mod_cast h2
  have ht := two_zpow_pos q
  have e1 : (2 : ℚ) ^ q ≤ 2 ^ q.toNat := by
    rw [← zpow_natCast]; exact zpow_le_zpow_right₀ (by norm_num) (by omega)
  have e2 : (2 : ℚ) ^ q.toNat ≤ 10 ^ q.toNat := pow_le_pow_left₀ (by norm_num) (by norm_num) _
  have e3 : (10 : ℚ) ^ (q.toNat + 17) ≤ 10 ^ k := by
    rw [← zpow_natCast]; exact zpow_le_zpow_right₀ (by norm_num) (by push_cast; omega)
  rw [pow_add] at e3
  have e4 : (10 : ℚ) ^ k ≤ c * 10 ^ k := by
    have := mul_le_mul_of_nonneg_right hc' hk0.le; linarith
  have e5 : (m + 1 / 2 : ℚ) * 2 ^ q ≤ 2 ^ 53 * 10 ^ q.toNat :=
    mul_le_mul (by linarith) (e1.trans e2) ht.le (by norm_num)
  have e6 : (0 : ℚ) < 10 ^ q.toNat := by positivity
  have := h.2.1
  nlinarith

theorem shortest_spec {halfUp : Bool} {n : Nat} {e : Int} {m : Nat} {q : Int} (hs : significand53 n e = (m, q))
    (h1 : 2 ^ 52 ≤ m) (h2 : m < 2 ^ 53) :
    Near m q ((shortestDigits halfUp n e).1 * 10 ^ (shortestDigits halfUp n e).2) ∧
    ∀ j, (shortestDigits halfUp n e).2 < j → ∀ c : Nat, ¬Near m q (c * 10 ^ j) := by
  unfold shortestDigits
  rw [hs]
  obtain ⟨a, b, c⟩ := shortestReal_spec (halfUp := halfUp) h1 (q := q) (17 + q.natAbs) (q.toNat + 17)
    (by omega) (by omega)
  refine ⟨a, fun j hj => ?_⟩
  rcases le_or_gt j (q.toNat + 17) with h | h
  · exact c j hj h
  · exact no_high h1 h2 (by omega)

theorem significand_spec {n : Nat} (hn : n ≠ 0) (e : Int) :
    2 ^ 52 ≤ (significand53 n e).1 ∧ (significand53 n e).1 < 2 ^ 53 ∧
    (n < 2 ^ 53 → ((significand53 n e).1 : ℚ) * 2 ^ (significand53 n e).2 = n * 2 ^ e ∧
      e - 52 ≤ (significand53 n e).2 ∧ (significand53 n e).2 ≤ e) := by
  have a := Nat.log2_self_le hn
  have b := Nat.lt_log2_self (n := n)
  unfold significand53
  split
  · rename_i h
    have e1 : 2 ^ n.log2 * 2 ^ (52 - n.log2) = 2 ^ 52 := by rw [← pow_add]; congr 1; omega
    have e2 : 2 ^ (n.log2 + 1) * 2 ^ (52 - n.log2) = 2 ^ 53 := by rw [← pow_add]; congr 1; omega
    refine ⟨?_, ?_, fun _ => ⟨?_, ?_, ?_⟩⟩
    · rw [← e1]; exact Nat.mul_le_mul_right _ a
    · show n * 2 ^ (52 - n.log2) < _
      rw [← e2]; exact Nat.mul_lt_mul_of_pos_right b (by positivity)
    · show ((n * 2 ^ (52 - n.log2) : Nat) : ℚ) * 2 ^ (e - (52 - n.log2 : Nat)) = _
      rw [zpow_sub₀ (by norm_num), zpow_natCast]; push_cast
      field_simp
    · show e - 52 ≤ e - (52 - n.log2 : Nat); omega
    · show e - (52 - n.log2 : Nat) ≤ e; omega
  · rename_i h
    have e1 : 2 ^ 52 * 2 ^ (n.log2 - 52) = 2 ^ n.log2 := by rw [← pow_add]; congr 1; omega
    have e2 : 2 ^ 53 * 2 ^ (n.log2 - 52) = 2 ^ (n.log2 + 1) := by rw [← pow_add]; congr 1; omega
    refine ⟨?_, ?_, fun hlt => ?_⟩
    · show 2 ^ 52 ≤ n / 2 ^ (n.log2 - 52)
      rw [Nat.le_div_iff_mul_le (by positivity), e1]; exact a
    · show n / 2 ^ (n.log2 - 52) < 2 ^ 53
      rw [Nat.div_lt_iff_lt_mul (by positivity), e2]; exact b
    · exfalso
      have : 2 ^ 53 ≤ 2 ^ n.log2 := Nat.pow_le_pow_right (by norm_num) (by omega)
      omega

/-! ## The texts -/

/-- An exponent and its text. -/
def ExponentOf (exp : List Char) (e : Int) : Prop :=
  (exp = [] ∧ e = 0) ∨ ∃ sign ds, ds ≠ [] ∧ Digits ds ∧ exp = 'e' :: sign ++ ds ∧
    ((sign = [] ∨ sign = ['+']) ∧ e = (natOf ds : Int) ∨ sign = ['-'] ∧ e = -(natOf ds : Int))

/-- A text without sign and its value. -/
def Unsigned (text : List Char) (x : ℚ) : Prop :=
  ∃ ip fp exp e, text = decimalText false ip fp ++ exp ∧ ip ≠ [] ∧ Digits ip ∧ Digits fp ∧
    (ip = ['0'] ∨ ip.head? ≠ some '0') ∧ ExponentOf exp e ∧ x = decimalValue false ip fp * 10 ^ e

theorem decimal_pos_head {c : Nat} (hc : 0 < c) : (decimal c).head? ≠ some '0' := by
  rcases decimal_head c with h | h
  · exact absurd h (decimal_ne_zero c hc)
  · exact h

theorem plain_unsigned (c : Nat) (hc : 0 < c) (k : Int) (point : Bool) :
    ∃ ip fp, plainReal c k point = decimalText false ip fp ∧ ip ≠ [] ∧ Digits ip ∧ Digits fp ∧
    (ip = ['0'] ∨ ip.head? ≠ some '0') ∧ (c : ℚ) * 10 ^ k = decimalValue false ip fp := by
  unfold plainReal
  simp only [natText_eq]
  obtain ⟨ds, hds⟩ : ∃ ds, ds = decimal c := ⟨_, rfl⟩
  have d1 : ds ≠ [] := hds ▸ decimal_ne_nil c
  have d2 : Digits ds := hds ▸ decimal_digits c
  have d3 : natOf ds = c := hds ▸ natOf_decimal c
  have d4 : ds.head? ≠ some '0' := hds ▸ decimal_pos_head hc
  have d5 : 0 < ds.length := List.length_pos_iff.2 d1
  rw [← hds]
  split
  · rename_i hk
    obtain ⟨n, rfl⟩ := Int.eq_ofNat_of_zero_le hk
    have hv : natOf (ds ++ List.replicate n '0') = c * 10 ^ n := by
      rw [natOf_append, natOf_zeros, d3]; simp
    refine ⟨ds ++ List.replicate n '0', if point then ['0'] else [], ?_, by simp [d1], MBus.Digits.append d2 (MBus.Digits.zeros n), ?_, ?_, ?_⟩
    · cases point <;> simp [decimalText, signText]
    · cases point
      · intro c hc; cases hc
      · exact MBus.Digits.zeros 1
    · right; rw [List.head?_append_of_ne_nil _ d1]; exact d4
    · cases point
      · simp [decimalValue, hv]
      · have : natOf (ds ++ List.replicate n '0' ++ ['0']) = c * 10 ^ n * 10 := by
          rw [natOf_append, hv]; simp [natOf]
        simp only [decimalValue, if_true, this]
        push_cast
        simp
  · rename_i hk
    split
    · rename_i hp
      obtain ⟨p, hp', hlt⟩ : ∃ p : Nat, (ds.length : Int) + k = p ∧ p < ds.length := ⟨((ds.length : Int) + k).toNat, by omega, by omega⟩
      rw [hp'] at hp ⊢
      have hp0 : 0 < p := by omega
      have hf : ds.drop p ≠ [] := by rw [← List.length_pos_iff, List.length_drop]; omega
      refine ⟨ds.take p, ds.drop p, ?_, ?_, ?_, ?_, ?_, ?_⟩
      · simp [decimalText, signText, hf]
      · rw [← List.length_pos_iff, List.length_take]; omega
      · exact fun c hc => d2 c (List.mem_of_mem_take hc)
      · exact fun c hc => d2 c (List.mem_of_mem_drop hc)
      · right; rw [List.head?_take, if_neg (by omega)]; exact d4
      · rw [decimalValue, List.take_append_drop, d3, List.length_drop]
        have : k = -((ds.length - p : Nat) : Int) := by omega
        rw [this, zpow_neg, zpow_natCast]
        simp [div_eq_mul_inv]
    · rename_i hp
      obtain ⟨z, hz⟩ : ∃ z : Nat, -((ds.length : Int) + k) = z := ⟨(-((ds.length : Int) + k)).toNat, by omega⟩
      rw [hz]
      refine ⟨['0'], List.replicate z '0' ++ ds, ?_, by simp, MBus.Digits.zeros 1, MBus.Digits.append (MBus.Digits.zeros z) d2, .inl rfl, ?_⟩
      · simp [decimalText, signText, d1]
      · have e1 : natOf (['0'] ++ (List.replicate z '0' ++ ds)) = c := by
          rw [List.singleton_append, natOf_cons_zero, natOf_append, natOf_zeros, d3]; simp
        rw [decimalValue, e1]
        have : k = -((List.replicate z '0' ++ ds).length : Int) := by simp; omega
        rw [this, zpow_neg, zpow_natCast]
        simp [div_eq_mul_inv]

theorem exponentText_of (plus : Bool) (i : Int) : ExponentOf ('e' :: exponentText plus i) i := by
  right
  unfold exponentText
  simp only [natText_eq]
  have key : natOf (decimal i.natAbs) = i.natAbs := natOf_decimal _
  split
  · exact ⟨['-'], _, decimal_ne_nil _, decimal_digits _, rfl, .inr ⟨rfl, by rw [key]; omega⟩⟩
  · split
    · exact ⟨['+'], _, decimal_ne_nil _, decimal_digits _, rfl, .inl ⟨.inr rfl, by rw [key]; omega⟩⟩
    · exact ⟨[], _, decimal_ne_nil _, decimal_digits _, rfl, .inl ⟨.inl rfl, by rw [key]; omega⟩⟩

theorem exponent_unsigned (plus : Bool) (c : Nat) (hc : 0 < c) (k : Int) :
    Unsigned (exponentReal plus c k) (c * 10 ^ k) := by
  unfold exponentReal
  simp only [natText_eq]
  obtain ⟨ds, hds⟩ : ∃ ds, ds = decimal c := ⟨_, rfl⟩
  have d1 : ds ≠ [] := hds ▸ decimal_ne_nil c
  have d2 : Digits ds := hds ▸ decimal_digits c
  have d3 : natOf ds = c := hds ▸ natOf_decimal c
  have d4 : ds.head? ≠ some '0' := hds ▸ decimal_pos_head hc
  have d5 : 0 < ds.length := List.length_pos_iff.2 d1
  rw [← hds]
  refine ⟨ds.take 1, ds.drop 1, 'e' :: exponentText plus ((ds.length : Int) + k - 1), (ds.length : Int) + k - 1, ?_, ?_, ?_, ?_, ?_,
    exponentText_of _ _, ?_⟩
  · have : ds.length = 1 ↔ ds.drop 1 = [] := by
      rw [← List.length_eq_zero_iff, List.length_drop]; omega
    by_cases h : ds.length = 1
    · simp [decimalText, signText, h, this.1 h]
    · simp only [decimalText, signText]
      rw [if_neg h, if_neg (fun e => h (this.2 e))]
      simp
  · rw [← List.length_pos_iff, List.length_take]; omega
  · exact fun c hc => d2 c (List.mem_of_mem_take hc)
  · exact fun c hc => d2 c (List.mem_of_mem_drop hc)
  · right; rw [List.head?_take, if_neg (by omega)]; exact d4
  · rw [decimalValue, List.take_append_drop, d3, List.length_drop]
    have : k = ((ds.length : Int) + k - 1) - ((ds.length - 1 : Nat) : Int) := by omega
    rw [this, zpow_sub₀ (by norm_num), zpow_natCast]
    have e2 : (ds.length : Int) + ((ds.length : Int) + k - 1 - ((ds.length - 1 : Nat) : Int)) - 1 = (ds.length : Int) + k - 1 := by omega
    rw [e2]
    simp only [Bool.false_eq_true, if_false]
    field_simp

/-- The sign before a text. -/
theorem unsigned_value {text : List Char} {x : ℚ} (h : Unsigned text x) (neg : Bool) :
    NumberValue (signText neg ++ text) (if neg then -x else x) ∧ NumberText (signText neg ++ text) := by
  obtain ⟨ip, fp, exp, e, rfl, h1, h2, h3, h4, h5, rfl⟩ := h
  have et : signText neg ++ (decimalText false ip fp ++ exp) = decimalText neg ip fp ++ exp := by
    simp [decimalText, signText]
  rw [et]
  refine ⟨⟨neg, ip, fp, exp, e, rfl, h1, h2, h3, h5, ?_⟩,
    ⟨signText neg, ip, if fp = [] then [] else '.' :: fp, exp, rfl, ?_, ?_, ?_, ?_⟩⟩
  · cases neg <;> simp [decimalValue]
    ring
  · cases neg <;> simp [signText]
  · rcases h4 with h4 | h4
    · exact .inl h4
    · right
      obtain ⟨d, ds, rfl⟩ := List.exists_cons_of_ne_nil h1
      refine ⟨d, ds, rfl, ?_, (h2 d (by simp)).2, fun c hc => h2 c (by simp [hc])⟩
      have hd := (digit_iff d).1 (h2 d (by simp))
      have hne : d ≠ '0' := fun e => h4 (by rw [e]; rfl)
      have hn : d.toNat ≠ 48 := fun e => hne (by
        apply Char.ext; apply UInt32.toNat_inj.1; exact e)
      have : (1 : Nat) ≤ 1 := le_refl _
      show '1' ≤ d
      rw [Char.le_def, UInt32.le_iff_toNat_le]
      show 49 ≤ d.toNat
      omega
  · by_cases hf : fp = []
    · left; rw [if_pos hf]
    · right; exact ⟨fp, by rw [if_neg hf], hf, h3⟩
  · rcases h5 with ⟨rfl, -⟩ | ⟨sign, ds, a, b, rfl, c⟩
    · exact .inl rfl
    · right
      refine ⟨'e', sign, ds, rfl, .inl rfl, ?_, a, b⟩
      rcases c with ⟨c, -⟩ | ⟨c, -⟩
      · rcases c with rfl | rfl
        · exact .inl rfl
        · exact .inr (.inl rfl)
      · exact .inr (.inr c)

/-! ## The nearest of the shortest -/

theorem roundAt_nearest {halfUp : Bool} {m : Nat} (h1 : 2 ^ 52 ≤ m) {q k : Int} {c : Nat}
    (h : roundAt halfUp m q k = some c) (c' : Nat) (hn : Near m q (c' * 10 ^ k)) :
    |(c : ℚ) * 10 ^ k - m * 2 ^ q| ≤ |(c' : ℚ) * 10 ^ k - m * 2 ^ q| := by
  have hd := denom_pos q k
  have hk : (0 : ℚ) < 10 ^ k := zpow_pos (by norm_num) k
  obtain ⟨c0, hc0⟩ : ∃ c0, c0 = m * numer q k / denom q k := ⟨_, rfl⟩
  obtain ⟨r, hr⟩ : ∃ r, r = m * numer q k % denom q k := ⟨_, rfl⟩
  have hsum : c0 * denom q k + r = m * numer q k := by rw [hc0, hr, mul_comm]; exact Nat.div_add_mod _ _
  have low : (c0 : ℚ) * 10 ^ k ≤ m * 2 ^ q := by
    rw [← scale_ge]; omega
  have high : (m : ℚ) * 2 ^ q ≤ ((c0 + 1 : Nat) : ℚ) * 10 ^ k := by
    rw [← scale_le]
    have : r < denom q k := hr ▸ Nat.mod_lt _ hd
    rw [Nat.add_mul, one_mul]; omega
  have below : ∀ j : Nat, j ≤ c0 → |(c0 : ℚ) * 10 ^ k - m * 2 ^ q| ≤ |(j : ℚ) * 10 ^ k - m * 2 ^ q| := by
    intro j hj
    have : (j : ℚ) ≤ c0 := by exact_mod_cast hj
    have := mul_le_mul_of_nonneg_right this hk.le
    rw [abs_of_nonpos (by linarith), abs_of_nonpos (by linarith)]; linarith
  have above : ∀ j : Nat, c0 + 1 ≤ j → |((c0 + 1 : Nat) : ℚ) * 10 ^ k - m * 2 ^ q| ≤ |(j : ℚ) * 10 ^ k - m * 2 ^ q| := by
    intro j hj
    have : ((c0 + 1 : Nat) : ℚ) ≤ j := by exact_mod_cast hj
    have := mul_le_mul_of_nonneg_right this hk.le
    rw [abs_of_nonneg (by linarith), abs_of_nonneg (by linarith)]; linarith
  have side : 2 * r ≤ denom q k ↔ |(c0 : ℚ) * 10 ^ k - m * 2 ^ q| ≤ |((c0 + 1 : Nat) : ℚ) * 10 ^ k - m * 2 ^ q| := by
    rw [abs_of_nonpos (by linarith), abs_of_nonneg (by linarith)]
    have : 2 * r ≤ denom q k ↔ (2 * m) * numer q k ≤ (2 * c0 + 1) * denom q k := by
      rw [Nat.mul_assoc, ← hsum, Nat.add_mul, one_mul]
      constructor <;> intro h <;> nlinarith
    rw [this, scale_le]
    push_cast
    constructor <;> intro h <;> linarith
  have fitsLow : ∀ j : Nat, j ≤ c0 → Near m q (j * 10 ^ k) → Near m q (c0 * 10 ^ k) := by
    intro j hj hn
    have : (j : ℚ) ≤ c0 := by exact_mod_cast hj
    exact near_convex hn (mul_le_mul_of_nonneg_right this hk.le) low
  have fitsHigh : ∀ j : Nat, c0 + 1 ≤ j → Near m q (j * 10 ^ k) → Near m q ((c0 + 1 : Nat) * 10 ^ k) := by
    intro j hj hn
    have : ((c0 + 1 : Nat) : ℚ) ≤ j := by exact_mod_cast hj
    exact near_convex' hn (mul_le_mul_of_nonneg_right this hk.le) high
  obtain ⟨down, hdown, e⟩ : ∃ down : Bool, ((down = true → 2 * r ≤ denom q k) ∧ (down = false → denom q k ≤ 2 * r)) ∧
      roundAt halfUp m q k = if readsBack m ((if down then c0 else c0 + 1) * denom q k) (numer q k) then
        some (if down then c0 else c0 + 1) else
        if readsBack m ((if down then c0 + 1 else c0) * denom q k) (numer q k) then some (if down then c0 + 1 else c0) else none := by
    refine ⟨decide (2 * r < denom q k) || (decide (2 * r = denom q k) && !halfUp && c0 % 2 == 0), ⟨?_, ?_⟩, ?_⟩
    · intro h
      rw [Bool.or_eq_true, Bool.and_eq_true, Bool.and_eq_true, decide_eq_true_iff, decide_eq_true_iff] at h
      omega
    · intro h
      rw [Bool.or_eq_false_iff, decide_eq_false_iff_not] at h
      omega
    · rw [hc0, hr]; rfl
  rw [e] at h
  cases down with
  | true =>
    have hs := side.1 (hdown.1 rfl)
    simp only [if_true] at h
    split at h
    · rw [← Option.some.inj h]
      rcases Nat.lt_or_ge c0 c' with hlt | hge
      · exact hs.trans (above c' hlt)
      · exact below c' hge
    · rename_i hr0
      split at h
      · rw [← Option.some.inj h]
        rcases Nat.lt_or_ge c0 c' with hlt | hge
        · exact above c' hlt
        · exact absurd ((readsBack_iff h1 q k c0).2 (fitsLow c' hge hn)) hr0
      · cases h
  | false =>
    have hs : |((c0 + 1 : Nat) : ℚ) * 10 ^ k - m * 2 ^ q| ≤ |(c0 : ℚ) * 10 ^ k - m * 2 ^ q| := by
      rcases eq_or_lt_of_le (hdown.2 rfl) with he | hlt
      · have := he
        rw [abs_of_nonneg (by linarith), abs_of_nonpos (by linarith)]
        have : (2 * c0 + 1) * denom q k ≤ (2 * m) * numer q k := by
          rw [Nat.mul_assoc, ← hsum, Nat.add_mul, one_mul]; nlinarith
        rw [scale_ge] at this
        push_cast at this ⊢
        linarith
      · exact (not_le.1 (fun h => absurd (side.2 h) (by omega))).le
    simp only [Bool.false_eq_true, if_false] at h
    split at h
    · rw [← Option.some.inj h]
      rcases Nat.lt_or_ge c0 c' with hlt | hge
      · exact above c' hlt
      · exact hs.trans (below c' hge)
    · rename_i hr0
      split at h
      · rw [← Option.some.inj h]
        rcases Nat.lt_or_ge c0 c' with hlt | hge
        · exact absurd ((readsBack_iff h1 q k (c0 + 1)).2 (fitsHigh c' hlt hn)) hr0
        · exact below c' hge
      · cases h

theorem shortestReal_round {halfUp : Bool} {m : Nat} (h1 : 2 ^ 52 ≤ m) {q : Int} (fuel : Nat) (k : Int)
    (h0 : k - fuel ≤ 0) (h : k - fuel ≤ q) :
    roundAt halfUp m q (shortestReal halfUp m q fuel k).2 = some (shortestReal halfUp m q fuel k).1 := by
  induction fuel generalizing k with
  | zero =>
    obtain ⟨c, hc⟩ := roundAt_found (halfUp := halfUp) h1 (k := k) (by simpa using h0) (by simpa using h)
    simp only [shortestReal, hc, Option.getD_some]
  | succ fuel ih =>
    simp only [shortestReal]
    cases hr : roundAt halfUp m q k with
    | some c => exact hr
    | none => exact ih (k - 1) (by push_cast at h0; omega) (by push_cast at h; omega)

theorem shortest_nearest {halfUp : Bool} {n : Nat} {e : Int} {m : Nat} {q : Int} (hs : significand53 n e = (m, q))
    (h1 : 2 ^ 52 ≤ m) (c' : Nat) (hn : Near m q (c' * 10 ^ (shortestDigits halfUp n e).2)) :
    |((shortestDigits halfUp n e).1 : ℚ) * 10 ^ (shortestDigits halfUp n e).2 - m * 2 ^ q| ≤
      |(c' : ℚ) * 10 ^ (shortestDigits halfUp n e).2 - m * 2 ^ q| := by
  unfold shortestDigits at *
  rw [hs] at *
  exact roundAt_nearest h1 (shortestReal_round (halfUp := halfUp) h1 (q := q) (17 + q.natAbs) (q.toNat + 17)
    (by omega) (by omega)) c' hn

/-! ## Values of reals -/

theorem real_value (bits : UInt32) : realValue bits.toNat =
    if decide (2 ^ 31 ≤ bits.toNat) then -(((realMagnitude bits).1 : ℚ) * 2 ^ (realMagnitude bits).2)
    else ((realMagnitude bits).1 : ℚ) * 2 ^ (realMagnitude bits).2 := by
  have hb : bits.toNat < 2 ^ 32 := bits.toNat_lt
  have hm : (if bits.toNat / 2 ^ 23 % 256 = 0 then ((bits.toNat % 2 ^ 23 : Nat) : ℚ) * 2 ^ (-149 : Int)
      else ((2 ^ 23 + bits.toNat % 2 ^ 23 : Nat) : ℚ) * 2 ^ ((bits.toNat / 2 ^ 23 % 256 : Nat) - 150 : Int)) =
      ((realMagnitude bits).1 : ℚ) * 2 ^ (realMagnitude bits).2 := by
    unfold realMagnitude
    split <;> rfl
  unfold realValue
  rw [hm]
  by_cases h : 2 ^ 31 ≤ bits.toNat
  · rw [if_pos (by simpa using h), show bits.toNat / 2 ^ 31 % 2 = 1 by omega]; ring
  · rw [if_neg (by simpa using h), show bits.toNat / 2 ^ 31 % 2 = 0 by omega]; ring

theorem magnitude_range (bits : UInt32) : (realMagnitude bits).1 < 2 ^ 24 ∧
    -149 ≤ (realMagnitude bits).2 ∧ (realMagnitude bits).2 ≤ 105 := by
  unfold realMagnitude
  split
  · exact ⟨by show bits.toNat % 2 ^ 23 < _; omega, by simp, by simp⟩
  · rename_i h
    refine ⟨by show 2 ^ 23 + bits.toNat % 2 ^ 23 < _; omega, ?_, ?_⟩
    · show -149 ≤ ((bits.toNat / 2 ^ 23 % 256 : Nat) : Int) - 150; omega
    · show ((bits.toNat / 2 ^ 23 % 256 : Nat) : Int) - 150 ≤ 105; omega

theorem reads_zero : ReadsAs 0 0 := by
  refine ⟨⟨0, 0, by norm_num, by norm_num, by norm_num, .inl (by simp)⟩, fun w _ hne => .inl ?_⟩
  simp only [sub_zero, zero_sub, abs_neg, abs_zero]
  exact abs_pos.2 hne

theorem reads_sign {x v : ℚ} (h : ReadsAs x v) (neg : Bool) : ReadsAs (if neg then -x else x) (if neg then -v else v) := by
  cases neg
  · exact h
  · exact reads_neg h

/-- The significand of a number that fits. -/
structure Fits (n : Nat) (e : Int) (m : Nat) (q : Int) : Prop where
  parts : significand53 n e = (m, q)
  low : 2 ^ 52 ≤ m
  high : m < 2 ^ 53
  value : (m : ℚ) * 2 ^ q = n * 2 ^ e
  above : -1074 ≤ q
  below : q ≤ 971

theorem fits_small {n : Nat} (hn : n ≠ 0) {e : Int} (h : n < 2 ^ 53) (h1 : -1000 ≤ e) (h2 : e ≤ 900) :
    ∃ m q, Fits n e m q ∧ -1074 < q ∧ q < 971 := by
  obtain ⟨a, b, c⟩ := significand_spec hn e
  obtain ⟨c1, c2, c3⟩ := c h
  exact ⟨(significand53 n e).1, (significand53 n e).2, ⟨rfl, a, b, c1, by omega, by omega⟩, by omega, by omega⟩

theorem digits_pos {halfUp : Bool} {n : Nat} {e : Int} {m : Nat} {q : Int} (hs : significand53 n e = (m, q))
    (h1 : 2 ^ 52 ≤ m) (h2 : m < 2 ^ 53) : 0 < (shortestDigits halfUp n e).1 := by
  have := near_pos h1 (shortest_spec (halfUp := halfUp) hs h1 h2).1
  rcases Nat.eq_zero_or_pos (shortestDigits halfUp n e).1 with h | h
  · rw [h] at this; simp at this
  · exact h

theorem magnitude_unsigned (style : RealStyle) {n : Nat} (hn : n ≠ 0) (e : Int) :
    Unsigned (let (c, k) := shortestDigits style.halfUp n e
      if style.exponential (natText c).length k then exponentReal style.plusSign c k else plainReal c k true)
      ((shortestDigits style.halfUp n e).1 * 10 ^ (shortestDigits style.halfUp n e).2) := by
  obtain ⟨a, b, -⟩ := significand_spec hn e
  have hc := digits_pos (halfUp := style.halfUp) (n := n) (e := e) rfl a b
  generalize shortestDigits style.halfUp n e = p at *
  obtain ⟨c, k⟩ := p
  simp only
  split
  · exact exponent_unsigned _ c hc k
  · obtain ⟨ip, fp, h1, h2, h3, h4, h5, h6⟩ := plain_unsigned c hc k true
    exact ⟨ip, fp, [], 0, by rw [h1, List.append_nil], h2, h3, h4, h5, .inl ⟨rfl, rfl⟩, by rw [h6]; simp⟩

theorem zero_unsigned : Unsigned "0.0".toList 0 :=
  ⟨['0'], ['0'], [], 0, by decide, by simp, MBus.Digits.zeros 1, MBus.Digits.zeros 1, .inl rfl, .inl ⟨rfl, rfl⟩,
    by simp [decimalValue, natOf]⟩

/-- The magnitude that is written. -/
def writtenValue (halfUp : Bool) (n : Nat) (e : Int) : ℚ :=
  if n = 0 then 0 else (shortestDigits halfUp n e).1 * 10 ^ (shortestDigits halfUp n e).2

theorem jsonNumber_value (style : RealStyle) (neg : Bool) (n : Nat) (e : Int) :
    NumberValue (jsonNumber style neg n e) (if neg then -writtenValue style.halfUp n e else writtenValue style.halfUp n e) ∧
    NumberText (jsonNumber style neg n e) := by
  unfold jsonNumber writtenValue
  change NumberValue (signText neg ++ _) _ ∧ NumberText (signText neg ++ _)
  by_cases hn : n = 0
  · simp only [if_pos hn]
    exact unsigned_value zero_unsigned neg
  · simp only [if_neg hn]
    exact unsigned_value (magnitude_unsigned style hn e) neg

theorem written_reads (halfUp : Bool) (n : Nat) (e : Int) (h : n ≠ 0 → ∃ m q, Fits n e m q) :
    ReadsAs (writtenValue halfUp n e) (n * 2 ^ e) := by
  unfold writtenValue
  by_cases hn : n = 0
  · rw [if_pos hn, hn]; simpa using reads_zero
  · rw [if_neg hn]
    obtain ⟨m, q, hf⟩ := h hn
    rw [← hf.value]
    obtain ⟨a, b, c⟩ := (shortest_spec (halfUp := halfUp) hf.parts hf.low hf.high).1
    exact reads_of_near hf.low hf.high hf.above hf.below a b c

theorem displayReal_value (bits : UInt32) (h : FiniteReal bits) : ∃ neg ip fp,
    displayReal bits = decimalText neg ip fp ∧ ip ≠ [] ∧ Digits ip ∧ Digits fp ∧ neg = decide (2 ^ 31 ≤ bits.toNat) ∧
    (if decide (2 ^ 31 ≤ bits.toNat) then -writtenValue true (realMagnitude bits).1 (realMagnitude bits).2
      else writtenValue true (realMagnitude bits).1 (realMagnitude bits).2) = decimalValue neg ip fp := by
  unfold displayReal
  unfold FiniteReal at h
  generalize realMagnitude bits = p
  obtain ⟨n, e⟩ := p
  simp only [if_neg h]
  have hsign : (if 2 ^ 31 ≤ bits.toNat then ['-'] else []) = signText (decide (2 ^ 31 ≤ bits.toNat)) := by
    by_cases h : 2 ^ 31 ≤ bits.toNat <;> simp [signText]
  rw [hsign]
  generalize decide (2 ^ 31 ≤ bits.toNat) = neg
  unfold writtenValue
  by_cases hn : n = 0
  · rw [if_pos hn, if_pos hn]
    exact ⟨neg, ['0'], [], by simp [decimalText], by simp, MBus.Digits.zeros 1, MBus.Digits.zeros 0, rfl, by
      cases neg <;> simp [decimalValue, natOf]⟩
  · rw [if_neg hn, if_neg hn]
    obtain ⟨a, b, -⟩ := significand_spec hn e
    obtain ⟨ip, fp, h1, h2, h3, h4, h5, h6⟩ := plain_unsigned _ (digits_pos (halfUp := true) (n := n) (e := e) rfl a b)
      (shortestDigits true n e).2 false
    refine ⟨neg, ip, fp, by rw [h1]; simp [decimalText, signText], h2, h3, h4, rfl, ?_⟩
    rw [h6]
    cases neg <;> simp [decimalValue]
    ring

/-! ## A text has one value -/

/-- Whether a character is a digit. -/
def isDig (c : Char) : Bool := decide ('0' ≤ c ∧ c ≤ '9')

theorem span_digits {ds t : List Char} (h : Digits ds) (ht : ∀ c ∈ t.head?, isDig c = false) :
    (ds ++ t).takeWhile isDig = ds ∧ (ds ++ t).dropWhile isDig = t := by
  induction ds with
  | nil =>
    cases t with
    | nil => exact ⟨rfl, rfl⟩
    | cons c t =>
      have hc := ht c (by simp)
      simp [hc]
  | cons d ds ih =>
    have hd : isDig d = true := decide_eq_true (h d (by simp))
    obtain ⟨a, b⟩ := ih (fun c hc => h c (by simp [hc]))
    simp [hd, a, b]

/-- The exponent of a text. -/
def expOf : List Char → Int
  | 'e' :: '+' :: ds => natOf ds
  | 'e' :: '-' :: ds => -natOf ds
  | 'e' :: ds => natOf ds
  | _ => 0

/-- The value of a text. -/
def numberOf (text : List Char) : ℚ :=
  let neg := text.head? == some '-'
  let t := if neg then text.drop 1 else text
  let t1 := t.dropWhile isDig
  let fraction := t1.head? == some '.'
  let t2 := if fraction then t1.drop 1 else t1
  decimalValue neg (t.takeWhile isDig) (if fraction then t2.takeWhile isDig else []) *
    10 ^ expOf (if fraction then t2.dropWhile isDig else t2)

theorem expOf_exponent {exp : List Char} {e : Int} (h : ExponentOf exp e) : expOf exp = e := by
  rcases h with ⟨rfl, rfl⟩ | ⟨sign, ds, h1, h2, rfl, h3⟩
  · rfl
  · rcases h3 with ⟨h3 | h3, rfl⟩ | ⟨h3, rfl⟩ <;> subst h3
    · obtain ⟨d, t, rfl⟩ := List.exists_cons_of_ne_nil h1
      have hd := h2 d (by simp)
      have e1 : d ≠ '+' := by rintro rfl; exact absurd hd (by decide)
      have e2 : d ≠ '-' := by rintro rfl; exact absurd hd (by decide)
      show expOf ('e' :: d :: t) = _
      unfold expOf
      split
      · rename_i h; cases h; exact absurd rfl e1
      · rename_i h; cases h; exact absurd rfl e2
      · rename_i h; cases h; rfl
      · rename_i h; exact absurd rfl (h _)
    · rfl
    · rfl

theorem exp_head {exp : List Char} {e : Int} (h : ExponentOf exp e) : ∀ c ∈ exp.head?, c = 'e' := by
  rcases h with ⟨rfl, -⟩ | ⟨sign, ds, -, -, rfl, -⟩
  · intro c hc; cases hc
  · intro c hc; simpa using hc.symm

theorem numberOf_value {text : List Char} {x : ℚ} (h : NumberValue text x) : numberOf text = x := by
  obtain ⟨neg, ip, fp, exp, e, rfl, h1, h2, h3, h4, rfl⟩ := h
  have hexp := expOf_exponent h4
  have hh := exp_head h4
  have hhd : ∀ c ∈ exp.head?, isDig c = false := fun c hc => by rw [hh c hc]; decide
  obtain ⟨tail, htail⟩ : ∃ tail, tail = (if fp = [] then [] else '.' :: fp) ++ exp := ⟨_, rfl⟩
  have et : decimalText neg ip fp ++ exp = signText neg ++ (ip ++ tail) := by
    rw [htail]; simp [decimalText]
  have hneg : ((decimalText neg ip fp ++ exp).head? == some '-') = neg := by
    rw [et]
    cases neg
    · obtain ⟨d, t, rfl⟩ := List.exists_cons_of_ne_nil h1
      have hd := h2 d (by simp)
      have : d ≠ '-' := by rintro rfl; exact absurd hd (by decide)
      simp [signText, this]
    · simp [signText]
  have ht : (if neg then (decimalText neg ip fp ++ exp).drop 1 else decimalText neg ip fp ++ exp) = ip ++ tail := by
    rw [et]; cases neg <;> simp [signText]
  have htd : ∀ c ∈ tail.head?, isDig c = false := by
    rw [htail]
    by_cases hf : fp = []
    · rw [if_pos hf, List.nil_append]; exact hhd
    · rw [if_neg hf]; intro c hc
      have : '.' = c := by simpa using hc
      rw [← this]; decide
  obtain ⟨s1, s2⟩ := span_digits h2 htd
  unfold numberOf
  simp only [hneg, ht, s1, s2]
  by_cases hf : fp = []
  · have hx : tail = exp := by rw [htail, if_pos hf, List.nil_append]
    have hd : (tail.head? == some '.') = false := by
      rw [hx]
      cases hp : exp.head? with
      | none => rfl
      | some c => rw [hh c (by rw [hp]; rfl)]; decide
    rw [hd, hf]
    simp only [Bool.false_eq_true, if_false]
    rw [hx, hexp]
  · have hx : tail = '.' :: (fp ++ exp) := by rw [htail, if_neg hf, List.cons_append]
    have hd : (tail.head? == some '.') = true := by rw [hx]; simp
    obtain ⟨r1, r2⟩ := span_digits h3 hhd
    rw [hd, hx]
    simp only [if_true, List.drop_succ_cons, List.drop_zero]
    rw [r1, r2, hexp]

theorem value_unique {text : List Char} {x y : ℚ} (h : NumberValue text x) (h' : NumberValue text y) : x = y :=
  (numberOf_value h).symm.trans (numberOf_value h')

theorem denotes_value {text : List Char} {x : ℚ} (h : Denotes text x) : NumberValue text x := by
  obtain ⟨neg, ip, fp, a, b, c, rfl, rfl⟩ := h
  exact ⟨neg, ip, fp, [], 0, by simp, a, b, c, .inl ⟨rfl, rfl⟩, by simp⟩

/-! ## Different reals -/

theorem magnitude_inj {b b' : UInt32}
    (h : ((realMagnitude b).1 : ℚ) * 2 ^ (realMagnitude b).2 = (realMagnitude b').1 * 2 ^ (realMagnitude b').2) :
    b.toNat % 2 ^ 31 = b'.toNat % 2 ^ 31 := by
  have key : ∀ b b' : UInt32, (realMagnitude b).2 < (realMagnitude b').2 →
      ((realMagnitude b).1 : ℚ) * 2 ^ (realMagnitude b).2 ≠ (realMagnitude b').1 * 2 ^ (realMagnitude b').2 := by
    intro b b' hlt he
    have hr := magnitude_range b
    have h23 : 2 ^ 23 ≤ (realMagnitude b').1 := by
      unfold realMagnitude at hlt ⊢
      by_cases h : b'.toNat / 2 ^ 23 % 256 = 0
      · exfalso
        rw [if_pos h] at hlt
        have := hr.2.1
        unfold realMagnitude at this
        omega
      · rw [if_neg h]; show 2 ^ 23 ≤ 2 ^ 23 + _; omega
    obtain ⟨j, hj⟩ : ∃ j : Nat, (realMagnitude b').2 = (realMagnitude b).2 + (j + 1 : Nat) :=
      ⟨((realMagnitude b').2 - (realMagnitude b).2).toNat - 1, by omega⟩
    rw [hj, zpow_add₀ (by norm_num), zpow_natCast] at he
    have ht := two_zpow_pos (realMagnitude b).2
    have : ((realMagnitude b).1 : ℚ) = ((realMagnitude b').1 * 2 ^ (j + 1) : Nat) := by
      push_cast
      have : ((realMagnitude b).1 : ℚ) * 2 ^ (realMagnitude b).2 =
          ((realMagnitude b').1 * 2 ^ (j + 1)) * 2 ^ (realMagnitude b).2 := by rw [he]; ring
      exact mul_right_cancel₀ ht.ne' this
    have : (realMagnitude b).1 = (realMagnitude b').1 * 2 ^ (j + 1) := by exact_mod_cast this
    have h2 : 2 ^ 1 ≤ 2 ^ (j + 1) := Nat.pow_le_pow_right (by norm_num) (by omega)
    have := Nat.mul_le_mul h23 h2
    omega
  have heq : (realMagnitude b).2 = (realMagnitude b').2 := by
    rcases lt_trichotomy (realMagnitude b).2 (realMagnitude b').2 with hlt | he | hgt
    · exact absurd h (key b b' hlt)
    · exact he
    · exact absurd h.symm (key b' b hgt)
  have hn : (realMagnitude b).1 = (realMagnitude b').1 := by
    rw [heq] at h
    exact_mod_cast mul_right_cancel₀ (two_zpow_pos (realMagnitude b').2).ne' h
  unfold realMagnitude at heq hn
  split at heq <;> split at heq <;> simp_all <;> omega

theorem real_reads_inj {b b' : UInt32} {x : ℚ}
    (h : ReadsAs x (realValue b.toNat)) (h' : ReadsAs x (realValue b'.toNat)) : b.toNat % 2 ^ 31 = b'.toNat % 2 ^ 31 ∧
    (b.toNat % 2 ^ 31 ≠ 0 → b = b') := by
  have fits : ∀ b : UInt32, (realMagnitude b).1 ≠ 0 → ∃ (m : Nat) (q : Int), 2 ^ 52 ≤ m ∧ m < 2 ^ 53 ∧ -1074 < q ∧ q < 971 ∧
      ((realMagnitude b).1 : ℚ) * 2 ^ (realMagnitude b).2 = (m : ℚ) * 2 ^ q := by
    intro b hn
    have hr := magnitude_range b
    obtain ⟨m, q, hf, h1, h2⟩ := fits_small hn (e := (realMagnitude b).2) (by omega) (by omega) (by omega)
    exact ⟨m, q, hf.low, hf.high, h1, h2, hf.value.symm⟩
  have eq : ∀ b : UInt32, (realMagnitude b).1 ≠ 0 → ∀ v', ReadsAs x (realValue b.toNat) → ReadsAs x v' →
      realValue b.toNat = v' := by
    intro b hn v' h h'
    obtain ⟨m, q, a1, a2, a3, a4, a5⟩ := fits b hn
    rw [real_value, a5] at h ⊢
    split at h
    · rename_i hs
      rw [if_pos hs]
      have e := reads_eq a1 a2 a3 a4 (x := -x) (v' := -v') (by have := reads_neg h; rwa [neg_neg] at this) (reads_neg h')
      rw [e, neg_neg]
    · rename_i hs
      rw [if_neg hs]
      exact reads_eq a1 a2 a3 a4 h h'
  have heq : realValue b.toNat = realValue b'.toNat := by
    by_cases hn : (realMagnitude b).1 = 0
    · by_cases hn' : (realMagnitude b').1 = 0
      · rw [real_value, real_value, hn, hn']; simp
      · exact (eq b' hn' _ h' h).symm
    · exact eq b hn _ h h'
  have pos : ∀ b : UInt32, 0 ≤ ((realMagnitude b).1 : ℚ) * 2 ^ (realMagnitude b).2 :=
    fun b => mul_nonneg (by positivity) (two_zpow_pos _).le
  have mag : ((realMagnitude b).1 : ℚ) * 2 ^ (realMagnitude b).2 = (realMagnitude b').1 * 2 ^ (realMagnitude b').2 := by
    have p := pos b
    have p' := pos b'
    rw [real_value, real_value] at heq
    split at heq <;> split at heq <;> linarith
  have low := magnitude_inj mag
  refine ⟨low, fun hne => ?_⟩
  have hn0 : (realMagnitude b).1 ≠ 0 := by
    unfold realMagnitude
    split
    · rename_i h0
      show b.toNat % 2 ^ 23 ≠ 0
      omega
    · show 2 ^ 23 + b.toNat % 2 ^ 23 ≠ 0
      omega
  have hp : 0 < ((realMagnitude b).1 : ℚ) * 2 ^ (realMagnitude b).2 :=
    mul_pos (by exact_mod_cast Nat.pos_of_ne_zero hn0) (two_zpow_pos _)
  have sign : (2 ^ 31 ≤ b.toNat) ↔ (2 ^ 31 ≤ b'.toNat) := by
    rw [real_value, real_value, ← mag] at heq
    by_cases h1 : 2 ^ 31 ≤ b.toNat <;> by_cases h2 : 2 ^ 31 ≤ b'.toNat <;> simp only [h1, h2] at heq ⊢ <;>
      simp only [decide_true, decide_false, if_true, Bool.false_eq_true, if_false] at heq <;> exfalso <;> linarith
  apply UInt32.toNat_inj.1
  have := b.toNat_lt
  have := b'.toNat_lt
  omega

end MBus
