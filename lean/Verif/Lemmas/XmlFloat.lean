import Verif.Model.XmlFloat
import Verif.Spec.XmlFloat
import Verif.Lemmas.F64
import Verif.Lemmas.RecordOutput
import Verif.Lemmas.Xml
import Mathlib.Tactic.Linarith
import Mathlib.Tactic.Positivity
import Mathlib.Tactic.NormNum
import Mathlib.Tactic.FieldSimp
import Mathlib.Algebra.Order.Field.Power
import Mathlib.Data.Rat.Cast.Order
namespace MBus.Xml
open MBus.Spec MBus.Spec.Xml

/-- `y` is `x` up to a relative error. -/
def Close (c y x : ℚ) : Prop := |y - x| ≤ c * |x|

theorem Close.refl (x : ℚ) : Close 0 x x := by simp [Close]

theorem Close.bound {c y x : ℚ} (h : Close c y x) : |y| ≤ (1 + c) * |x| := by
  unfold Close at h
  have : |y| ≤ |y - x| + |x| := by
    have := abs_add_le (y - x) x
    simpa using this
  linarith

theorem Close.mono {c d y x : ℚ} (h : Close c y x) (hd : c ≤ d) : Close d y x :=
  h.trans (mul_le_mul_of_nonneg_right hd (abs_nonneg x))

theorem Close.trans {a b z y x : ℚ} (ha : 0 ≤ a) (h : Close a z y) (h' : Close b y x) :
    Close ((1 + a) * (1 + b) - 1) z x := by
  unfold Close at *
  have h1 : |z - x| ≤ |z - y| + |y - x| := abs_sub_le z y x
  have h2 := mul_le_mul_of_nonneg_left (Close.bound h') ha
  nlinarith

theorem Close.mul {a b y x y' x' : ℚ} (hb : 0 ≤ b) (h : Close a y x) (h' : Close b y' x') :
    Close ((1 + a) * (1 + b) - 1) (y * y') (x * x') := by
  unfold Close at *
  have e : y * y' - x * x' = (y - x) * y' + x * (y' - x') := by ring
  rw [e]
  have h1 := abs_add_le ((y - x) * y') (x * (y' - x'))
  rw [abs_mul, abs_mul] at h1
  have h2 := Close.bound h'
  have h3 := mul_le_mul h h2 (abs_nonneg _) ((abs_nonneg _).trans h)
  have h4 := mul_le_mul_of_nonneg_left h' (abs_nonneg x)
  rw [abs_mul]
  nlinarith

/-- The unit of rounding. -/
def unit : ℚ := 1 / 2 ^ 53

theorem round_close (n : Nat) : Close unit (roundNat53 n : ℚ) (n : ℚ) := by
  unfold Close
  by_cases h : n ≤ 2 ^ 53
  · rw [roundNat53_small n h]
    simp [unit]
  · obtain ⟨u, q, -, -, -, h1, h2, h3, hr⟩ := roundNat53_big n (by omega)
    have hn : 2 ^ n.log2 ≤ n := Nat.log2_self_le (by omega)
    have hb : (2 : ℚ) ^ 52 * u ≤ n := by
      have : 2 ^ 52 * u ≤ n := by omega
      exact_mod_cast this
    have key : |(roundNat53 n : ℚ) - n| ≤ u / 2 := by
      rcases hr with ⟨e, h⟩ | ⟨e, h⟩
      · have h' : 2 * n ≤ 2 * (q * u) + u := by omega
        have h'' : (2 : ℚ) * n ≤ 2 * (q * u) + u := by exact_mod_cast h'
        have h1' : (q : ℚ) * u ≤ n := by exact_mod_cast h1
        rw [e, abs_le]
        push_cast
        constructor <;> linarith
      · have h' : 2 * ((q + 1) * u) ≤ 2 * n + u := by omega
        have h'' : (2 : ℚ) * ((q + 1) * u) ≤ 2 * n + u := by exact_mod_cast h'
        have h1' : (n : ℚ) ≤ (q + 1) * u := by exact_mod_cast h2.le
        rw [e, abs_le]
        push_cast
        constructor <;> linarith
    rw [abs_of_nonneg (a := (n : ℚ)) (by positivity)]
    unfold unit
    have : (u : ℚ) / 2 ≤ 1 / 2 ^ 53 * n := by
      norm_num at hb ⊢
      linarith
    exact key.trans this

theorem round_int_close (v : Int) : Close unit (roundF64 v : ℚ) (v : ℚ) := by
  have h := round_close v.natAbs
  unfold Close at *
  unfold roundF64
  have hc : ((v.natAbs : Nat) : ℚ) = |(v : ℚ)| := by
    rw [Nat.cast_natAbs]
    push_cast
    rfl
  rw [hc] at h
  rw [abs_abs] at h
  split
  · rename_i hv
    have hv' : (v : ℚ) < 0 := by exact_mod_cast hv
    rw [abs_of_neg hv'] at h ⊢
    push_cast
    rw [abs_le] at h ⊢
    constructor <;> linarith [h.1, h.2]
  · rename_i hv
    have hv' : (0 : ℚ) ≤ v := by exact_mod_cast (not_lt.1 hv)
    rw [abs_of_nonneg hv'] at h ⊢
    push_cast
    exact h

/-- The number a finite `f64` is. -/
def XFloat.value : XFloat → ℚ
  | .finite negative m e => (if negative then -1 else 1) * m * 2 ^ e
  | _ => 0

/-- A finite `f64` of a value up to a relative error. -/
def IsFinite (c : ℚ) (x : XFloat) (v : ℚ) : Prop := (∃ a m e, x = .finite a m e) ∧ Close c x.value v

theorem mul_finite {a b : ℚ} {x y : XFloat} {v w : ℚ} (ha : 0 ≤ a) (hb : 0 ≤ b) (hx : IsFinite a x v)
    (hy : IsFinite b y w) : IsFinite ((1 + unit) * (1 + ((1 + a) * (1 + b) - 1)) - 1) (x.mul y) (v * w) := by
  obtain ⟨⟨s, m, e, rfl⟩, hx⟩ := hx
  obtain ⟨⟨s', m', e', rfl⟩, hy⟩ := hy
  refine ⟨⟨_, _, _, rfl⟩, ?_⟩
  refine Close.trans (by unfold unit; norm_num) ?_ (hx.mul hb hy)
  have h := round_close (m * m')
  have he : (2 : ℚ) ^ (e + e') = 2 ^ e * 2 ^ e' := zpow_add₀ (by norm_num) _ _
  have hp : (0 : ℚ) < 2 ^ e * 2 ^ e' := by positivity
  unfold Close at *
  simp only [XFloat.mul, XFloat.value, he]
  push_cast at h
  have key : ∀ sg : ℚ, |sg| = 1 → |sg * roundNat53 (m * m') * (2 ^ e * 2 ^ e') - sg * (m * m') * (2 ^ e * 2 ^ e')| ≤
      unit * |sg * (m * m') * (2 ^ e * 2 ^ e')| := by
    intro sg hs
    generalize (2 : ℚ) ^ e * 2 ^ e' = E at hp
    generalize (m : ℚ) * m' = M at h
    rw [← sub_mul, ← mul_sub, abs_mul, abs_mul, abs_mul, abs_mul, hs, abs_of_pos hp, one_mul, one_mul, ← mul_assoc]
    exact mul_le_mul_of_nonneg_right h hp.le
  cases s <;> cases s'
  · have := key 1 (by norm_num)
    convert this using 2 <;> first | (simp; done) | (simp; ring)
  · have := key (-1) (by norm_num)
    convert this using 2 <;> first | (simp; done) | (simp; ring)
  · have := key (-1) (by norm_num)
    convert this using 2 <;> first | (simp; done) | (simp; ring)
  · have := key 1 (by norm_num)
    convert this using 2 <;> first | (simp; done) | (simp; ring)

theorem signedNat_value (s : Bool) (m : Nat) : ((signedNat s m : Int) : ℚ) = (if s then -1 else 1) * m := by
  unfold signedNat
  cases s <;> simp

theorem scaled (m : Nat) (e low : Int) (h : low ≤ e) :
    ((m * 2 ^ (e - low).toNat : Nat) : ℚ) * 2 ^ low = m * 2 ^ e := by
  push_cast
  have : (2 : ℚ) ^ e = 2 ^ (e - low).toNat * 2 ^ low := by
    rw [← zpow_natCast, ← zpow_add₀ (by norm_num)]
    congr 1
    omega
  rw [this]
  ring

/-- The sum is that of the values up to one rounding. -/
theorem add_finite (s s' : Bool) (m m' : Nat) (e e' : Int) :
    IsFinite unit ((XFloat.finite s m e).add (.finite s' m' e'))
      ((XFloat.finite s m e).value + (XFloat.finite s' m' e').value) := by
  simp only [XFloat.add]
  set low := min e e' with hlow
  set sum := signedNat s (m * 2 ^ (e - low).toNat) + signedNat s' (m' * 2 ^ (e' - low).toNat) with hsum
  have hv : (XFloat.finite s m e).value + (XFloat.finite s' m' e').value = (sum : ℚ) * 2 ^ low := by
    simp only [XFloat.value]
    rw [hsum, Int.cast_add, add_mul, signedNat_value, signedNat_value, mul_assoc _ (_ : ℚ) (2 ^ low),
      mul_assoc _ (_ : ℚ) (2 ^ low), scaled m e low (min_le_left _ _), scaled m' e' low (min_le_right _ _),
      mul_assoc, mul_assoc]
  rw [hv]
  have hp : (0 : ℚ) < 2 ^ low := by positivity
  split
  · rename_i h0
    refine ⟨⟨_, _, _, rfl⟩, ?_⟩
    rw [h0]
    simp [Close, XFloat.value]
  · refine ⟨⟨_, _, _, rfl⟩, ?_⟩
    have h := round_int_close sum
    have e1 : (XFloat.finite (decide (sum < 0)) (roundNat53 sum.natAbs) low).value = (roundF64 sum : ℚ) * 2 ^ low := by
      simp only [XFloat.value, roundF64]
      by_cases hs : sum < 0 <;> simp [hs]
    unfold Close at *
    rw [e1, ← sub_mul, abs_mul, abs_mul, abs_of_pos hp, ← mul_assoc]
    exact mul_le_mul_of_nonneg_right h hp.le

/-- The error of a literal. -/
def litError : ℚ := (1 + unit) * (1 + 1 / 2 ^ 65) - 1

theorem sticky_close (N d : Nat) (hd : 0 < d) :
    |((2 * (N / d) + (if N % d = 0 then 0 else 1) : Nat) : ℚ) - 2 * ((N : ℚ) / d)| ≤ 1 := by
  have hdm := Nat.div_add_mod N d
  have hlt := Nat.mod_lt N hd
  have hdq : (0 : ℚ) < d := by exact_mod_cast hd
  have e1 : (d : ℚ) * ((N / d : Nat) : ℚ) + ((N % d : Nat) : ℚ) = N := by exact_mod_cast hdm
  generalize N / d = q at *
  generalize N % d = r at *
  have e2 : (N : ℚ) / d = q + (r : ℚ) / d := by
    rw [← e1]
    field_simp
  rw [e2]
  have h1 : (r : ℚ) / d < 1 := by
    rw [div_lt_one hdq]
    exact_mod_cast hlt
  have h2 : 0 ≤ (r : ℚ) / d := by positivity
  by_cases h0 : r = 0
  · simp [h0]
  · rw [if_neg h0, abs_le]
    push_cast
    constructor <;> linarith

theorem sticky_relative (N d : Nat) (hd : 0 < d) (h : d * 2 ^ 64 ≤ N) :
    Close litError (roundNat53 (2 * (N / d) + (if N % d = 0 then 0 else 1)) : ℚ) (2 * ((N : ℚ) / d)) := by
  have hx := sticky_close N d hd
  have hdq : (0 : ℚ) < d := by exact_mod_cast hd
  have hy1 : (2 : ℚ) ^ 65 ≤ 2 * ((N : ℚ) / d) := by
    have h' : ((d * 2 ^ 64 : Nat) : ℚ) ≤ (N : ℚ) := by exact_mod_cast h
    push_cast at h'
    have : (2 : ℚ) ^ 64 ≤ N / d := by rw [le_div_iff₀ hdq]; linarith
    calc (2 : ℚ) ^ 65 = 2 * 2 ^ 64 := by norm_num
      _ ≤ 2 * ((N : ℚ) / d) := by linarith
  generalize 2 * (N / d) + (if N % d = 0 then 0 else 1) = x at *
  generalize 2 * ((N : ℚ) / d) = y at *
  have c1 : Close (1 / 2 ^ 65) (x : ℚ) y := by
    unfold Close
    have hy0 : 0 < y := lt_of_lt_of_le (by positivity) hy1
    rw [abs_of_pos hy0]
    refine hx.trans ?_
    rw [one_div, inv_mul_eq_div, le_div_iff₀ (by positivity), one_mul]
    exact hy1
  exact (round_close x).trans (by unfold unit; norm_num) c1

theorem quotient_close (n d : Nat) (hn : 0 < n) (hd : 0 < d) :
    IsFinite litError (XFloat.quotient n d) ((n : ℚ) / d) := by
  refine ⟨⟨_, _, _, rfl⟩, ?_⟩
  unfold XFloat.quotient
  simp only [XFloat.value]
  have hdlog : d < 2 ^ (d.log2 + 1) := Nat.lt_log2_self
  generalize hs : d.log2 + 65 = s
  have hbig : d * 2 ^ 64 ≤ n * 2 ^ s := by
    have h1 : d * 2 ^ 64 ≤ 2 ^ (d.log2 + 1) * 2 ^ 64 := Nat.mul_le_mul_right _ hdlog.le
    have h2 : 2 ^ (d.log2 + 1) * 2 ^ 64 = 2 ^ s := by rw [← Nat.pow_add, ← hs]
    have h3 : 2 ^ s ≤ n * 2 ^ s := Nat.le_mul_of_pos_left _ hn
    rw [h2] at h1
    exact h1.trans h3
  have c2 := sticky_relative (n * 2 ^ s) d hd hbig
  have hdq : (0 : ℚ) < d := by exact_mod_cast hd
  have e3 : 2 * (((n * 2 ^ s : Nat) : ℚ) / d) * 2 ^ (-((s : Int) + 1)) = (n : ℚ) / d := by
    rw [zpow_neg, zpow_add₀ (by norm_num), zpow_natCast]
    push_cast
    field_simp
  have hp : (0 : ℚ) < 2 ^ (-((s : Int) + 1)) := by positivity
  rw [← e3]
  unfold Close at *
  simp only [Bool.false_eq_true, if_false, one_mul]
  rw [← sub_mul, abs_mul, abs_mul, abs_of_pos hp, ← mul_assoc]
  exact mul_le_mul_of_nonneg_right c2 hp.le

theorem unit_le : unit ≤ litError := by unfold litError unit; norm_num

theorem litError_nonneg : 0 ≤ litError := by unfold litError unit; norm_num

theorem literal_close (f : Factor) : IsFinite litError (XFloat.literal f) (factorValue f) := by
  unfold XFloat.literal factorValue
  split
  · rename_i h
    refine ⟨⟨_, _, _, rfl⟩, ?_⟩
    simp [Close, XFloat.value, h]
  · rename_i h
    cases hf : f.exponent with
    | ofNat k =>
      simp only
      refine ⟨⟨_, _, _, rfl⟩, ?_⟩
      have := (round_close (f.mantissa * 10 ^ k)).mono unit_le
      simpa [XFloat.value] using this
    | negSucc k =>
      simp only
      have := quotient_close f.mantissa (10 ^ (k + 1)) (by omega) (by positivity)
      have e : (f.mantissa : ℚ) * 10 ^ (Int.negSucc k) = (f.mantissa : ℚ) / ((10 ^ (k + 1) : Nat) : ℚ) := by
        rw [zpow_negSucc]
        push_cast
        rfl
      rw [e]
      exact this

theorem power_close (n : Int) : IsFinite litError (XFloat.power n) (10 ^ n) := by
  have := literal_close ⟨1, n⟩
  simpa [XFloat.power, factorValue] using this

/-- The computed number, given the decoded one. -/
theorem number_close (x : XmlReal) (v c : ℚ) (hc : 0 ≤ c) (hcu : c ≤ unit) (h : IsFinite c (XFloat.ofRaw x.raw) v) :
    (∃ a m e, x.number = .finite a m e) ∧
      |x.number.value - meant v x.factor x.correction| ≤
        (c + 402 / 100 * unit) * magnitude v x.factor x.correction := by
  have hl := litError_nonneg
  have hu : 0 ≤ unit := by unfold unit; norm_num
  have h1 := mul_finite hc hl h (literal_close x.factor)
  set k1 := (1 + unit) * (1 + ((1 + c) * (1 + litError) - 1)) - 1 with hk1
  have hk1' : k1 ≤ c + 202 / 100 * unit := by
    rw [hk1]
    unfold litError unit at *
    norm_num at hcu ⊢
    linarith
  have hk0 : 0 ≤ k1 := by
    rw [hk1]
    nlinarith [mul_nonneg hc hl, mul_nonneg hu hc, mul_nonneg hu hl, mul_nonneg hu (mul_nonneg hc hl)]
  unfold XmlReal.number
  cases x.correction with
  | none =>
    refine ⟨h1.1, ?_⟩
    have := h1.2.mono (hk1'.trans (by linarith : c + 202 / 100 * unit ≤ c + 402 / 100 * unit))
    exact this
  | times n =>
    have h2 := mul_finite hk0 hl h1 (power_close n)
    refine ⟨h2.1, ?_⟩
    refine (h2.2.mono (d := c + 402 / 100 * unit) ?_)
    have : k1 * (1 + 3 * unit) ≤ (c + 202 / 100 * unit) * (1 + 3 * unit) :=
      mul_le_mul_of_nonneg_right hk1' (by linarith)
    unfold litError unit at *
    norm_num at *
    linarith
  | plus n =>
    obtain ⟨⟨a, m, e, h1e⟩, h1c⟩ := h1
    obtain ⟨⟨a', m', e', h2e⟩, h2c⟩ := power_close n
    simp only [h1e, h2e] at *
    have h3 := add_finite a a' m m' e e'
    refine ⟨h3.1, ?_⟩
    simp only [meant, magnitude]
    set p := (XFloat.finite a m e).value
    set w := (XFloat.finite a' m' e').value
    set P := v * factorValue x.factor
    have hW : (0 : ℚ) < 10 ^ n := by positivity
    have b1 := h1c.bound
    have b2 := h2c.bound
    have h3c := h3.2
    unfold Close at h1c h2c h3c
    rw [abs_of_pos hW] at h2c b2
    have t1 : |p + w - (P + 10 ^ n)| ≤ |p - P| + |w - 10 ^ n| := by
      have := abs_add_le (p - P) (w - 10 ^ n)
      rwa [show p - P + (w - 10 ^ n) = p + w - (P + 10 ^ n) by ring] at this
    have t2 := abs_sub_le ((XFloat.finite a m e).add (.finite a' m' e')).value (p + w) (P + 10 ^ n)
    have t3 := mul_le_mul_of_nonneg_left ((abs_add_le p w).trans (add_le_add b1 b2)) hu
    have hP : 0 ≤ |P| := abs_nonneg P
    have k2 : k1 + unit * (1 + k1) ≤ c + 402 / 100 * unit := by
      have : k1 * (1 + unit) ≤ (c + 202 / 100 * unit) * (1 + unit) := mul_le_mul_of_nonneg_right hk1' (by linarith)
      unfold litError unit at *
      norm_num at *
      linarith
    have k3 : litError + unit * (1 + litError) ≤ c + 402 / 100 * unit := by
      unfold litError unit at *
      norm_num at *
      linarith
    have q1 := mul_le_mul_of_nonneg_right k2 hP
    have q2 := mul_le_mul_of_nonneg_right k3 hW.le
    nlinarith

/-! ## Six decimals -/

theorem roundShift_close (n k : Nat) : |(roundShift n k : ℚ) - (n : ℚ) / 2 ^ k| ≤ 1 / 2 := by
  have hdm := Nat.div_add_mod n (2 ^ k)
  have hlt := Nat.mod_lt n (Nat.two_pow_pos k)
  have hp : (0 : ℚ) < 2 ^ k := by positivity
  have e1 : (n : ℚ) / 2 ^ k = ((n / 2 ^ k : Nat) : ℚ) + ((n % 2 ^ k : Nat) : ℚ) / 2 ^ k := by
    have : ((2 ^ k : Nat) : ℚ) * ((n / 2 ^ k : Nat) : ℚ) + ((n % 2 ^ k : Nat) : ℚ) = n := by exact_mod_cast hdm
    push_cast at this
    field_simp
    push_cast
    linarith
  have r0 : 0 ≤ ((n % 2 ^ k : Nat) : ℚ) / 2 ^ k := by positivity
  have r1 : ((n % 2 ^ k : Nat) : ℚ) / 2 ^ k < 1 := by
    rw [div_lt_one hp]
    exact_mod_cast hlt
  unfold roundShift
  simp only
  rw [e1]
  split
  · rename_i h
    have : 2 * (n % 2 ^ k) ≤ 2 ^ k := by omega
    have : (2 : ℚ) * ((n % 2 ^ k : Nat) : ℚ) ≤ 2 ^ k := by exact_mod_cast this
    have : ((n % 2 ^ k : Nat) : ℚ) / 2 ^ k ≤ 1 / 2 := by rw [div_le_div_iff₀ hp (by norm_num)]; linarith
    rw [abs_le]
    constructor <;> linarith
  · rename_i h
    have : 2 ^ k ≤ 2 * (n % 2 ^ k) := by omega
    have : (2 ^ k : ℚ) ≤ 2 * ((n % 2 ^ k : Nat) : ℚ) := by exact_mod_cast this
    have : 1 / 2 ≤ ((n % 2 ^ k : Nat) : ℚ) / 2 ^ k := by rw [div_le_div_iff₀ (by norm_num) hp]; linarith
    push_cast at *
    rw [abs_le]
    constructor <;> linarith

theorem millionths_close (m : Nat) (e : Int) : |(millionths m e : ℚ) - m * 2 ^ e * 10 ^ 6| ≤ 1 / 2 := by
  unfold millionths
  split
  · rename_i h
    have : (2 : ℚ) ^ e = 2 ^ e.toNat := by
      rw [← zpow_natCast, Int.toNat_of_nonneg h]
    rw [this]
    push_cast
    norm_num
  · rename_i h
    have := roundShift_close (m * 10 ^ 6) (-e).toNat
    have h2 : (2 : ℚ) ^ e = 1 / 2 ^ (-e).toNat := by
      rw [← zpow_natCast, Int.toNat_of_nonneg (by omega), zpow_neg]
      simp
    rw [h2]
    push_cast at this
    convert this using 2
    ring

theorem natOf_fixedDigits (w n : Nat) (h : n < 10 ^ w) : natOf (fixedDigits w n) = n := by
  induction w generalizing n with
  | zero => simp at h; subst h; rfl
  | succ w ih =>
    have hd := (digitText (n % 10) (Nat.mod_lt _ (by omega)))
    rw [fixedDigits, natOf_append, ih (n / 10) (by rw [Nat.pow_succ] at h; omega)]
    simp only [List.length_singleton, Nat.pow_one]
    have : natOf [Char.ofNat ('0'.toNat + n % 10)] = n % 10 := by simpa [natOf] using hd.2.2.1
    rw [this]
    omega

theorem fixed6_denotes (a : Bool) (m : Nat) (e : Int) :
    ∃ q, SixDecimals (XFloat.finite a m e).fixed6 q ∧ |q - (XFloat.finite a m e).value| ≤ 1 / (2 * 10 ^ 6) ∧
      ∃ k : Int, q = k / 10 ^ 6 := by
  have hm := millionths_close m e
  simp only [XFloat.fixed6, XFloat.value]
  generalize millionths m e = q at *
  have hlt : q % 10 ^ 6 < 10 ^ 6 := Nat.mod_lt _ (by norm_num)
  obtain ⟨d1, d2, d3, d4⟩ := decimal_spec (q / 10 ^ 6)
  have hl := fixedDigits_length 6 (q % 10 ^ 6)
  have hv : decimalValue a (decimal (q / 10 ^ 6)) (fixedDigits 6 (q % 10 ^ 6)) =
      (if a then -1 else 1) * (q : ℚ) / 10 ^ 6 := by
    unfold decimalValue
    rw [natOf_append, d3, hl, natOf_fixedDigits 6 _ hlt]
    congr 3
    have := Nat.div_add_mod q (10 ^ 6)
    omega
  refine ⟨_, ⟨a, _, _, d1, d2, fixedDigits_plain 6 _, d4, hl, ?_, rfl⟩, ?_, ?_⟩
  · rw [padNat_eq 6 _ hlt (by omega)]
    have hne : fixedDigits 6 (q % 10 ^ 6) ≠ [] := by
      intro h
      rw [h] at hl
      simp at hl
    unfold decimalText signText
    rw [if_neg hne, show natText (q / 10 ^ 6) = decimal (q / 10 ^ 6) from toDigits_eq _]
  · rw [hv]
    rw [mul_assoc (if a = true then (-1 : ℚ) else 1)]
    generalize (m : ℚ) * 2 ^ e = y at hm ⊢
    rw [abs_le] at hm ⊢
    cases a <;> simp <;> norm_num at hm ⊢ <;> constructor <;> linarith [hm.1, hm.2]
  · rw [hv]
    refine ⟨if a then -(q : Int) else q, ?_⟩
    cases a <;> simp

end MBus.Xml
