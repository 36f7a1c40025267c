import Verif.Lemmas.XmlFloat
import Verif.Spec.Sent
/-!
# C135: the numbers of the XML output
-/
namespace MBus
open MBus.Xml MBus.Spec MBus.Spec.Xml

theorem ofRaw_int (w : Int) : IsFinite 0 (XFloat.ofRaw (.int w)) w := by
  refine ⟨⟨_, _, _, rfl⟩, ?_⟩
  have : (XFloat.ofRaw (.int w)).value = (w : ℚ) := by
    simp only [XFloat.ofRaw, XFloat.value, zpow_zero, mul_one]
    have hc : ((w.natAbs : Nat) : ℚ) = |(w : ℚ)| := by
      rw [Nat.cast_natAbs]
      push_cast
      rfl
    rw [hc]
    by_cases h : w < 0
    · have h' : (w : ℚ) < 0 := by exact_mod_cast h
      simp [h, abs_of_neg h']
    · have h' : (0 : ℚ) ≤ w := by exact_mod_cast (not_lt.1 h)
      simp [h, abs_of_nonneg h']
  rw [this]
  exact Close.refl _

theorem ofRaw_ofInt (v : Int) : IsFinite unit (XFloat.ofRaw (F64.ofInt v)) v := by
  obtain ⟨h1, h2⟩ := ofRaw_int (roundF64 v)
  refine ⟨h1, ?_⟩
  have := h2.trans le_rfl (round_int_close v)
  simp only [add_zero, one_mul, add_sub_cancel_left] at this
  exact this

theorem ofRaw_real (bits : UInt32) (h : bits.toNat / 2 ^ 23 % 256 ≠ 255) :
    IsFinite 0 (XFloat.ofRaw (.real32 bits)) (realValue bits.toNat) := by
  have hs : bits.toNat / 2 ^ 31 % 2 = bits.toNat / 2 ^ 31 := Nat.mod_eq_of_lt (by have := bits.toNat_lt; omega)
  have hlt : bits.toNat / 2 ^ 31 < 2 := by have := bits.toNat_lt; omega
  unfold XFloat.ofRaw realValue
  simp only [if_neg h]
  rw [hs]
  generalize bits.toNat / 2 ^ 31 = t at hlt
  have ht : ((-1 : ℚ)) ^ t = if decide (t = 1) = true then -1 else 1 := by
    interval_cases t <;> simp
  rw [ht]
  split
  · refine ⟨⟨_, _, _, rfl⟩, ?_⟩
    simp only [XFloat.value]
    rw [mul_assoc]
    exact Close.refl _
  · refine ⟨⟨_, _, _, rfl⟩, ?_⟩
    simp only [XFloat.value]
    rw [mul_assoc]
    exact Close.refl _

theorem shown_close (x : XmlReal) (v c : ℚ) (hc : 0 ≤ c) (hcu : c ≤ unit) (h : IsFinite c (XFloat.ofRaw x.raw) v) :
    ∃ q, SixDecimals (shownNumber x) q ∧ (∃ k : Int, q = k / 10 ^ 6) ∧ |q - meant v x.factor x.correction| ≤
      1 / (2 * 10 ^ 6) + (c + 402 / 100 * unit) * magnitude v x.factor x.correction := by
  obtain ⟨⟨a, m, e, hx⟩, hn⟩ := number_close x v c hc hcu h
  unfold shownNumber
  rw [hx] at hn ⊢
  obtain ⟨q, h1, h2, h3⟩ := fixed6_denotes a m e
  exact ⟨q, h1, h3, (abs_sub_le _ _ _).trans (add_le_add h2 hn)⟩

theorem magnitude_nonneg (v : ℚ) (f : Factor) (c : Correction) : 0 ≤ magnitude v f c := by
  cases c <;> simp only [magnitude] <;> positivity

/-- C135: a decoded integer is shown with six decimals, and the number shown is the number meant, up to half a
millionth and one part in 2^50 of the numbers it is computed from. -/
theorem C135_integer (x : XmlReal) (v : Int) (hx : x.raw = F64.ofInt v) :
    ∃ q, SixDecimals (shownNumber x) q ∧ |q - meant v x.factor x.correction| ≤
      1 / (2 * 10 ^ 6) + magnitude v x.factor x.correction / 2 ^ 50 := by
  obtain ⟨q, h1, -, h2⟩ := shown_close x v unit (by unfold unit; norm_num) le_rfl (hx ▸ ofRaw_ofInt v)
  refine ⟨q, h1, h2.trans ?_⟩
  have := magnitude_nonneg v x.factor x.correction
  unfold unit
  norm_num
  linarith

/-- C135: so is a decoded real that is finite. -/
theorem C135_real (x : XmlReal) (bits : UInt32) (hx : x.raw = .real32 bits) (hb : bits.toNat / 2 ^ 23 % 256 ≠ 255) :
    ∃ q, SixDecimals (shownNumber x) q ∧ |q - meant (realValue bits.toNat) x.factor x.correction| ≤
      1 / (2 * 10 ^ 6) + magnitude (realValue bits.toNat) x.factor x.correction / 2 ^ 50 := by
  obtain ⟨q, h1, -, h2⟩ := shown_close x (realValue bits.toNat) 0 le_rfl (by unfold unit; norm_num)
    (hx ▸ ofRaw_real bits hb)
  refine ⟨q, h1, h2.trans ?_⟩
  have := magnitude_nonneg (realValue bits.toNat) x.factor x.correction
  unfold unit
  norm_num
  linarith

theorem exact_of_close (x : XmlReal) (v : ℚ) (h : IsFinite 0 (XFloat.ofRaw x.raw) v)
    (hm : magnitude v x.factor x.correction ≤ 10 ^ 9) (j : Int)
    (hj : meant v x.factor x.correction = j / 10 ^ 6) :
    SixDecimals (shownNumber x) (meant v x.factor x.correction) := by
  obtain ⟨q, h1, ⟨k, hk⟩, h2⟩ := shown_close x v 0 le_rfl (by unfold unit; norm_num) h
  have h3 : |q - meant v x.factor x.correction| < 1 / 10 ^ 6 := by
    refine lt_of_le_of_lt h2 ?_
    have := mul_le_mul_of_nonneg_left hm (show (0 : ℚ) ≤ 0 + 402 / 100 * unit by unfold unit; norm_num)
    refine lt_of_le_of_lt (add_le_add le_rfl this) ?_
    unfold unit
    norm_num
  rw [hj, hk] at h3
  have h4 : |((k - j : Int) : ℚ)| < 1 := by
    push_cast
    rw [← sub_div, abs_div, abs_of_pos (show (0 : ℚ) < 10 ^ 6 by norm_num), div_lt_div_iff_of_pos_right (by norm_num)] at h3
    exact h3
  have h5 : k = j := by
    have : |k - j| < 1 := by exact_mod_cast h4
    have := Int.abs_lt_one_iff.1 this
    omega
  rw [hj, ← h5, ← hk]
  exact h1

/-- C135: an integer up to 2^53 whose meant value has no more than six decimals is shown exactly, if the numbers
are not above 10^9. -/
theorem C135_exact (x : XmlReal) (v : Int) (hx : x.raw = F64.ofInt v) (hv : v.natAbs ≤ 2 ^ 53)
    (hm : magnitude v x.factor x.correction ≤ 10 ^ 9) (j : Int)
    (hj : meant v x.factor x.correction = j / 10 ^ 6) :
    SixDecimals (shownNumber x) (meant v x.factor x.correction) := by
  refine exact_of_close x v ?_ hm j hj
  rw [hx, F64.ofInt, roundF64_small v hv]
  exact ofRaw_int v

/-- C135: a real likewise. -/
theorem C135_exact_real (x : XmlReal) (bits : UInt32) (hx : x.raw = .real32 bits) (hb : bits.toNat / 2 ^ 23 % 256 ≠ 255)
    (hm : magnitude (realValue bits.toNat) x.factor x.correction ≤ 10 ^ 9) (j : Int)
    (hj : meant (realValue bits.toNat) x.factor x.correction = j / 10 ^ 6) :
    SixDecimals (shownNumber x) (meant (realValue bits.toNat) x.factor x.correction) :=
  exact_of_close x _ (hx ▸ ofRaw_real bits hb) hm j hj

/-- 12345.678 m³ from 12345678 litres; -0.001 + 0.001; half a month of 2629743.83 seconds; a real 1.5 in kilowatt. -/
example : SixDecimals (shownNumber ⟨F64.ofInt 12345678, ⟨1, -3⟩, .none⟩) (12345678 / 1000) := by
  have := C135_exact ⟨F64.ofInt 12345678, ⟨1, -3⟩, .none⟩ 12345678 rfl (by decide)
    (by norm_num [magnitude, factorValue]) 12345678000 (by norm_num [meant, factorValue])
  norm_num [meant, factorValue] at this ⊢
  exact this

example : shownNumber ⟨F64.ofInt 12345678, ⟨1, -3⟩, .none⟩ = "12345.678000".toList ∧
    shownNumber ⟨F64.ofInt (-1), ⟨1, -3⟩, .plus (-3)⟩ = "0.000000".toList ∧
    shownNumber ⟨F64.ofInt 7, ⟨262974383, -2⟩, .times (-1)⟩ = "1840820.681000".toList ∧
    shownNumber ⟨.real32 0x3FC00000, ⟨1, 3⟩, .none⟩ = "1500.000000".toList ∧
    shownNumber ⟨F64.ofInt (-5), ⟨1, -7⟩, .none⟩ = "-0.000000".toList := by decide +kernel

/-- C135: what is not a number, and what is infinite, is shown as such. -/
theorem C135_special (x : XmlReal) (bits : UInt32) (hx : x.raw = .real32 bits) (hb : bits.toNat / 2 ^ 23 % 256 = 255)
    (hf : x.factor.mantissa ≠ 0) :
    shownNumber x = (if bits.toNat % 2 ^ 23 ≠ 0 then "NaN".toList
      else if bits.toNat < 2 ^ 31 then "inf".toList else "-inf".toList) := by
  obtain ⟨raw, f, c⟩ := x
  simp only at hx hf
  subst hx
  have pos : ∀ g : Factor, g.mantissa ≠ 0 → ∃ m e, XFloat.literal g = .finite false m e ∧ m ≠ 0 := by
    intro g hg
    have hr : ∀ n, n ≠ 0 → roundNat53 n ≠ 0 := by
      intro n hn h0
      have := round_close n
      unfold Close at this
      rw [h0] at this
      have hn' : (0 : ℚ) < n := by exact_mod_cast Nat.pos_of_ne_zero hn
      rw [abs_of_pos hn', Nat.cast_zero, zero_sub, abs_neg, abs_of_pos hn'] at this
      unfold unit at this
      norm_num at this
      linarith
    unfold XFloat.literal
    rw [if_neg hg]
    cases he : g.exponent with
    | ofNat k => exact ⟨_, _, rfl, hr _ (by positivity)⟩
    | negSucc k =>
      refine ⟨_, _, rfl, hr _ ?_⟩
      split
      · have h1 : 10 ^ (k + 1) ≤ g.mantissa * 2 ^ ((10 ^ (k + 1)).log2 + 65) := by
          have h2 : 10 ^ (k + 1) < 2 ^ ((10 ^ (k + 1)).log2 + 1) := Nat.lt_log2_self
          have h3 : 2 ^ ((10 ^ (k + 1)).log2 + 1) ≤ 2 ^ ((10 ^ (k + 1)).log2 + 65) :=
            Nat.pow_le_pow_right (by omega) (by omega)
          exact (h2.le.trans h3).trans (Nat.le_mul_of_pos_left _ (Nat.pos_of_ne_zero hg))
        have := Nat.div_pos h1 (by positivity)
        omega
      · omega
  obtain ⟨m, e, hl, hm⟩ := pos f hf
  have hp : ∀ n, ∃ m e, XFloat.power n = .finite false m e ∧ m ≠ 0 := fun n => pos ⟨1, n⟩ Nat.one_ne_zero
  have hneg : (bits.toNat / 2 ^ 31 = 1) ↔ ¬ bits.toNat < 2 ^ 31 := by have := bits.toNat_lt; omega
  by_cases h0 : bits.toNat % 2 ^ 23 = 0
  · have hx : XFloat.ofRaw (.real32 bits) = .infinite (decide (bits.toNat / 2 ^ 31 = 1)) := by
      simp only [XFloat.ofRaw, if_pos hb, if_pos h0]
    have key : (XmlReal.mk (.real32 bits) f c).number = .infinite (decide (bits.toNat / 2 ^ 31 = 1)) := by
      unfold XmlReal.number
      simp only [hx, hl, XFloat.mul, if_neg hm, Bool.bne_false]
      cases c with
      | none => rfl
      | times n =>
        obtain ⟨m', e', h1, h2⟩ := hp n
        simp only [h1, XFloat.mul, if_neg h2, Bool.bne_false]
      | plus n =>
        obtain ⟨m', e', h1, h2⟩ := hp n
        simp only [h1, XFloat.add]
    unfold shownNumber
    rw [key, if_neg (by simpa using h0)]
    by_cases hs : bits.toNat < 2 ^ 31
    · have h' : ¬ bits.toNat / 2 ^ 31 = 1 := fun h => (hneg.1 h) hs
      rw [if_pos hs]
      simp only [XFloat.fixed6, h', decide_false]
      rfl
    · rw [if_neg hs]
      simp only [XFloat.fixed6, hneg.2 hs, decide_true, if_true]
      decide +kernel
  · have hx : XFloat.ofRaw (.real32 bits) = .nan := by
      simp only [XFloat.ofRaw, if_pos hb, if_neg h0]
    have key : (XmlReal.mk (.real32 bits) f c).number = .nan := by
      unfold XmlReal.number
      simp only [hx, hl, XFloat.mul]
      cases c with
      | none => rfl
      | times n => rfl
      | plus n => rfl
    unfold shownNumber
    rw [key, if_pos h0]
    rfl

example : shownNumber ⟨.real32 0xFF800000, ⟨1, 3⟩, .plus 0⟩ = "-inf".toList ∧
    shownNumber ⟨.real32 0x7FC00000, ⟨1, -3⟩, .none⟩ = "NaN".toList := by decide +kernel

/-- C135: every text of a number consists of letters, digits, a point and a sign, as the document needs it. -/
theorem C135_plain (x : XmlReal) (c : Char) (h : c ∈ shownNumber x) : c.isAlphanum = true ∨ c = '.' ∨ c = '-' := by
  unfold shownNumber at h
  cases hx : x.number with
  | nan =>
    rw [hx] at h
    have : ∀ c ∈ XFloat.nan.fixed6, c.isAlphanum = true ∨ c = '.' ∨ c = '-' := by decide +kernel
    exact this c h
  | infinite a =>
    rw [hx] at h
    cases a
    · have : ∀ c ∈ (XFloat.infinite false).fixed6, c.isAlphanum = true ∨ c = '.' ∨ c = '-' := by decide +kernel
      exact this c h
    · have : ∀ c ∈ (XFloat.infinite true).fixed6, c.isAlphanum = true ∨ c = '.' ∨ c = '-' := by decide +kernel
      exact this c h
  | finite a m e =>
    obtain ⟨q, ⟨neg, ip, fp, -, hi, hf, -, -, ht, -⟩, -⟩ := fixed6_denotes a m e
    rw [hx, ht] at h
    have digit : ∀ d : Char, '0' ≤ d ∧ d ≤ '9' → d.isAlphanum = true := by
      intro d hd
      simp only [Char.isAlphanum, Char.isDigit, Bool.or_eq_true, Bool.and_eq_true, decide_eq_true_eq]
      exact .inr ⟨hd.1, hd.2⟩
    unfold decimalText signText at h
    simp only [List.mem_append] at h
    rcases h with (h | h) | h
    · split at h
      · simp at h; exact .inr (.inr h)
      · cases h
    · exact .inl (digit c (hi c h))
    · split at h
      · cases h
      · rcases List.mem_cons.1 h with h | h
        · exact .inr (.inl h)
        · exact .inl (digit c (hf c h))

/-- The environment with these texts meets the hypothesis of the theorems on documents. -/
example (lossy : List UInt8 → List Char) : PlainNumbers ⟨shownNumber, lossy⟩ := C135_plain

/-- C135: more than six decimals are lost: readings of 1, 2 and 499999 in units of 10^-12 have the same text. -/
theorem C135_fails : shownNumber ⟨F64.ofInt 1, ⟨1, -12⟩, .none⟩ = "0.000000".toList ∧
    shownNumber ⟨F64.ofInt 2, ⟨1, -12⟩, .none⟩ = "0.000000".toList ∧
    shownNumber ⟨F64.ofInt 499999, ⟨1, -12⟩, .none⟩ = "0.000000".toList ∧
    vibUnit 0xFD [0x50] none = some (['A'], ⟨1, -12⟩, "Current".toList) := by decide +kernel

end MBus
