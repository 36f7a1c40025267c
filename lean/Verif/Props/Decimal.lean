import Verif.Lemmas.Decimal
/-!
# Decimal texts: C45-C47

`signedLeDecimal` is `signed_le_decimal` and `scaledDecimal` is `scaled_decimal` of src/output.rs, the
two functions behind every `"kind": "decimal"` value of the structured output.
-/
namespace MBus
open Spec

/-! ## C45 -/

/-- C45: the text of a signed little-endian integer of any length is exactly its value. -/
theorem C45_exact (bytes : List UInt8) (h : bytes ≠ []) :
    signedLeDecimal bytes = some (decimalInt (twosComplement bytes)) := signedLeDecimal_eq bytes h

example : signedLeDecimal [0x00, 0x00, 0x00, 0x00, 0x00, 0x00, 0x00, 0x00, 0x80] =
    some "-2361183241434822606848".toList := by decide +kernel
example : decimalInt (-2361183241434822606848) = "-2361183241434822606848".toList := by decide +kernel

/-- C45: only the empty string of bytes has no text. -/
theorem C45_none (bytes : List UInt8) : signedLeDecimal bytes = none ↔ bytes = [] := by
  constructor
  · intro h
    by_contra hne
    rw [C45_exact bytes hne] at h
    simp at h
  · rintro rfl; rfl

/-- C45: different integers have different texts, and the text denotes the integer. -/
theorem C45_denotes (i : Int) : DenotesInt (decimalInt i) i := by
  refine ⟨decide (i < 0), decimal i.natAbs, decimal_ne_nil _, decimal_digits _, rfl, ?_⟩
  rw [natOf_decimal]
  by_cases h : i < 0 <;> simp only [h, decide_true, decide_false, if_true, Bool.false_eq_true, if_false] <;>
    omega

/-! ## C46 -/

/-- C46: the text is a decimal number with exactly the value `significand·10^scale + 10^offset`, for
significands of any length and all scales and offsets. -/
theorem C46_value (text : List Char) (i scale : Int) (offset : Option Int) (h : DenotesInt text i) :
    Denotes (scaledDecimal text scale offset) (scaledValue i scale offset) := by
  obtain ⟨neg, ds, hne, hd, rfl, rfl⟩ := h
  obtain ⟨neg', ds', e, h1, h2, h3, h4, -, -⟩ := scaledDecimal_integer neg ds scale offset hd hne
  obtain ⟨ip, fp, p1, p2, p3, p4, p5, p6, -⟩ := applyPower10_spec neg' ds' e h2 h3
  refine ⟨_, ip, fp, p2, p3, p4, h1.trans p1, ?_⟩
  have hv : scaledValue (if neg = true then -(natOf ds : Int) else (natOf ds : Int)) scale offset =
      (if neg' then -1 else 1) * (natOf ds' : ℚ) * 10 ^ e := by
    rw [h4, scaledValue]
    cases neg <;> simp
  rw [hv, decimalValue, mul_div_assoc, p6]
  by_cases hz : natOf ds' = 0
  · rw [hz]; simp
  · cases neg' <;> simp [hz]

/-- C46: without an offset a significand without leading zeros gives a text without leading or trailing
zeros, superfluous point or sign. -/
theorem C46_canonical (neg : Bool) (ds : List Char) (scale : Int) (hd : Digits ds) (hne : ds ≠ [])
    (h : ds = ['0'] ∨ ds.head? ≠ some '0') :
    Canonical (scaledDecimal (signText neg ++ ds) scale none) := by
  obtain ⟨neg', ds', e, h1, h2, h3, -, -, h5⟩ := scaledDecimal_integer neg ds scale none hd hne
  exact canonical_of neg' ds' e h1 h2 h3 (by
    rcases h5 h with h | h | ⟨o, h, _⟩
    · exact Or.inl h
    · exact Or.inr (Or.inl h)
    · simp at h)

/-- C46: the text of an integer scaled without offset is canonical. -/
theorem C46_canonical_int (i scale : Int) : Canonical (scaledDecimal (decimalInt i) scale none) :=
  C46_canonical _ _ scale (decimal_digits _) (decimal_ne_nil _) (decimal_head _)

example : scaledDecimal "-1200".toList (-3) none = "-1.2".toList := by decide +kernel
example : scaledDecimal "-1200".toList 2 none = "-120000".toList := by decide +kernel
example : scaledDecimal "-120".toList (-5) (some (-3)) = "-0.0002".toList := by decide +kernel
example : scaledDecimal "120".toList (-5) (some (-3)) = "0.0022".toList := by
  have h : addAbs "120".toList "100".toList = "220".toList := by
    simp +decide [addAbs, addLoop, digitVal, digitChr]
  have h1 : scaledDecimal "120".toList (-5) (some (-3)) =
    applyPower10 (addAbs "120".toList "100".toList) (-5) := by rfl
  rw [h1, h]; decide +kernel

/-! ## C47 -/

/-- C47, exactly: the text is canonical unless the significand is 0, the scale is at least 1 and the
offset is the smaller power of ten. -/
theorem C47_canonical_iff_partial (i scale offset : Int) :
    Canonical (scaledDecimal (decimalInt i) scale (some offset)) ↔
      ¬ (i = 0 ∧ 1 ≤ scale ∧ offset < scale) := by
  obtain ⟨neg', ds', e, h1, h2, h3, h4, he, h5⟩ :=
    scaledDecimal_integer (decide (i < 0)) (decimal i.natAbs) scale (some offset) (decimal_digits _)
      (decimal_ne_nil _)
  change scaledDecimal (decimalInt i) scale (some offset) = _ at h1
  constructor
  · rintro hc ⟨rfl, hs, ho⟩
    obtain ⟨c, t, ht, hcd⟩ := scaledDecimal_zero_text scale offset ho hs
    have h0 : decimalInt 0 = ['0'] := by decide +kernel
    rw [h0, ht] at hc
    exact hcd (canonical_head_zero t c hc)
  · intro hn
    refine canonical_of neg' ds' e h1 h2 h3 ?_
    rcases h5 (decimal_head _) with h | h | ⟨o, h, ho, hz, _, hds⟩
    · exact Or.inl h
    · exact Or.inr (Or.inl h)
    · right; right
      simp at h
      subst h
      have hi : i = 0 := by
        rw [natOf_decimal] at hz
        omega
      subst hi
      have hs : scale ≤ 0 := by
        by_contra hc
        exact hn ⟨rfl, by omega, ho⟩
      have hlen := (addAbs_zero_one (decimal 0) (scale - offset).toNat (decimal_digits _)
        (decimal_ne_nil _) (by omega) (by decide +kernel)).2
      have h0 : (decimal 0).length = 1 := by decide +kernel
      simp only [Int.natAbs_zero] at hds
      rw [hds, hlen, he, h0]
      simp only
      omega

/-- C47 is false as stated: with an additive power of ten the value 0 gets leading zeros (the text is
`000.001` here). -/
theorem C47_fails : ∃ scale offset, -3 ≤ offset ∧ offset ≤ 0 ∧
    ¬ Canonical (scaledDecimal (decimalInt 0) scale (some offset)) := by
  refine ⟨2, -3, by omega, by omega, ?_⟩
  rw [C47_canonical_iff_partial]
  omega

example : Canonical (scaledDecimal (decimalInt 5) 2 (some (-3))) :=
  (C47_canonical_iff_partial 5 2 (-3)).2 (by omega)

end MBus
