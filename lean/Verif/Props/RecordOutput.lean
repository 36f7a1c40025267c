import Verif.Lemmas.RecordOutput
import Verif.Props.DataInfo
import Verif.Props.Decimal
import Verif.Props.Record
/-!
# Record values in the structured output: C48, C54, C70-C72
-/
namespace MBus
open Spec

/-! ## C48 -/

/-- C48: the correction of a record is given by the last VIFE with code 78 to 7B, wherever it
stands. -/
theorem C48_last_correction (r : DataRecord) :
    recordOffsetPower10 r = (corrections (vifesOf r)).getLast? := recordOffset_eq r

theorem unescaped_eq (l : List UInt8) (h : 0xFC ∉ l) : unescaped l = l := by
  induction l with
  | nil => rfl
  | cons b l ih =>
    have hb : b ≠ 0xFC := fun e => h (by simp [e])
    cases l with
    | nil => simp [unescaped, hb]
    | cons c l =>
      rw [unescaped, if_neg hb, ih (fun hm => h (by simp at hm ⊢; right; exact hm))]

/-- C48, what holds of the statement: the correction is that of the last combinable VIFE with code 78 to
7B, provided the VIF is not manufacturer specific, the first VIFE after FB or FD has none of these
codes and the escape FC is not used. -/
theorem C48_combinable_partial (r : DataRecord) (v : VIB) (hv : r.header.raw.vib = some v)
    (hm : v.vif.toNat % 128 ≠ 0x7E ∧ v.vif.toNat % 128 ≠ 0x7F)
    (hf : v.vif = 0xFB ∨ v.vif = 0xFD → ∀ b ∈ (v.vifes.getD []).head?,
      ¬ (0x78 ≤ b.toNat % 128 ∧ b.toNat % 128 ≤ 0x7B))
    (he : 0xFC ∉ v.vifes.getD []) :
    recordOffsetPower10 r = (corrections (combinable v)).getLast? := by
  rw [C48_last_correction]
  have hvf : vifesOf r = v.vifes.getD [] := by simp [vifesOf, hv]
  rw [hvf]
  unfold combinable
  by_cases hx : v.vif = 0xFB ∨ v.vif = 0xFD
  · rw [if_pos hx]
    have hf := hf hx
    match hw : v.vifes.getD [] with
    | [] => rfl
    | b :: t =>
      rw [hw] at hf he
      have hb := hf b (by simp)
      rw [List.tail_cons, unescaped_eq t (fun hm => he (by simp [hm]))]
      unfold corrections
      rw [List.filter_cons, if_neg (by simpa using hb)]
  · rw [if_neg hx, if_neg (by omega), unescaped_eq _ he]

/-- C48 is false as stated: the codes 78 to 7B after FD and FB, after a manufacturer specific VIF and
after the escape FC are taken as corrections although they are no combinable codes. -/
theorem C48_fails (cfg : Cfg) (vib : VIB)
    (h : vib ∈ [⟨0xFD, some [0x7B], none⟩, ⟨0xFB, some [0x79], none⟩, ⟨0xFF, some [0x78], none⟩,
      ⟨0x93, some [0xFC, 0x7B], none⟩]) :
    ∃ data r, DataRecord.parse cfg false data = .ok r ∧ r.header.raw.vib = some vib ∧
      corrections (combinable vib) = [] ∧ (recordOffsetPower10 r).isSome := by
  obtain ⟨oc, tf⟩ := cfg
  refine ⟨[0x01, vib.vif] ++ vib.vifes.getD [] ++ [0x05], ?_⟩
  have key : ∀ data : List UInt8, (DataRecord.parse ⟨oc, tf⟩ false data).toOption.any (fun r =>
      r.header.raw.vib == some vib && corrections (combinable vib) == [] && (recordOffsetPower10 r).isSome)
      = true → ∃ r, DataRecord.parse ⟨oc, tf⟩ false data = .ok r ∧ r.header.raw.vib = some vib ∧
      corrections (combinable vib) = [] ∧ (recordOffsetPower10 r).isSome := by
    intro data hk
    cases hp : DataRecord.parse ⟨oc, tf⟩ false data with
    | ok r =>
      rw [hp] at hk
      simp [Res.toOption] at hk
      exact ⟨r, rfl, hk.1.1, hk.1.2, hk.2⟩
    | err e => rw [hp] at hk; simp [Res.toOption] at hk
    | panic => rw [hp] at hk; simp [Res.toOption] at hk
  apply key
  simp at h
  rcases h with rfl | rfl | rfl | rfl <;> cases oc <;> cases tf <;> decide +kernel

example : corrections (combinable ⟨0x93, some [0xF9, 0x3A], none⟩) = [-2] := by decide +kernel

/-! ## C70 -/

theorem valueOutput_number (r : DataRecord) (v : F64) (di : DataInfo)
    (hv : r.data.value = some (.number v) ∨ r.data.value = some (.lossyNumber v))
    (hdi : r.header.processed.dataInfo = some di) (hc : di.coding ≠ .real32) :
    valueOutput r = ⟨"decimal".toList, some (.str (scaledDecimal ((exactSignificand r v).getD (formatF64 v))
      ((r.header.processed.valueInfo.map ValueInfo.scale).getD 0) (recordOffsetPower10 r)))⟩ := by
  unfold valueOutput
  rcases hv with hv | hv <;> simp [hv, hdi, hc]

/-- The output of a number: a decimal text with exactly the value `significand·10^scale`, plus the
additive correction if there is one; without correction the text is canonical. -/
def Spec.ExactOutput (r : DataRecord) (significand : Int) : Prop :=
  ∃ text, valueOutput r = ⟨"decimal".toList, some (.str text)⟩ ∧
    Denotes text (scaledValue significand ((r.header.processed.valueInfo.map ValueInfo.scale).getD 0)
      (corrections (vifesOf r)).getLast?) ∧
    (corrections (vifesOf r) = [] → Canonical text)

theorem exact_of (r : DataRecord) (v : F64) (di : DataInfo) (i : Int)
    (hv : r.data.value = some (.number v) ∨ r.data.value = some (.lossyNumber v))
    (hdi : r.header.processed.dataInfo = some di) (hc : di.coding ≠ .real32)
    (hs : (exactSignificand r v).getD (formatF64 v) = decimalInt i ∨
      ((exactSignificand r v).getD (formatF64 v) = ['-', '0'] ∧ i = 0)) : ExactOutput r i := by
  refine ⟨_, valueOutput_number r v di hv hdi hc, ?_, ?_⟩
  · rw [← C48_last_correction]
    apply C46_value
    rcases hs with hs | ⟨hs, rfl⟩
    · rw [hs]; exact C45_denotes i
    · rw [hs]
      exact ⟨true, ['0'], by simp, Digits.zeros 1, rfl, rfl⟩
  · intro hn
    rw [C48_last_correction, hn]
    rcases hs with hs | ⟨hs, rfl⟩
    · rw [hs]; exact C46_canonical_int _ _
    · rw [hs]; exact C46_canonical true ['0'] _ (Digits.zeros 1) (by simp) (Or.inl rfl)

theorem sliceTo_all (l : List UInt8) (n : Nat) (h : l.length = n) : sliceTo? l n = some l := by
  unfold sliceTo?
  rw [if_pos (by omega), List.take_of_length_le (by omega)]

/-- C70: the value of every record with a fixed-size integer (8 to 64 bits) is exact, although the
record stores it in a floating point number. -/
theorem C70_integers (cfg : Cfg) (lsb : Bool) (data : List UInt8) (r : DataRecord) (di : DataInfo)
    (n : Nat) (h : DataRecord.parse cfg lsb data = .ok r) (hdi : r.header.processed.dataInfo = some di)
    (hn : integerWidth di.coding = some n) :
    r.dataBytes.length = n ∧ ExactOutput r (twosComplement r.dataBytes) := by
  obtain ⟨rest, di', hdi', hp, hd, hs⟩ := dataBytes_eq cfg lsb data r h
  rw [hdi] at hdi'
  cases hdi'
  rw [C23_integer_value cfg lsb di.coding n rest hn] at hp
  split at hp
  · simp at hp
  · rename_i hl
    have hp' : r.data = ⟨some (.number (.int (roundF64 (twosComplement (rest.take n))))), n⟩ := by
      injection hp with hp; exact hp.symm
    have hlen : r.dataBytes.length = n := by rw [hd, hp']; simp; omega
    refine ⟨hlen, exact_of r _ di _ (Or.inl (by rw [hp'])) hdi (by rintro e; rw [e] at hn; simp [integerWidth] at hn)
      (Or.inl ?_)⟩
    have hne : r.dataBytes ≠ [] := by
      intro he
      rw [he] at hlen
      simp at hlen
      subst hlen
      unfold integerWidth at hn
      split at hn <;> simp at hn
    have : exactSignificand r (.int (roundF64 (twosComplement (rest.take n)))) =
        some (decimalInt (twosComplement r.dataBytes)) := by
      have hsl := sliceTo_all r.dataBytes n hlen
      rw [← C45_exact r.dataBytes hne]
      unfold exactSignificand
      simp only [hdi, hs, Option.bind_eq_bind, Option.bind_some]
      unfold integerWidth at hn
      split at hn <;> simp at hn <;> subst hn <;> rename_i hc <;> simp [hc, hsl]
    rw [this]; rfl

/-- C70: the value of every record with a fixed-size BCD number is exact. -/
theorem C70_bcd (cfg : Cfg) (lsb : Bool) (data : List UInt8) (r : DataRecord) (di : DataInfo)
    (n : Nat) (h : DataRecord.parse cfg lsb data = .ok r) (hdi : r.header.processed.dataInfo = some di)
    (hn : bcdWidth di.coding = some n) :
    r.dataBytes.length = n ∧
      ExactOutput r (bcdValue (if lsb then r.dataBytes.reverse else r.dataBytes)) := by
  obtain ⟨rest, di', hdi', hp, hd, hs⟩ := dataBytes_eq cfg lsb data r h
  rw [hdi] at hdi'
  cases hdi'
  rw [C24_bcd_value cfg lsb di.coding n rest hn] at hp
  split at hp
  · simp at hp
  · rename_i hl
    split at hp
    · have hp' : r.data = ⟨some (.number (.int (bcdValue (if lsb = true then (rest.take n).reverse
          else rest.take n)))), n⟩ := by
        injection hp with hp; exact hp.symm
      have hlen : r.dataBytes.length = n := by rw [hd, hp']; simp; omega
      have hdb : r.dataBytes = rest.take n := by rw [hd, hp']
      refine ⟨hlen, exact_of r _ di _ (Or.inl (by rw [hp'])) hdi
        (by rintro e; rw [e] at hn; simp [bcdWidth] at hn) (Or.inl ?_)⟩
      rw [hdb]
      have : ∀ v, exactSignificand r v = some (formatF64 v) := by
        intro v
        unfold exactSignificand
        simp only [hdi, hs, Option.bind_eq_bind, Option.bind_some]
        unfold bcdWidth at hn
        split at hn <;> simp at hn <;> rename_i hc <;> simp [hc]
      rw [this, Option.getD_some, formatF64_int]
    · simp at hp

theorem variable_data (cfg : Cfg) (lsb : Bool) (data : List UInt8) (r : DataRecord) (di : DataInfo)
    (h : DataRecord.parse cfg lsb data = .ok r) (hdi : r.header.processed.dataInfo = some di)
    (hc : di.coding = .variableLength) : ∃ b rest kind n, lvar b = some (kind, n) ∧ n ≤ rest.length ∧
      Coding.variableLength.parse cfg lsb (b :: rest) = .ok r.data ∧ r.dataBytes = b :: rest.take n ∧
      (∀ v, exactSignificand r v = exactVariableSignificand r.dataBytes v) := by
  obtain ⟨rest, di', hdi', hp, hd, hs⟩ := dataBytes_eq cfg lsb data r h
  rw [hdi] at hdi'
  cases hdi'
  rw [hc] at hp
  match rest with
  | [] => simp [Coding.parse, parseVariableLength] at hp
  | b :: rest =>
    obtain ⟨kind, n, h1, h2, h3⟩ := C31_consumed cfg lsb b rest r.data hp
    refine ⟨b, rest, kind, n, h1, h3, hp, by rw [hd, h2]; rfl, ?_⟩
    intro v
    unfold exactSignificand
    simp [hdi, hs, hc]

theorem slice1_all (b : UInt8) (l : List UInt8) (n : Nat) (h : l.length = n) :
    slice? (b :: l) 1 (1 + n) = some l := by
  unfold slice?
  rw [if_pos ⟨by omega, by simp; omega⟩, Nat.add_comm, List.take_succ_cons, List.drop_succ_cons,
    List.drop_zero, List.take_of_length_le (by omega)]

/-- C70: the value of every record with a variable-length binary number (LVAR E1 to F6) is exact,
whatever its length. -/
theorem C70_variable_integers (cfg : Cfg) (lsb : Bool) (data : List UInt8) (r : DataRecord)
    (di : DataInfo) (b : UInt8) (number : List UInt8) (n : Nat)
    (h : DataRecord.parse cfg lsb data = .ok r) (hdi : r.header.processed.dataInfo = some di)
    (hc : di.coding = .variableLength) (hd : r.dataBytes = b :: number)
    (hk : lvar b = some (.binary, n)) (hn : 0 < n) :
    number.length = n ∧ ExactOutput r (twosComplement number) := by
  obtain ⟨b', rest, kind, n', h1, h2, h3, h4, h5⟩ := variable_data cfg lsb data r di h hdi hc
  rw [hd] at h4
  simp at h4
  obtain ⟨rfl, h4⟩ := h4
  rw [hk] at h1
  simp at h1
  obtain ⟨-, rfl⟩ := h1
  have hlen : number.length = n := by rw [h4]; simp [h2]
  refine ⟨hlen, ?_⟩
  rw [C31_binary cfg lsb b rest n hk hn h2] at h3
  injection h3 with h3
  have hsig : ∀ v, exactSignificand r v = some (decimalInt (twosComplement number)) := by
    intro v
    rw [h5, hd, ← C45_exact number (by intro he; rw [he] at hlen; simp at hlen; omega)]
    have hb := b.toNat_lt
    unfold exactVariableSignificand
    unfold lvar at hk
    simp only [List.head?_cons, Option.bind_eq_bind, Option.bind_some]
    simp only at hk
    split at hk
    · simp at hk
    split at hk
    · simp at hk
    split at hk
    · simp at hk
    rw [if_neg (by omega)]
    split at hk
    · simp at hk
      rw [if_pos (by omega), slice1_all b number _ (by omega)]; rfl
    rw [if_neg (by omega)]
    split at hk
    · simp at hk
      rw [if_pos (by omega), slice1_all b number _ (by omega)]; rfl
    rw [if_neg (by omega)]
    split at hk
    · simp at hk
      rw [if_pos (by omega), slice1_all b number _ (by omega)]; rfl
    rw [if_neg (by omega)]
    split at hk
    · simp at hk
      rw [if_pos (by omega), slice1_all b number _ (by omega)]; rfl
    · simp at hk
  by_cases h8 : n ≤ 8
  · rw [if_pos h8] at h3
    exact exact_of r _ di _ (Or.inl (by rw [← h3])) hdi (by rw [hc]; decide) (Or.inl (by rw [hsig]; rfl))
  · rw [if_neg h8] at h3
    exact exact_of r _ di _ (Or.inr (by rw [← h3])) hdi (by rw [hc]; decide) (Or.inl (by rw [hsig]; rfl))

/-- C70, the part that holds of variable-length BCD numbers (LVAR C0 to C9 and D0 to D9): the value is
exact up to seven bytes.  Missing: eight and nine bytes, which the code rounds. -/
theorem C70_variable_bcd_partial (cfg : Cfg) (lsb neg : Bool) (data : List UInt8) (r : DataRecord)
    (di : DataInfo) (b : UInt8) (number : List UInt8) (n : Nat)
    (h : DataRecord.parse cfg lsb data = .ok r) (hdi : r.header.processed.dataInfo = some di)
    (hc : di.coding = .variableLength) (hd : r.dataBytes = b :: number)
    (hk : lvar b = some (if neg then .negativeBcd else .positiveBcd, n)) (hn : n ≤ 7) :
    number.length = n ∧ ExactOutput r (if neg then -(bcdValue (if lsb then number.reverse else number) : Int)
      else bcdValue (if lsb then number.reverse else number)) := by
  obtain ⟨b', rest, kind, n', h1, h2, h3, h4, h5⟩ := variable_data cfg lsb data r di h hdi hc
  rw [hd] at h4
  simp at h4
  obtain ⟨rfl, h4⟩ := h4
  rw [hk] at h1
  simp at h1
  obtain ⟨-, rfl⟩ := h1
  refine ⟨by rw [h4]; simp [h2], ?_⟩
  have hsig : ∀ v, exactSignificand r v = some (formatF64 v) := by
    intro v
    rw [h5, hd]
    have hb := b.toNat_lt
    unfold exactVariableSignificand
    unfold lvar at hk
    simp only [List.head?_cons, Option.bind_eq_bind, Option.bind_some]
    simp only at hk
    split at hk
    · cases neg <;> simp at hk
    split at hk
    · rw [if_pos (by omega)]
    split at hk
    · rw [if_pos (by omega)]
    repeat (split at hk; · cases neg <;> simp at hk)
    simp at hk
  have hbcd := C31_bcd cfg lsb neg b rest n hk h2
  by_cases hall : ∀ x ∈ rest.take n, IsBcd x
  · obtain ⟨v, hv1, hv2, -⟩ := hbcd.2 hall
    have hv := hv2 hn
    rw [hv1] at h3
    injection h3 with h3
    rw [h4, ← hv]
    apply exact_of r _ di _ (Or.inl (by rw [← h3])) hdi (by rw [hc]; decide)
    rw [hsig, Option.getD_some]
    by_cases hz : v = 0 ∧ neg = true
    · right
      rw [if_pos hz]
      obtain ⟨rfl, rfl⟩ := hz
      exact ⟨rfl, rfl⟩
    · left
      rw [if_neg hz, formatF64_int]
  · rw [hbcd.1 hall] at h3
    simp at h3

/-- C70 is false for BCD numbers of nine bytes: 999999999999999999 is reported as
1000000000000000000. -/
theorem C70_long_bcd_fails (cfg : Cfg) :
    ∃ data r, DataRecord.parse cfg false data = .ok r ∧ r.dataBytes = 0xC9 :: List.replicate 9 0x99 ∧
      bcdValue (List.replicate 9 0x99) = 999999999999999999 ∧
      recordOffsetPower10 r = none ∧ r.header.processed.valueInfo.map ValueInfo.scale = some 0 ∧
      ∃ t, valueOutput r = ⟨"decimal".toList, some (.str t)⟩ ∧ t = "1000000000000000000".toList := by
  obtain ⟨oc, tf⟩ := cfg
  have key : ∀ (data : List UInt8), (DataRecord.parse ⟨oc, tf⟩ false data).toOption.any (fun r =>
      r.dataBytes == 0xC9 :: List.replicate 9 0x99 && recordOffsetPower10 r == none &&
      r.header.processed.valueInfo.map ValueInfo.scale == some 0 &&
      (match valueOutput r with
        | ⟨k, some (.str t)⟩ => k == "decimal".toList && t == "1000000000000000000".toList
        | _ => false)) = true →
      ∃ r, DataRecord.parse ⟨oc, tf⟩ false data = .ok r ∧ r.dataBytes = 0xC9 :: List.replicate 9 0x99 ∧
      bcdValue (List.replicate 9 0x99) = 999999999999999999 ∧
      recordOffsetPower10 r = none ∧ r.header.processed.valueInfo.map ValueInfo.scale = some 0 ∧
      ∃ t, valueOutput r = ⟨"decimal".toList, some (.str t)⟩ ∧ t = "1000000000000000000".toList := by
    intro data hk
    cases hp : DataRecord.parse ⟨oc, tf⟩ false data with
    | ok r =>
      rw [hp] at hk
      simp only [Res.toOption, Option.any_some, Bool.and_eq_true, beq_iff_eq] at hk
      obtain ⟨⟨⟨h1, h2⟩, h3⟩, h4⟩ := hk
      refine ⟨r, rfl, h1, by decide +kernel, h2, h3, ?_⟩
      split at h4
      · rename_i k t heq
        simp only [Bool.and_eq_true, beq_iff_eq] at h4
        exact ⟨t, by rw [heq, h4.1], h4.2⟩
      · simp at h4
    | err e => rw [hp] at hk; simp [Res.toOption] at hk
    | panic => rw [hp] at hk; simp [Res.toOption] at hk
  refine ⟨[0x0D, 0x6E, 0xC9, 0x99, 0x99, 0x99, 0x99, 0x99, 0x99, 0x99, 0x99, 0x99], key _ ?_⟩
  cases oc <;> cases tf <;> decide +kernel

/-- C70: 32-bit reals keep their bit pattern; infinities and NaN are named. -/
theorem C70_reals (cfg : Cfg) (lsb : Bool) (data : List UInt8) (r : DataRecord) (di : DataInfo)
    (h : DataRecord.parse cfg lsb data = .ok r) (hdi : r.header.processed.dataInfo = some di)
    (hc : di.coding = .real32) :
    ∃ bits : UInt32, bits.toNat = leValue r.dataBytes ∧ r.dataBytes.length = 4 ∧
      valueOutput r = ⟨"float".toList, some (
        if 255 ≤ bits.toNat / 2 ^ 23 % 256 then
          if bits.toNat % 2 ^ 23 ≠ 0 then .str "nan".toList
          else if bits.toNat < 2 ^ 31 then .str "positive_infinity".toList
          else .str "negative_infinity".toList
        else .real bits)⟩ := by
  obtain ⟨rest, di', hdi', hp, hd, hs⟩ := dataBytes_eq cfg lsb data r h
  rw [hdi] at hdi'
  cases hdi'
  rw [hc] at hp
  match rest with
  | [] | [_] | [_, _] | [_, _, _] =>
    rw [C23_real32_truncated cfg lsb _ (by simp)] at hp; simp at hp
  | b0 :: b1 :: b2 :: b3 :: rest =>
    obtain ⟨bits, h1, h2⟩ := C23_real32 cfg lsb b0 b1 b2 b3 rest
    rw [h1] at hp
    injection hp with hp
    have hdb : r.dataBytes = [b0, b1, b2, b3] := by rw [hd, ← hp]; rfl
    refine ⟨bits, by rw [h2, hdb], by rw [hdb]; rfl, ?_⟩
    unfold valueOutput
    simp only [← hp, hdi, hc, Option.any_some, decide_true, if_true]
    congr 2
    have hlt := bits.toNat_lt
    have hand : (bits &&& 0x7FFFFFFF).toNat = bits.toNat % 2 ^ 31 := by
      rw [UInt32.toNat_and]
      exact Nat.and_two_pow_sub_one_eq_mod bits.toNat 31
    have e1 : (bits &&& 0x7FFFFFFF > 0x7F800000) ↔ 0x7F800000 < bits.toNat % 2 ^ 31 := by
      rw [gt_iff_lt, UInt32.lt_iff_toNat_lt, hand]; rfl
    have e2 : bits = 0x7F800000 ↔ bits.toNat = 0x7F800000 := by
      rw [← UInt32.toNat_inj]; rfl
    have e3 : bits = 0xFF800000 ↔ bits.toNat = 0xFF800000 := by
      rw [← UInt32.toNat_inj]; rfl
    unfold floatJson
    simp only [e1, e2, e3]
    split_ifs <;> first | (exfalso; omega) | rfl

/-- The decimal text of a decoded record, if its value is one. -/
def decimalOf (cfg : Cfg) (data : List UInt8) : Option (List Char) :=
  match (DataRecord.parse cfg false data).toOption.map valueOutput with
  | some ⟨_, some (.str t)⟩ => some t
  | _ => none

/-- Volume -2^63 + 1 mm³·10^6 (a 64-bit integer no `f64` holds), a 12-digit BCD energy, and a 9-byte
variable-length integer. -/
example :
    decimalOf cfgDebug [0x07, 0x13, 0x01, 0, 0, 0, 0, 0, 0, 0x80] = some "-9223372036854775.807".toList ∧
    decimalOf cfgDebug [0x0E, 0x03, 0x21, 0x43, 0x65, 0x87, 0x09, 0x21] = some "210987654321".toList ∧
    decimalOf cfgDebug [0x0D, 0x13, 0xE9, 0, 0, 0, 0, 0, 0, 0, 0, 0x01] =
      some "18446744073709551.616".toList ∧
    decimalOf cfgDebug [0x0D, 0x13, 0xD1, 0x00] = some "0".toList := by decide +kernel

/-! ## C71 -/

/-- C71: a text value whose bytes, last one first, are the UTF-8 encoding of some text is that text. -/
theorem C71_utf8 (r : DataRecord) (text : List Char)
    (h : r.data.value = some (.text (utf8 text).reverse)) :
    valueOutput r = ⟨"text".toList, some (.str text)⟩ := by
  unfold valueOutput
  simp only [h]
  unfold decodeTextUnit
  simp only [List.reverse_reverse, (fromUtf8_iff (utf8 text) text).2 rfl]

/-- C71: any other text value is its bytes, last one first, as Latin-1 characters. -/
theorem C71_latin1 (r : DataRecord) (bytes : List UInt8) (h : r.data.value = some (.text bytes))
    (hu : ∀ text, bytes.reverse ≠ utf8 text) :
    valueOutput r = ⟨"text".toList, some (.str (bytes.reverse.map (fun b => Char.ofNat b.toNat)))⟩ := by
  unfold valueOutput
  simp only [h]
  unfold decodeTextUnit
  have : fromUtf8 bytes.reverse = none := by
    cases hf : fromUtf8 bytes.reverse with
    | none => rfl
    | some t => exact absurd ((fromUtf8_iff _ _).1 hf) (hu t)
  simp only [this]

/-- C71, end to end: a text of at most 191 UTF-8 bytes stored backwards in a variable-length record is
reported unchanged. -/
theorem C71_round_trip (cfg : Cfg) (lsb : Bool) (data : List UInt8) (r : DataRecord) (di : DataInfo)
    (text : List Char) (h : DataRecord.parse cfg lsb data = .ok r)
    (hdi : r.header.processed.dataInfo = some di) (hc : di.coding = .variableLength)
    (hd : r.dataBytes = UInt8.ofNat (utf8 text).length :: (utf8 text).reverse)
    (hl : (utf8 text).length < 0xC0) :
    valueOutput r = ⟨"text".toList, some (.str text)⟩ := by
  obtain ⟨b, rest, kind, n, h1, h2, h3, h4, -⟩ := variable_data cfg lsb data r di h hdi hc
  rw [hd] at h4
  simp only [List.cons.injEq] at h4
  obtain ⟨hb, h4⟩ := h4
  have hbn : b.toNat = (utf8 text).length := by
    rw [← hb, UInt8.toNat_ofNat']; omega
  have hk : lvar b = some (.text, (utf8 text).length) := by
    unfold lvar
    simp only [hbn]
    rw [if_pos hl]
  rw [hk] at h1
  simp only [Option.some.injEq, Prod.mk.injEq] at h1
  obtain ⟨-, rfl⟩ := h1
  rw [C31_text cfg lsb b rest _ hk h2] at h3
  injection h3 with h3
  apply C71_utf8
  rw [← h3, ← h4]

/-- C71: Latin-1 texts are not always reported as such: the Latin-1 text `Ã¶` has the same bytes as the
UTF-8 text `ö`. -/
theorem C71_latin1_fails : ∃ text : List Char, (∀ c ∈ text, c.toNat < 256) ∧
    ∀ r : DataRecord, r.data.value = some (.text (text.map (fun c => UInt8.ofNat c.toNat)).reverse) →
      valueOutput r = ⟨"text".toList, some (.str ['ö'])⟩ ∧ text ≠ ['ö'] := by
  refine ⟨['Ã', '¶'], by decide, ?_⟩
  intro r h
  refine ⟨C71_utf8 r ['ö'] ?_, by decide⟩
  rw [h]
  decide +kernel

example : utf8 "m³".toList = [0x6D, 0xC2, 0xB3] := by decide +kernel
example : ∃ r, DataRecord.parse cfgDebug false [0x0D, 0x78, 3, 0xB3, 0xC2, 0x6D] = .ok r ∧
    r.data.value = some (.text (utf8 "m³".toList).reverse) := by
  refine ⟨((DataRecord.parse cfgDebug false [0x0D, 0x78, 3, 0xB3, 0xC2, 0x6D]).toOption).get
    (by decide +kernel), ?_⟩
  decide +kernel

/-! ## C72 -/

/-- C72: a complete date is the text `YYYY-MM-DD`. -/
theorem C72_date (r : DataRecord) (d : UInt8) (m : Month) (y : UInt16) (hd : d.toNat < 100)
    (hy : y.toNat < 10000) (h : r.data.value = some (.date (.single d) (.single m) (.single y))) :
    valueOutput r = ⟨"date".toList, some (.str (isoDate y.toNat (months.idxOf m + 1) d.toNat))⟩ := by
  unfold valueOutput
  simp only [h]
  unfold temporalValue
  simp only [temporalIso_date d m y none none none hd hy]

/-- C72: a complete time is the text `hh:mm:ss`. -/
theorem C72_time (r : DataRecord) (hh mm ss : UInt8) (h1 : hh.toNat < 100) (h2 : mm.toNat < 100)
    (h3 : ss.toNat < 100) (h : r.data.value = some (.time (.single ss) (.single mm) (.single hh))) :
    valueOutput r = ⟨"time".toList, some (.str (isoTime hh.toNat mm.toNat ss.toNat))⟩ := by
  unfold valueOutput
  simp only [h]
  unfold temporalValue
  simp only [temporalIso_time .invalid .invalid .invalid hh mm ss h1 h2 h3]

/-- C72: a complete date and time is the text `YYYY-MM-DDThh:mm:ss`; without seconds they are 00. -/
theorem C72_datetime (r : DataRecord) (d : UInt8) (m : Month) (y : UInt16) (hh mm : UInt8)
    (hd : d.toNat < 100) (hy : y.toNat < 10000) (h1 : hh.toNat < 100) (h2 : mm.toNat < 100) :
    (r.data.value = some (.dateTime (.single d) (.single m) (.single y) (.single hh) (.single mm)) →
      valueOutput r = ⟨"datetime".toList, some (.str (isoDate y.toNat (months.idxOf m + 1) d.toNat ++ ['T'] ++
        isoTime hh.toNat mm.toNat 0))⟩) ∧
    (∀ ss : UInt8, ss.toNat < 100 →
      r.data.value = some (.dateTimeWithSeconds (.single d) (.single m) (.single y) (.single hh) (.single mm)
        (.single ss)) →
      valueOutput r = ⟨"datetime".toList, some (.str (isoDate y.toNat (months.idxOf m + 1) d.toNat ++ ['T'] ++
        isoTime hh.toNat mm.toNat ss.toNat))⟩) := by
  constructor
  · intro h
    unfold valueOutput
    simp only [h]
    unfold temporalValue
    simp only [temporalIso_datetime d m y hh mm hd hy h1 h2]
  · intro ss h3 h
    unfold valueOutput
    simp only [h]
    unfold temporalValue
    simp only [temporalIso_seconds d m y hh mm ss hd hy h1 h2 h3]

/-- The JSON of one component of a date. -/
def Spec.componentOf (c : SEI Nat) : Json :=
  match c with
  | .single n => .nat n
  | .every => .str "every".toList
  | .invalid => .str "invalid".toList

/-- C72: an incomplete date (some component is "every" or invalid) is reported by components. -/
theorem C72_incomplete_date (r : DataRecord) (d : SEI UInt8) (m : SEI Month) (y : SEI UInt16)
    (h : r.data.value = some (.date d m y))
    (hi : (∀ x, d ≠ .single x) ∨ (∀ x, m ≠ .single x) ∨ (∀ x, y ≠ .single x)) :
    ∃ month, valueOutput r = ⟨"date".toList, some (.obj [("day".toList, componentOf (sei8 d)),
        ("month".toList, month), ("year".toList, componentOf (sei16 y))])⟩ ∧
      (m = .every → month = .str "every".toList) ∧ (m = .invalid → month = .str "invalid".toList) := by
  refine ⟨componentJson (fun m => .str (monthName m)) m, ?_, by rintro rfl; rfl, by rintro rfl; rfl⟩
  have ht : temporalIso d m y none none none "date".toList = none := by
    unfold temporalIso
    rcases hi with hi | hi | hi
    · cases d with
      | single x => exact absurd rfl (hi x)
      | every => cases y <;> cases m <;> rfl
      | invalid => cases y <;> cases m <;> rfl
    · cases m with
      | single x => exact absurd rfl (hi x)
      | every => cases y <;> rfl
      | invalid => cases y <;> rfl
    · cases y with
      | single x => exact absurd rfl (hi x)
      | every => rfl
      | invalid => rfl
  unfold valueOutput
  simp only [h]
  unfold temporalValue
  simp only [ht]
  cases d <;> cases y <;> rfl

/-- `c` has a definite value. -/
def Spec.definite {α : Type} (c : SEI α) : Prop := ∃ x, c = .single x

theorem toSingle_none {α : Type} (c : SEI α) (h : ¬ definite c) : c.toSingle = none := by
  cases c with
  | single x => exact absurd ⟨x, rfl⟩ h
  | every => rfl
  | invalid => rfl

theorem temporalIso_incomplete (d : SEI UInt8) (m : SEI Month) (y : SEI UInt16) (hh mi : SEI UInt8)
    (ss : Option (SEI UInt8))
    (hi : ¬ (definite d ∧ definite m ∧ definite y ∧ definite hh ∧ definite mi)) :
    temporalIso d m y (some hh) (some mi) ss "datetime".toList = none := by
  have key : d.toSingle = none ∨ m.toSingle = none ∨ y.toSingle = none ∨ hh.toSingle = none ∨
      mi.toSingle = none := by
    by_contra hc
    push Not at hc
    obtain ⟨h1, h2, h3, h4, h5⟩ := hc
    refine hi ⟨?_, ?_, ?_, ?_, ?_⟩ <;> by_contra hn <;> exact absurd (toSingle_none _ hn) ‹_›
  have e1 : "datetime".toList ≠ "date".toList := by decide +kernel
  have e2 : "datetime".toList ≠ "time".toList := by decide +kernel
  unfold temporalIso
  simp only [if_neg e1, if_neg e2, Option.bind_some]
  generalize d.toSingle = a at *
  generalize m.toSingle = b at *
  generalize y.toSingle = c at *
  generalize hh.toSingle = e at *
  generalize mi.toSingle = f at *
  cases ss.bind SEI.toSingle <;> cases a <;> cases b <;> cases c <;> cases e <;> cases f <;>
    first
    | rfl
    | simp at key

/-- C72: an incomplete date and time is reported by components. -/
theorem C72_incomplete_datetime (r : DataRecord) (d : SEI UInt8) (m : SEI Month) (y : SEI UInt16)
    (hh mi : SEI UInt8)
    (hi : ¬ (definite d ∧ definite m ∧ definite y ∧ definite hh ∧ definite mi)) :
    (r.data.value = some (.dateTime d m y hh mi) →
      ∃ month, valueOutput r = ⟨"datetime".toList, some (.obj [("day".toList, componentOf (sei8 d)),
        ("month".toList, month), ("year".toList, componentOf (sei16 y)),
        ("hour".toList, componentOf (sei8 hh)), ("minute".toList, componentOf (sei8 mi))])⟩ ∧
      (m = .every → month = .str "every".toList) ∧ (m = .invalid → month = .str "invalid".toList)) ∧
    ∀ ss, r.data.value = some (.dateTimeWithSeconds d m y hh mi ss) →
      ∃ month, valueOutput r = ⟨"datetime".toList, some (.obj [("day".toList, componentOf (sei8 d)),
        ("month".toList, month), ("year".toList, componentOf (sei16 y)),
        ("hour".toList, componentOf (sei8 hh)), ("minute".toList, componentOf (sei8 mi)),
        ("second".toList, componentOf (sei8 ss))])⟩ ∧
      (m = .every → month = .str "every".toList) ∧ (m = .invalid → month = .str "invalid".toList) := by
  have e2 : "datetime".toList ≠ "time".toList := by decide +kernel
  constructor
  · intro h
    refine ⟨componentJson (fun m => .str (monthName m)) m, ?_, by rintro rfl; rfl, by rintro rfl; rfl⟩
    unfold valueOutput
    simp only [h]
    unfold temporalValue
    simp only [temporalIso_incomplete d m y hh mi _ hi, if_pos e2]
    cases d <;> cases y <;> cases hh <;> cases mi <;> rfl
  · intro ss h
    refine ⟨componentJson (fun m => .str (monthName m)) m, ?_, by rintro rfl; rfl, by rintro rfl; rfl⟩
    unfold valueOutput
    simp only [h]
    unfold temporalValue
    simp only [temporalIso_incomplete d m y hh mi _ hi, if_pos e2]
    cases d <;> cases y <;> cases hh <;> cases mi <;> cases ss <;> rfl

/-- C72: an incomplete time is reported by components, without a date. -/
theorem C72_incomplete_time (r : DataRecord) (ss mi hh : SEI UInt8)
    (h : r.data.value = some (.time ss mi hh)) (hi : ¬ (definite ss ∧ definite mi ∧ definite hh)) :
    valueOutput r = ⟨"time".toList, some (.obj [("hour".toList, componentOf (sei8 hh)),
        ("minute".toList, componentOf (sei8 mi)), ("second".toList, componentOf (sei8 ss))])⟩ := by
  have key : ss.toSingle = none ∨ mi.toSingle = none ∨ hh.toSingle = none := by
    by_contra hc
    push Not at hc
    obtain ⟨h1, h2, h3⟩ := hc
    refine hi ⟨?_, ?_, ?_⟩ <;> by_contra hn <;> exact absurd (toSingle_none _ hn) ‹_›
  have e1 : "time".toList ≠ "date".toList := by decide +kernel
  have ht : temporalIso .invalid .invalid .invalid (some hh) (some mi) (some ss) "time".toList = none := by
    unfold temporalIso
    simp only [if_neg e1, if_true, Option.bind_some]
    generalize hh.toSingle = e at *
    generalize mi.toSingle = f at *
    generalize ss.toSingle = a at *
    cases a <;> cases e <;> cases f <;> first | rfl | simp at key
  unfold valueOutput
  simp only [h]
  unfold temporalValue
  simp only [ht]
  cases ss <;> cases hh <;> cases mi <;> rfl

/-- C72 is false of an incomplete time in a date with seconds: "every second" is reported as second 0. -/
theorem C72_every_second_fails (cfg : Cfg) : ∃ data r d m y hh mi, DataRecord.parse cfg false data = .ok r ∧
    r.data.value = some (.dateTimeWithSeconds (.single d) (.single m) (.single y) (.single hh) (.single mi)
      .every) ∧
    valueOutput r = ⟨"datetime".toList, some (.str (isoDate y.toNat (months.idxOf m + 1) d.toNat ++ ['T'] ++
        isoTime hh.toNat mi.toNat 0))⟩ := by
  have key : (match DataRecord.parse cfg false [0x06, 0x6D, 0x3F, 0x1E, 0x0A, 0x13, 0x25, 0x00] with
      | .ok r => match r.data.value with
        | some (.dateTimeWithSeconds (.single d) (.single m) (.single y) (.single hh) (.single mi) .every) =>
          decide (d.toNat < 100 ∧ y.toNat < 10000 ∧ hh.toNat < 100 ∧ mi.toNat < 100)
        | _ => false
      | _ => false) = true := by
    obtain ⟨oc, tf⟩ := cfg
    cases oc <;> cases tf <;> decide +kernel
  split at key
  · rename_i r hr
    split at key
    · rename_i d m y hh mi hv
      obtain ⟨h1, h2, h3, h4⟩ := of_decide_eq_true key
      refine ⟨_, r, d, m, y, hh, mi, hr, hv, ?_⟩
      have hs : temporalIso (.single d) (.single m) (.single y) (some (.single hh)) (some (.single mi))
          (some .every) "datetime".toList = temporalIso (.single d) (.single m) (.single y)
          (some (.single hh)) (some (.single mi)) none "datetime".toList := rfl
      unfold valueOutput
      simp only [hv]
      unfold temporalValue
      simp only [hs, temporalIso_datetime d m y hh mi h1 h2 h3 h4]
    · cases key
  · cases key

/-- Records with an incomplete date and time. -/
example : ((DataRecord.parse cfgRelease false [0x04, 0x6D, 0x3F, 0x0A, 0x13, 0x05]).toOption.any
      (fun r => match r.data.value with
        | some (.dateTime (.single _) (.single _) (.single _) (.single _) .every) => true
        | _ => false)) = true ∧
    ((DataRecord.parse cfgRelease false [0x06, 0x6D, 0x00, 0x3F, 0x0A, 0x13, 0x05, 0x00]).toOption.any
      (fun r => match r.data.value with
        | some (.dateTimeWithSeconds _ _ _ (.single _) .every (.single _)) => true
        | _ => false)) = true := by
  decide +kernel

/-- C72, what holds of encoded dates (type G): day and month are as encoded, but the year of the text is
the two-digit year of the encoding.  Missing: the century. -/
theorem C72_encoded_date_partial (cfg : Cfg) (lsb : Bool) (data : List UInt8) (r : DataRecord)
    (di : DataInfo) (day month year : Nat) (h : DataRecord.parse cfg lsb data = .ok r)
    (hdi : r.header.processed.dataInfo = some di) (hc : di.coding = .dateTypeG)
    (hd : r.dataBytes = encodeDateG day month year)
    (h1 : 1 ≤ day ∧ day ≤ 31) (h2 : 1 ≤ month ∧ month ≤ 12) (h3 : year ≤ 99) :
    valueOutput r = ⟨"date".toList, some (.str (isoDate year month day))⟩ := by
  obtain ⟨rest, di', hdi', hp, hdb, -⟩ := dataBytes_eq cfg lsb data r h
  rw [hdi] at hdi'
  cases hdi'
  rw [hc] at hp
  match rest with
  | [] | [_] => rw [C25_date_g_truncated cfg lsb _ (by simp)] at hp; simp at hp
  | b0 :: b1 :: rest =>
    obtain ⟨_, _, hq, -, -⟩ := C25_date_g cfg lsb b0 b1 rest
    have hsz : r.data.size = 2 := by rw [hq] at hp; injection hp with hp; rw [← hp]
    rw [hd, hsz] at hdb
    have hb : b0 :: b1 :: rest = encodeDateG day month year ++ rest := by rw [hdb]; rfl
    rw [hb] at hp
    obtain ⟨d, m, y, hr, e1, e2, e3⟩ := C25_round_trip cfg lsb day month year rest h1 h2 (by omega)
    rw [hr] at hp
    injection hp with hp
    cases d with
    | every => simp [sei8] at e1
    | invalid => simp [sei8] at e1
    | single d =>
      cases y with
      | every => simp [sei16] at e3
      | invalid => simp [sei16] at e3
      | single y =>
        simp only [sei8, sei16, SEI.single.injEq] at e1 e3
        have hm : months.idxOf m + 1 = month := by
          have : month - 1 < 12 := by omega
          have hk : ∀ k < 12, ∀ m, months[k]? = some m → months.idxOf m = k := by decide
          have := hk (month - 1) this m e2
          omega
        rw [← e1, ← e3, ← hm]
        exact C72_date r d m y (by omega) (by omega) (by rw [← hp])

/-- C72 is false as stated: 19 May 2024 is reported as year 24. -/
theorem C72_century_fails (cfg : Cfg) : ∃ data r, DataRecord.parse cfg false data = .ok r ∧
    r.dataBytes = encodeDateG 19 5 24 ∧
    valueOutput r = ⟨"date".toList, some (.str "0024-05-19".toList)⟩ := by
  have hs : ∀ cfg : Cfg, (DataRecord.parse cfg false ([0x02, 0x6C] ++ encodeDateG 19 5 24)).toOption.any
      (fun r => r.dataBytes == encodeDateG 19 5 24 && r.header.processed.dataInfo.any
        (fun d => d.coding == .dateTypeG)) = true := by
    rintro ⟨oc, tf⟩; cases oc <;> cases tf <;> decide +kernel
  have hs := hs cfg
  cases hp : DataRecord.parse cfg false ([0x02, 0x6C] ++ encodeDateG 19 5 24) with
  | ok r =>
    rw [hp] at hs
    simp only [Res.toOption, Option.any_some, Bool.and_eq_true, beq_iff_eq] at hs
    cases hdi : r.header.processed.dataInfo with
    | none => rw [hdi] at hs; simp at hs
    | some di =>
      rw [hdi] at hs
      simp at hs
      refine ⟨_, r, hp, hs.1, ?_⟩
      rw [C72_encoded_date_partial cfg false _ r di 19 5 24 hp hdi hs.2 hs.1 (by omega) (by omega) (by omega)]
      have : isoDate 24 5 19 = "0024-05-19".toList := by decide +kernel
      rw [this]
  | err e => rw [hp] at hs; simp [Res.toOption] at hs
  | panic => rw [hp] at hs; simp [Res.toOption] at hs

/-- Records meeting the hypotheses of the theorems above: a date and time with all components, one whose
date is "every day", and one with an invalid month. -/
example : ((DataRecord.parse cfgRelease false [0x04, 0x6D, 0x1E, 0x0A, 0x13, 0x05]).toOption.any
      (fun r => match r.data.value with
        | some (.dateTime (.single d) (.single m) (.single y) (.single h) (.single mi)) =>
          d == 19 && m == .may && y.toNat < 100 && h == 10 && mi == 30
        | _ => false)) = true ∧
    ((DataRecord.parse cfgRelease false [0x02, 0x6C, 0x00, 0x35]).toOption.any
      (fun r => match r.data.value with
        | some (.date .every (.single m) (.single y)) => m == .may && y == 24
        | _ => false)) = true ∧
    ((DataRecord.parse cfgRelease false [0x02, 0x6C, 0x13, 0x3D]).toOption.any
      (fun r => match r.data.value with
        | some (.date (.single d) .invalid (.single y)) => d == 19 && y == 24
        | _ => false)) = true := by
  decide +kernel

/-! ## C54 -/

/-- C54: the records before the error are reported, with the error and the sum of their sizes. -/
theorem C54_reported (cfg : Cfg) (s : DataRecords) (rs : List DataRecord) (e : RecordError)
    (h : s.collect cfg = rs.map .ok ++ [.err e]) :
    collectRecords cfg (some s) = some (rs, some ((rs.map (·.rawBytes.length)).sum, e)) := by
  unfold collectRecords
  simp only [h, collectItems_spec]
  simp

/-- C54: without error all records are reported. -/
theorem C54_no_error (cfg : Cfg) (s : DataRecords) (rs : List DataRecord)
    (h : s.collect cfg = rs.map .ok) : collectRecords cfg (some s) = some (rs, none) := by
  unfold collectRecords
  have := collectItems_ok rs [] 0
  simp only [h, this, List.nil_append]

/-- C54, what holds of the statement: the reported offset plus the number of filler bytes skipped before
is where the failing record starts; without fillers it is exactly that.  Missing: data with fillers. -/
theorem C54_offset_partial (cfg : Cfg) (lsb : Bool) (data : List UInt8) (rs : List DataRecord)
    (offset : Nat) (e : RecordError)
    (h : collectRecords cfg (some (DataRecords.new data lsb)) = some (rs, some (offset, e))) :
    ∃ before failing, data = before ++ failing ∧ DataRecord.parse cfg lsb failing = .err e ∧
      Tiles before (rs.map (·.rawBytes)) ∧
      before.length = offset + (before.length - ((rs.map (·.rawBytes)).flatten).length) ∧
      (before = (rs.map (·.rawBytes)).flatten → before.length = offset) := by
  obtain ⟨rs', tail, h1, h2, h3⟩ := collectItems_err _ _ _ _ _ _ h
  simp only [List.nil_append] at h2
  subst h2
  have ht := items_err_last ((C27_items cfg lsb data _).mp rfl) rs e tail h1
  subst ht
  obtain ⟨done, rest, d1, d2, d3⟩ := C28_records_tile_before_error cfg lsb data rs (.err e) (by simp) h1
  have hlen : ((rs.map (·.rawBytes)).flatten).length = offset := by
    rw [h3, List.length_flatten, List.map_map]; simp [Function.comp_def]
  have hle := tiles_length done _ d2
  refine ⟨done, rest, d1, d3, d2, by omega, ?_⟩
  intro he
  rw [he, hlen]

/-- C54 is false as stated: a filler before the failing record is not counted. -/
theorem C54_fails (cfg : Cfg) : ∃ before failing : List UInt8, ∃ e,
    DataRecord.parse cfg false failing = .err e ∧ parseDataRecords cfg false before = [] ∧
    collectRecords cfg (some (DataRecords.new (before ++ failing) false)) = some ([], some (0, e)) ∧
    before.length = 3 := by
  obtain ⟨oc, tf⟩ := cfg
  have hp : DataRecord.parse ⟨oc, tf⟩ false [0x02, 0x13, 0x01] = .err .insufficientData := by
    cases oc <;> cases tf <;> decide +kernel
  have hs : isSkipped 0x2F := by decide
  have hi : Items (DataRecord.parse ⟨oc, tf⟩ false) [0x02, 0x13, 0x01] [.err .insufficientData] := by
    rw [← hp]; exact .fail _ _ (by decide) (by rw [hp]; simp)
  have hall := (C27_items ⟨oc, tf⟩ false ([0x2F, 0x2F, 0x2F] ++ [0x02, 0x13, 0x01]) _).mpr
    (.skip _ _ _ hs (.skip _ _ _ hs (.skip _ _ _ hs hi)))
  refine ⟨[0x2F, 0x2F, 0x2F], [0x02, 0x13, 0x01], .insufficientData, hp, ?_, ?_, rfl⟩
  · exact (C27_items _ _ _ _).mpr (.skip _ _ _ hs (.skip _ _ _ hs (.skip _ _ _ hs .nil)))
  · exact C54_reported _ _ [] _ hall

end MBus
