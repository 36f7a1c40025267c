import Verif.Lemmas.F64
import Verif.Lemmas.Core
import Mathlib.Data.Nat.Bitwise
namespace MBus
open Spec

theorem hasExt_iff (b : UInt8) : hasExt b = decide (128 ≤ b.toNat) := by
  revert b; decide +kernel

theorem hasExt_true (b : UInt8) : hasExt b = true ↔ 128 ≤ b.toNat := by simp [hasExt_iff]
theorem hasExt_false (b : UInt8) : hasExt b = false ↔ b.toNat < 128 := by simp [hasExt_iff]

theorem Spec.Chain.ne_nil {d : List UInt8} (h : Chain d) : d ≠ [] := by cases h <;> simp

theorem Spec.Chain.length_pos {d : List UInt8} (h : Chain d) : 0 < d.length := by
  cases h <;> simp

theorem chain_takeWhile {d : List UInt8} (h : Chain d) (s : List UInt8) :
    ((d ++ s).takeWhile (fun b => hasExt b)).length + 1 = d.length := by
  induction h with
  | last b hb => simp [(hasExt_false b).mpr hb]
  | more b rest hb _ ih => simp [(hasExt_true b).mpr hb] at *; omega

theorem takeWhile_chain (rest : List UInt8)
    (h : (rest.takeWhile (fun b => hasExt b)).length + 1 ≤ rest.length) :
    Chain (rest.take ((rest.takeWhile (fun b => hasExt b)).length + 1)) := by
  induction rest with
  | nil => simp at h
  | cons b rest ih =>
    by_cases hb : hasExt b
    · simp only [List.takeWhile_cons, hb, if_true, List.length_cons] at h ⊢
      rw [List.take_succ_cons]
      exact Chain.more b _ ((hasExt_true b).mp hb) (ih (by omega))
    · have hb' : hasExt b = false := by simpa using hb
      simp only [List.takeWhile_cons, hb', Bool.false_eq_true, if_false, List.length_nil]
      simp only [Nat.zero_add, List.take_succ_cons, List.take_zero]
      exact Chain.last b ((hasExt_false b).mp hb')

theorem takeWhile_all (rest : List UInt8) :
    (rest.takeWhile (fun b => hasExt b)).length = rest.length ↔ ∀ b ∈ rest, 128 ≤ b.toNat := by
  induction rest with
  | nil => simp
  | cons b rest ih =>
    by_cases hb : hasExt b
    · simp [hb, ih, (hasExt_true b).mp hb]
    · have := (hasExt_false b).mp (by simpa using hb)
      simp [hb]; intro h; omega

theorem takeWhile_ge (rest : List UInt8) (n : Nat) :
    n ≤ (rest.takeWhile (fun b => hasExt b)).length ↔
      n ≤ rest.length ∧ ∀ b ∈ rest.take n, 128 ≤ b.toNat := by
  induction rest generalizing n with
  | nil => simp
  | cons b rest ih =>
    cases n with
    | zero => simp
    | succ n =>
      by_cases hb : hasExt b
      · simp [hb, ih, (hasExt_true b).mp hb]
      · have := (hasExt_false b).mp (by simpa using hb)
        simp [hb]; intro _ h; omega

theorem takeWhile_le (rest : List UInt8) :
    (rest.takeWhile (fun b => hasExt b)).length ≤ rest.length :=
  (List.takeWhile_prefix _).length_le

/-- Acceptance of a data information block. -/
theorem dib_ok (data : List UInt8) (b : DIB) : DIB.tryFrom data = .ok b ↔
    (∃ dif rest, data = dif :: rest ∧ dif.toNat < 128 ∧ b = ⟨dif, none⟩) ∨
    (∃ dif difes rest, data = dif :: (difes ++ rest) ∧ 128 ≤ dif.toNat ∧ Chain difes ∧
      difes.length ≤ 11 ∧ b = ⟨dif, some difes⟩) := by
  cases data with
  | nil => simp [DIB.tryFrom]
  | cons dif rest =>
    unfold DIB.tryFrom
    by_cases hd : hasExt dif
    · have hd' := (hasExt_true dif).mp hd
      have hnot : ¬ dif.toNat < 128 := by omega
      simp only [hd, true_and, if_true]
      constructor
      · intro h
        right
        split at h
        · cases h
        · rename_i h1
          split at h
          · cases h
          · rename_i h2
            unfold maxDataInformationSize at h1
            rw [sliceTo?_le _ _ (by omega)] at h
            simp at h
            refine ⟨dif, _, rest.drop ((rest.takeWhile (fun b => hasExt b)).length + 1), ?_, hd',
              takeWhile_chain rest (by omega), ?_, h.symm⟩
            · rw [List.take_append_drop]
            · rw [List.length_take]; omega
      · rintro (⟨_, _, e, h, _⟩ | ⟨dif', difes, rest', e, h1, h2, h3, rfl⟩)
        · simp at e; rw [← e.1] at h; omega
        · simp at e
          obtain ⟨rfl, rfl⟩ := e
          have hl := chain_takeWhile h2 rest'
          have h0 : (List.takeWhile (fun b => hasExt b) (difes ++ rest')).length + 1 = difes.length := hl
          rw [if_neg (by unfold maxDataInformationSize; omega),
            if_neg (by rw [List.length_append]; omega), sliceTo?_le _ _ (by
              rw [List.length_append]; omega), hl]
          simp
    · have hb : hasExt dif = false := by simpa using hd
      have hd' := (hasExt_false dif).mp hb
      simp only [hb, Bool.false_eq_true, false_and, if_false]
      constructor
      · intro h
        left
        simp at h
        exact ⟨dif, rest, rfl, hd', h.symm⟩
      · rintro (⟨_, _, e, h, rfl⟩ | ⟨_, _, _, e, h, _⟩)
        · simp at e; simp [e.1]
        · simp at e; rw [← e.1] at h; omega

theorem dib_err (data : List UInt8) (e : DataInfoError) : DIB.tryFrom data = .err e ↔
    (data = [] ∧ e = .noData) ∨
    (∃ dif rest, data = dif :: rest ∧ 128 ≤ dif.toNat ∧ 11 ≤ rest.length ∧
      (∀ b ∈ rest.take 11, 128 ≤ b.toNat) ∧ e = .dataTooLong) ∨
    (∃ dif rest, data = dif :: rest ∧ 128 ≤ dif.toNat ∧ rest.length ≤ 10 ∧
      (∀ b ∈ rest, 128 ≤ b.toNat) ∧ e = .dataTooShort) := by
  cases data with
  | nil => simp [DIB.tryFrom, eq_comm]
  | cons dif rest =>
    unfold DIB.tryFrom
    by_cases hd : hasExt dif
    · have hd' := (hasExt_true dif).mp hd
      simp only [hd, true_and, if_true, maxDataInformationSize]
      have hge := takeWhile_ge rest 11
      have hall := takeWhile_all rest
      have hle := takeWhile_le rest
      split
      · rename_i h1
        have h2 := hge.mp (by omega)
        constructor
        · intro h; simp at h; subst h
          right; left
          exact ⟨dif, rest, rfl, hd', h2.1, h2.2, rfl⟩
        · rintro (⟨h, _⟩ | ⟨_, _, h, _, _, _, rfl⟩ | ⟨_, _, h, _, hl, _⟩)
          · cases h
          · rfl
          · simp at h; rw [← h.2] at hl; omega
      · rename_i h1
        split
        · rename_i h2
          constructor
          · intro h; simp at h; subst h
            right; right
            exact ⟨dif, rest, rfl, hd', by omega, hall.mp (by omega), rfl⟩
          · rintro (⟨h, _⟩ | ⟨_, _, h, _, h3, h4, rfl⟩ | ⟨_, _, h, _, hl, _, rfl⟩)
            · cases h
            · simp at h; rw [← h.2] at h3 h4
              have := hge.mpr ⟨h3, h4⟩; omega
            · rfl
        · rename_i h2
          rw [sliceTo?_le _ _ (by omega)]
          constructor
          · intro h; simp at h
          · rintro (⟨h, _⟩ | ⟨_, _, h, _, h3, h4, rfl⟩ | ⟨_, _, h, _, hl, h4, rfl⟩)
            · cases h
            · simp at h; rw [← h.2] at h3 h4
              have := hge.mpr ⟨h3, h4⟩; omega
            · simp at h; rw [← h.2] at h4
              have := hall.mpr h4; omega
    · have hb : hasExt dif = false := by simpa using hd
      have hd' := (hasExt_false dif).mp hb
      simp only [hb, Bool.false_eq_true, false_and, if_false]
      constructor
      · intro h; simp at h
      · rintro (⟨h, _⟩ | ⟨_, _, h, h3, _⟩ | ⟨_, _, h, h3, _⟩)
        · cases h
        · simp at h; rw [← h.1] at h3; omega
        · simp at h; rw [← h.1] at h3; omega

theorem dib_ne_panic (data : List UInt8) : DIB.tryFrom data ≠ .panic := by
  unfold DIB.tryFrom
  split
  · simp
  · simp only
    split
    · simp
    · split
      · simp
      · split
        · cases h : sliceTo? _ _ <;> simp
        · simp

/-! ## DIFE fields -/

theorem nib_lo (b : UInt8) : (b &&& 0x0f).toNat = b.toNat % 16 := lo_eq b

theorem nib_tariff (b : UInt8) : ((b &&& 0x30) >>> 4).toNat = b.toNat / 16 % 4 := by
  revert b; decide +kernel

theorem nib_bit6 (b : UInt8) : ((b &&& 0x40) >>> 6).toNat = b.toNat / 64 % 2 := by
  revert b; decide +kernel

theorem or_shift_add (a b k : Nat) (h : a < 2 ^ k) : a ||| (b <<< k) = a + 2 ^ k * b := by
  rw [Nat.or_comm, Nat.shiftLeft_eq, Nat.mul_comm, ← Nat.two_pow_add_eq_or_of_lt h]
  omega

theorem difeLoop_ok (difes : List UInt8) (s : DifeState) (hx : s.extIndex + difes.length ≤ 12)
    (ht : s.tariff < 2 ^ s.tariffIndex) (hd : s.device < 2 ^ s.deviceIndex) :
    ∃ s', difeLoop difes s = .ok s' ∧
      s'.storage = s.storage + 2 ^ (4 * s.extIndex + 1) * storageBits difes ∧
      s'.tariff = s.tariff + 2 ^ s.tariffIndex * tariffNumber difes ∧
      s'.device = s.device + 2 ^ s.deviceIndex * subunitNumber difes ∧
      s'.ext = (match difes.getLast? with | some b => hasExt b | none => s.ext) ∧
      s'.extIndex = s.extIndex + difes.length := by
  induction difes generalizing s with
  | nil => exact ⟨s, rfl, by simp [storageBits], by simp [tariffNumber], by simp [subunitNumber],
      by simp, by simp⟩
  | cons b rest ih =>
    unfold difeLoop
    simp only [List.length_cons] at hx
    rw [if_neg (by unfold maxDataInformationSize; omega), nib_lo, nib_tariff, nib_bit6,
      or_shift_add _ _ _ ht, or_shift_add _ _ _ hd]
    have hb4 : b.toNat / 16 % 4 < 4 := by omega
    have hb2 : b.toNat / 64 % 2 < 2 := by omega
    obtain ⟨s', h0, h1, h2, h3, h4, h5⟩ := ih
      { storage := s.storage + ((b.toNat % 16) <<< (s.extIndex * 4 + 1))
        tariff := s.tariff + 2 ^ s.tariffIndex * (b.toNat / 16 % 4)
        device := s.device + 2 ^ s.deviceIndex * (b.toNat / 64 % 2)
        ext := b &&& 0x80 != 0
        extIndex := s.extIndex + 1
        tariffIndex := s.tariffIndex + 2
        deviceIndex := s.deviceIndex + 1 } (by simp; omega)
        (by
          simp only [Nat.pow_add]
          generalize 2 ^ s.tariffIndex = p at *
          have : p * (b.toNat / 16 % 4) ≤ p * 3 := Nat.mul_le_mul_left p (by omega)
          omega)
        (by
          simp only [Nat.pow_add]
          generalize 2 ^ s.deviceIndex = p at *
          have : p * (b.toNat / 64 % 2) ≤ p * 1 := Nat.mul_le_mul_left p (by omega)
          omega)
    refine ⟨s', h0, ?_, ?_, ?_, ?_, ?_⟩
    · rw [h1]
      simp only [storageBits, Nat.shiftLeft_eq]
      have e1 : 2 ^ (4 * (s.extIndex + 1) + 1) = 2 ^ (4 * s.extIndex + 1) * 16 := by
        rw [show 4 * (s.extIndex + 1) + 1 = (4 * s.extIndex + 1) + 4 by ring, Nat.pow_add]
      have e2 : s.extIndex * 4 + 1 = 4 * s.extIndex + 1 := by ring
      rw [e1, e2]; ring
    · rw [h2]
      simp only [tariffNumber, Nat.pow_add]; ring
    · rw [h3]
      simp only [subunitNumber, Nat.pow_add]; ring
    · rw [h4]
      cases rest with
      | nil => simp [hasExt]
      | cons c rest => rw [List.getLast?_cons_cons]; rw [List.getLast?_eq_some_getLast (by simp)]
    · rw [h5]; simp; omega

theorem dataInfo_ok (b : DIB) (h : (b.difes.getD []).length ≤ 11) : ∃ d, DataInfo.tryFrom b = .ok d ∧
    d.storageNumber = b.dif.toNat / 64 % 2 + 32 * storageBits (b.difes.getD []) ∧
    d.tariff = tariffNumber (b.difes.getD []) ∧ d.device = subunitNumber (b.difes.getD []) ∧
    d.functionField = functionFieldOf b.dif ∧ d.coding = codingOf b.dif ∧
    d.size = 1 + (b.difes.getD []).length := by
  unfold DataInfo.tryFrom
  cases hb : b.difes with
  | none =>
    exact ⟨_, rfl, by simp [storageBits]; rw [← nib_bit6]; simp, rfl, rfl, rfl, rfl, rfl⟩
  | some difes =>
    rw [hb] at h
    simp only [Option.getD_some] at h ⊢
    obtain ⟨s', h0, h1, h2, h3, h4, h5⟩ := difeLoop_ok difes
      { storage := ((b.dif &&& 0x40) >>> 6).toNat, tariff := 0, device := 0
        ext := b.dif &&& 0x80 != 0, extIndex := 1, tariffIndex := 0, deviceIndex := 0 }
      (by simp; omega) (by simp) (by simp)
    rw [h0]
    refine ⟨_, rfl, ?_, ?_, ?_, rfl, rfl, ?_⟩
    · rw [h1, nib_bit6]; norm_num
    · rw [h2]; simp
    · rw [h3]; simp
    · rw [h5]

theorem storageBits_lt (l : List UInt8) : storageBits l < 16 ^ l.length := by
  induction l with
  | nil => simp [storageBits]
  | cons b l ih => simp only [storageBits, List.length_cons, Nat.pow_succ]; omega

theorem tariffNumber_lt (l : List UInt8) : tariffNumber l < 4 ^ l.length := by
  induction l with
  | nil => simp [tariffNumber]
  | cons b l ih => simp only [tariffNumber, List.length_cons, Nat.pow_succ]; omega

theorem subunitNumber_lt (l : List UInt8) : subunitNumber l < 2 ^ l.length := by
  induction l with
  | nil => simp [subunitNumber]
  | cons b l ih => simp only [subunitNumber, List.length_cons, Nat.pow_succ]; omega

/-! ## Integers -/

theorem leValue_lt (l : List UInt8) : leValue l < 256 ^ l.length := by
  induction l with
  | nil => simp [leValue]
  | cons b l ih =>
    have := b.toNat_lt
    simp only [leValue, List.length_cons, Nat.pow_succ]; omega

theorem leLoop_eq (l : List UInt8) (v s : Nat) (h : v < 2 ^ s) :
    leLoop l v s = (v + 2 ^ s * leValue l, s + 8 * l.length) := by
  induction l generalizing v s with
  | nil => simp [leLoop, leValue]
  | cons b l ih =>
    have := b.toNat_lt
    unfold leLoop
    rw [or_shift_add _ _ _ h, ih]
    · simp only [leValue, List.length_cons, Nat.pow_add, Prod.mk.injEq]
      constructor
      · ring
      · ring
    · rw [Nat.pow_add]
      generalize 2 ^ s = p at *
      have : p * b.toNat ≤ p * 255 := Nat.mul_le_mul_left p (by omega)
      omega

theorem pow256 (n : Nat) : 256 ^ n = 2 ^ (8 * n) := by
  rw [show 256 = 2 ^ 8 by rfl, ← Nat.pow_mul]

theorem xor_ones (v s : Nat) (h : v < 2 ^ s) : v ^^^ (2 ^ s - 1) = 2 ^ s - 1 - v := by
  apply Nat.eq_of_testBit_eq
  intro i
  rw [Nat.testBit_xor, Nat.testBit_two_pow_sub_one]
  have e : 2 ^ s - 1 - v = 2 ^ s - (v + 1) := by omega
  rw [e, Nat.testBit_two_pow_sub_succ h]
  by_cases hi : i < s
  · simp [hi]
  · have : v.testBit i = false := Nat.testBit_lt_two_pow (lt_of_lt_of_le h (Nat.pow_le_pow_right (by omega) (by omega)))
    simp [hi, this]

theorem msb_eq (v s : Nat) (h : v < 2 ^ (s + 1)) : (v >>> s) &&& 1 = if 2 * v < 2 ^ (s + 1) then 0 else 1 := by
  rw [Nat.and_one_is_mod, Nat.shiftRight_eq_div_pow]
  rw [Nat.pow_succ] at h ⊢
  generalize hp : 2 ^ s = p at *
  have hpos : 0 < p := by rw [← hp]; exact Nat.two_pow_pos _
  split
  · rw [Nat.div_eq_of_lt (by omega)]
  · have : v / p = 1 := by
      apply Nat.div_eq_of_lt_le <;> omega
    rw [this]

/-- The decoder's integer value is the two's complement value (of the low eight bytes). -/
theorem integerToValue_eq (cfg : Cfg) (data : List UInt8) (n : Nat) (h : n ≤ data.length)
    (hn : 0 < n) : integerToValue cfg data n =
      .ok ⟨some (if n > 8 then .lossyNumber (F64.ofInt (twosComplement (data.take 8)))
        else .number (F64.ofInt (twosComplement (data.take n)))), n⟩ := by
  unfold integerToValue
  have key : ∀ k, 0 < k → k ≤ data.length → k ≤ 8 →
      (k < 8 → (if ((0 + 2 ^ 0 * leValue (data.take k)) >>> (0 + 8 * (data.take k).length - 1)) &&& 1 = 1 then
          -((((0 + 2 ^ 0 * leValue (data.take k)) ^^^ (2 ^ (0 + 8 * (data.take k).length) - 1)) + 1 : Nat) : Int)
        else i64OfPattern (0 + 2 ^ 0 * leValue (data.take k))) = twosComplement (data.take k)) ∧
      (k = 8 → i64OfPattern (0 + 2 ^ 0 * leValue (data.take k)) = twosComplement (data.take k)) := by
    intro k hk0 hk hk8
    have hlen : (data.take k).length = k := by simp; omega
    have hlt := leValue_lt (data.take k)
    rw [hlen] at hlt
    rw [pow256] at hlt
    have hs : 8 * k = (8 * k - 1) + 1 := by omega
    simp only [Nat.zero_add, Nat.pow_zero, Nat.one_mul, hlen]
    generalize hv : leValue (data.take k) = v at *
    constructor
    · intro hk7
      have h63 : 2 ^ (8 * k) ≤ 2 ^ 56 := Nat.pow_le_pow_right (by omega) (by omega)
      rw [xor_ones v (8 * k) hlt, msb_eq v (8 * k - 1) (by rw [← hs]; exact hlt), ← hs]
      unfold twosComplement i64OfPattern
      rw [hlen, hv, pow256]
      have hcast : ((256 : Int) ^ k) = ((2 ^ (8 * k) : Nat) : Int) := by
        rw [← pow256]; push_cast; rfl
      rw [hcast]
      generalize 2 ^ (8 * k) = p at *
      by_cases hc : 2 * v < p
      · simp [hc]; omega
      · simp [hc]; omega
    · rintro rfl
      unfold twosComplement i64OfPattern
      rw [hlen, hv]
      norm_num at hlt ⊢
      split <;> split <;> omega
  by_cases h8 : n > 8
  · have k8 := (key 8 (by omega) (by omega) (by omega)).2 rfl
    simp only [h8, if_true]
    rw [leLoop_eq _ _ _ (by simp)]
    simp only
    have hlen : (data.take 8).length = 8 := by simp; omega
    rw [if_neg (by rw [hlen]; omega), if_neg (by omega), k8]
  · simp only [h8, if_false]
    rw [leLoop_eq _ _ _ (by simp)]
    simp only
    have hlen : (data.take n).length = n := by simp; omega
    have hne : ¬ (0 + 8 * (data.take n).length = 0) := by rw [hlen]; omega
    simp only [hne, false_and, if_false]
    by_cases h7 : n < 8
    · have k7 := (key n hn h (by omega)).1 h7
      simp only [h7, true_and]
      rw [k7]
    · have k8 := (key n hn h (by omega)).2 (by omega)
      rw [if_neg (by omega), k8]

theorem twosComplement_bound (l : List UInt8) :
    -(256 ^ l.length : Int) ≤ 2 * twosComplement l ∧ 2 * twosComplement l < 256 ^ l.length := by
  have h := leValue_lt l
  have hc : ((256 : Int) ^ l.length) = ((256 ^ l.length : Nat) : Int) := by push_cast; rfl
  unfold twosComplement
  rw [hc]
  split <;> omega

theorem encodeLe_length (n : Nat) (v : Int) : (encodeLe n v).length = n := by
  induction n generalizing v with
  | zero => rfl
  | succ n ih => simp [encodeLe, ih]

theorem leValue_encodeLe (n : Nat) (v : Int) : (leValue (encodeLe n v) : Int) = v % 256 ^ n := by
  induction n generalizing v with
  | zero => simp [encodeLe, leValue]
  | succ n ih =>
    simp only [encodeLe, leValue]
    push_cast
    rw [ih]
    have h1 : ((UInt8.ofNat (v % 256).toNat).toNat : Int) = v % 256 := by
      simp; omega
    rw [h1, pow_succ]
    rw [Int.emod_def, Int.emod_def, Int.emod_def, Int.ediv_ediv_of_nonneg (by norm_num)]
    rw [mul_comm (256 ^ n : Int) 256]
    ring

theorem twosComplement_encodeLe (n : Nat) (v : Int) (h1 : -(256 ^ n : Int) ≤ 2 * v)
    (h2 : 2 * v < 256 ^ n) : twosComplement (encodeLe n v) = v := by
  have hv := leValue_encodeLe n v
  have hlt := leValue_lt (encodeLe n v)
  unfold twosComplement
  rw [encodeLe_length] at hlt ⊢
  have hc : ((256 : Int) ^ n) = ((256 ^ n : Nat) : Int) := by push_cast; rfl
  rw [hc] at h1 h2 hv ⊢
  clear hc
  generalize 256 ^ n = p at *
  generalize leValue (encodeLe n v) = x at *
  by_cases hneg : v < 0
  · have : v % (p : Int) = v + p := by
      rw [← Int.add_emod_right]; exact Int.emod_eq_of_lt (by omega) (by omega)
    rw [this] at hv
    split <;> omega
  · have : v % (p : Int) = v := Int.emod_eq_of_lt (by omega) (by omega)
    rw [this] at hv
    split <;> omega

/-! ## BCD -/

/-- The rounded accumulation performed by the digit loop, two digits per byte. -/
def bcdAcc : List UInt8 → Int → Int → Int
  | [], v, _ => v
  | b :: bs, v, w =>
    let v1 := roundF64 (v + roundF64 (lo b * w))
    let w1 := roundF64 (w * 10)
    let v2 := roundF64 (v1 + roundF64 (hi b * w1))
    bcdAcc bs v2 (roundF64 (w1 * 10))

theorem hi_eq' (b : UInt8) : ((b >>> 4) &&& 0x0F).toNat = hi b := by
  revert b; decide +kernel

theorem gt9_iff (d : UInt8) : d > 9 ↔ 9 < d.toNat := by
  rw [gt_iff_lt, UInt8.lt_iff_toNat_lt]; rfl

theorem bcdDigitLoop_eq (data : List UInt8) (n : Nat) (hn : n ≤ data.length) (lsb : Bool)
    (k j : Nat) (v w : Int) (hk : j + k = n) :
    bcdDigitLoop data (2 * n) lsb (2 * k) (2 * j) v w =
      let src := (if lsb then (data.take n).reverse else data.take n).drop j
      if ∀ b ∈ src, IsBcd b then .ok (bcdAcc src v w)
      else .err (.dataInformation .invalidValueInformation) := by
  simp only
  induction k generalizing j v w with
  | zero =>
    have : j = n := by omega
    subst this
    have hnil : (if lsb then (data.take j).reverse else data.take j).drop j = [] := by
      apply List.drop_eq_nil_of_le
      split <;> simp
    rw [hnil]
    simp [bcdDigitLoop, bcdAcc]
  | succ k ih =>
    have hj : j < n := by omega
    have hjd : j < data.length := by omega
    have hlen : j < (if lsb then (data.take n).reverse else data.take n).length := by
      split <;> simp <;> omega
    rw [List.drop_eq_getElem_cons hlen]
    generalize hb : (if lsb then (data.take n).reverse else data.take n)[j] = b
    have hsrc : ∀ i, (i = 2 * j ∨ i = 2 * j + 1) →
        data[if lsb then (2 * n - i - 1) / 2 else i / 2]? = some b := by
      intro i hi
      cases lsb with
      | false =>
        simp only [Bool.false_eq_true, if_false, List.getElem_take] at hb ⊢
        have : i / 2 = j := by omega
        rw [this, List.getElem?_eq_getElem hjd, hb]
      | true =>
        simp only [if_true, List.getElem_reverse, List.getElem_take, List.length_take] at hb ⊢
        have : (2 * n - i - 1) / 2 = min n data.length - 1 - j := by omega
        rw [this, List.getElem?_eq_getElem (by omega), hb]
    rw [show 2 * (k + 1) = (2 * k + 1) + 1 by ring]
    rw [bcdDigitLoop]
    simp only [hsrc (2 * j) (by omega), Res.ofOption_some, Res.bind_ok]
    rw [if_pos (show 2 * j % 2 = 0 by omega)]
    by_cases h1 : b &&& 0x0F > 9
    · have : ¬ IsBcd b := by
        unfold IsBcd; rw [gt9_iff, lo_eq] at h1; omega
      simp [h1, this]
    · rw [if_neg h1]
      rw [bcdDigitLoop]
      simp only [hsrc (2 * j + 1) (by omega), Res.ofOption_some, Res.bind_ok]
      rw [if_neg (show ¬ (2 * j + 1) % 2 = 0 by omega)]
      by_cases h2 : (b >>> 4) &&& 0x0F > 9
      · have : ¬ IsBcd b := by
          unfold IsBcd; rw [gt9_iff, hi_eq'] at h2; omega
        simp [h2, this]
      · rw [if_neg h2, show 2 * j + 1 + 1 = 2 * (j + 1) by ring, ih _ _ _ (by omega)]
        have : IsBcd b := by
          unfold IsBcd; rw [gt9_iff, hi_eq'] at h2; rw [gt9_iff, lo_eq] at h1; omega
        simp only [List.mem_cons, forall_eq_or_imp, this, true_and, bcdAcc, hi_eq']
        simp only [lo_eq]

theorem pow10_round (k : Nat) (h : k ≤ 18) : roundF64 (10 ^ k) = 10 ^ k := by
  interval_cases k <;> decide +kernel

theorem digit_round (d k : Nat) (hd : d ≤ 9) (h : k ≤ 18) : roundF64 (d * 10 ^ k) = d * 10 ^ k := by
  have : ∀ d : Fin 10, ∀ k : Fin 19, roundF64 (d.val * 10 ^ k.val) = d.val * 10 ^ k.val := by
    decide +kernel
  exact this ⟨d, by omega⟩ ⟨k, by omega⟩

theorem bcdValue_lt (l : List UInt8) (h : ∀ b ∈ l, IsBcd b) : bcdValue l < 100 ^ l.length := by
  induction l with
  | nil => simp [bcdValue]
  | cons b l ih =>
    have h1 := h b (by simp)
    have h2 := ih (fun x hx => h x (by simp [hx]))
    unfold IsBcd at h1
    simp only [bcdValue, List.length_cons, Nat.pow_succ]; omega

/-- One step of the accumulation with the roundings of exact quantities removed. -/
theorem bcdAcc_step (b : UInt8) (bs : List UInt8) (v : Int) (j : Nat) (hb : IsBcd b) (hj : 2 * j + 2 ≤ 18) :
    bcdAcc (b :: bs) v (10 ^ (2 * j)) =
      bcdAcc bs (roundF64 (roundF64 (v + lo b * 10 ^ (2 * j)) + hi b * 10 ^ (2 * j + 1)))
        (10 ^ (2 * (j + 1))) := by
  unfold IsBcd at hb
  simp only [bcdAcc]
  have e1 : (10 : Int) ^ (2 * j) * 10 = 10 ^ (2 * j + 1) := by rw [pow_succ]
  have e2 : (10 : Int) ^ (2 * j + 1) * 10 = 10 ^ (2 * (j + 1)) := by
    rw [show 2 * (j + 1) = 2 * j + 1 + 1 by ring, pow_succ _ (2 * j + 1)]
  rw [e1, pow10_round _ (by omega), e2, pow10_round _ (by omega), digit_round _ _ hb.1 (by omega),
    digit_round _ _ hb.2 (by omega)]

theorem bcdAcc_exact (l : List UInt8) (v j : Nat) (h : ∀ b ∈ l, IsBcd b) (hv : v < 10 ^ (2 * j))
    (hj : j + l.length ≤ 7) : bcdAcc l v (10 ^ (2 * j)) = (v + 10 ^ (2 * j) * bcdValue l : Nat) := by
  induction l generalizing v j with
  | nil => simp [bcdAcc, bcdValue]
  | cons b l ih =>
    have hb := h b (by simp)
    simp only [List.length_cons] at hj
    rw [bcdAcc_step b l v j hb (by omega)]
    unfold IsBcd at hb
    have hp : (10 : Nat) ^ (2 * j) ≤ 10 ^ 12 := Nat.pow_le_pow_right (by omega) (by omega)
    have e1 : (10 : Nat) ^ (2 * j + 1) = 10 * 10 ^ (2 * j) := by rw [pow_succ, mul_comm]
    have e2 : (10 : Nat) ^ (2 * (j + 1)) = 100 * 10 ^ (2 * j) := by
      rw [show 2 * (j + 1) = 2 * j + 1 + 1 by ring, pow_succ, pow_succ]; ring
    have c0 : ((10 : Int) ^ (2 * j)) = ((10 ^ (2 * j) : Nat) : Int) := by push_cast; rfl
    have c1 : ((10 : Int) ^ (2 * j + 1)) = ((10 * 10 ^ (2 * j) : Nat) : Int) := by
      rw [pow_succ]; push_cast; ring
    have l1 : lo b * 10 ^ (2 * j) ≤ 9 * 10 ^ (2 * j) := Nat.mul_le_mul_right _ hb.1
    have l2 : hi b * (10 * 10 ^ (2 * j)) ≤ 9 * (10 * 10 ^ (2 * j)) := Nat.mul_le_mul_right _ hb.2
    have r1 : roundF64 ((v : Int) + lo b * 10 ^ (2 * j)) = ((v + lo b * 10 ^ (2 * j) : Nat) : Int) := by
      rw [roundF64_small]
      · push_cast; rfl
      · rw [c0, ← Nat.cast_mul, ← Nat.cast_add, Int.natAbs_natCast]; omega
    rw [r1]
    have r2 : roundF64 (((v + lo b * 10 ^ (2 * j) : Nat) : Int) + hi b * 10 ^ (2 * j + 1)) =
        ((v + lo b * 10 ^ (2 * j) + hi b * (10 * 10 ^ (2 * j)) : Nat) : Int) := by
      rw [roundF64_small]
      · rw [c1]; push_cast; ring
      · rw [c1, ← Nat.cast_mul, ← Nat.cast_add, Int.natAbs_natCast]; omega
    rw [r2, ih _ (j + 1) (fun x hx => h x (by simp [hx])) (by rw [e2]; omega) (by omega), e2]
    simp only [bcdValue]
    push_cast; ring

theorem bcdAcc_exact8 (l : List UInt8) (v j : Nat) (h : ∀ b ∈ l, IsBcd b) (hv : v < 10 ^ (2 * j))
    (hj : j + l.length = 8) (hl : l ≠ []) :
    bcdAcc l v (10 ^ (2 * j)) = roundF64 (v + 10 ^ (2 * j) * bcdValue l : Nat) := by
  induction l generalizing v j with
  | nil => simp at hl
  | cons b l ih =>
    have hb := h b (by simp)
    simp only [List.length_cons] at hj
    rw [bcdAcc_step b l v j hb (by omega)]
    unfold IsBcd at hb
    have hp : (10 : Nat) ^ (2 * j) ≤ 10 ^ 14 := Nat.pow_le_pow_right (by omega) (by omega)
    have e1 : (10 : Nat) ^ (2 * j + 1) = 10 * 10 ^ (2 * j) := by rw [pow_succ, mul_comm]
    have e2 : (10 : Nat) ^ (2 * (j + 1)) = 100 * 10 ^ (2 * j) := by
      rw [show 2 * (j + 1) = 2 * j + 1 + 1 by ring, pow_succ, pow_succ]; ring
    have c0 : ((10 : Int) ^ (2 * j)) = ((10 ^ (2 * j) : Nat) : Int) := by push_cast; rfl
    have c1 : ((10 : Int) ^ (2 * j + 1)) = ((10 * 10 ^ (2 * j) : Nat) : Int) := by
      rw [pow_succ]; push_cast; ring
    have l1 : lo b * 10 ^ (2 * j) ≤ 9 * 10 ^ (2 * j) := Nat.mul_le_mul_right _ hb.1
    have l2 : hi b * (10 * 10 ^ (2 * j)) ≤ 9 * (10 * 10 ^ (2 * j)) := Nat.mul_le_mul_right _ hb.2
    have r1 : roundF64 ((v : Int) + lo b * 10 ^ (2 * j)) = ((v + lo b * 10 ^ (2 * j) : Nat) : Int) := by
      rw [roundF64_small]
      · push_cast; rfl
      · rw [c0, ← Nat.cast_mul, ← Nat.cast_add, Int.natAbs_natCast]; omega
    rw [r1]
    have hsum : (((v + lo b * 10 ^ (2 * j) : Nat) : Int) + hi b * 10 ^ (2 * j + 1)) =
        ((v + lo b * 10 ^ (2 * j) + hi b * (10 * 10 ^ (2 * j)) : Nat) : Int) := by
      rw [c1]; push_cast; ring
    rw [hsum]
    rcases l with _ | ⟨b', l'⟩
    · simp only [bcdAcc, bcdValue]
      congr 1
      push_cast; ring
    · have hj' : (10 : Nat) ^ (2 * j) ≤ 10 ^ 12 :=
        Nat.pow_le_pow_right (by omega) (by simp only [List.length_cons] at hj; omega)
      rw [roundF64_small _ (by rw [Int.natAbs_natCast]; omega),
        ih _ (j + 1) (fun x hx => h x (by simp [hx])) (by rw [e2]; omega) (by omega) (by simp), e2]
      congr 1
      simp only [bcdValue]
      push_cast; ring

/-- The bytes of a BCD field, least significant pair of digits first. -/
def bcdOrder (lsb : Bool) (bytes : List UInt8) : List UInt8 := if lsb then bytes.reverse else bytes

theorem bcdToValue_eq (data : List UInt8) (n : Nat) (sign : Int) (lsb : Bool) :
    bcdToValue data (2 * n) sign lsb =
      if data.length < n then .err .insufficientData
      else if ∀ b ∈ data.take n, IsBcd b then
        .ok ⟨some (.number (F64.withSign (bcdAcc (bcdOrder lsb (data.take n)) 0 1) sign)), n⟩
      else .err (.dataInformation .invalidValueInformation) := by
  unfold bcdToValue
  rw [show (2 * n + 1) / 2 = n by omega]
  by_cases hl : data.length < n
  · simp [hl]
  · rw [if_neg hl, if_neg hl]
    have := bcdDigitLoop_eq data n (by omega) lsb n 0 0 1 (by omega)
    simp only [Nat.mul_zero, List.drop_zero] at this
    rw [this]
    have hm : (∀ b ∈ (if lsb then (data.take n).reverse else data.take n), IsBcd b) ↔
        ∀ b ∈ data.take n, IsBcd b := by
      cases lsb <;> simp
    by_cases hb : ∀ b ∈ data.take n, IsBcd b
    · rw [if_pos (hm.2 hb), if_pos hb]; rfl
    · rw [if_neg (fun h => hb (hm.1 h)), if_neg hb]; rfl

theorem encodeBcd_length (n v : Nat) : (encodeBcd n v).length = n := by
  induction n generalizing v with
  | zero => rfl
  | succ n ih => simp [encodeBcd, ih]

theorem encodeBcd_isBcd (n v : Nat) : ∀ b ∈ encodeBcd n v, IsBcd b := by
  induction n generalizing v with
  | zero => simp [encodeBcd]
  | succ n ih =>
    simp only [encodeBcd, List.mem_cons, forall_eq_or_imp]
    refine ⟨?_, ih _⟩
    unfold IsBcd lo hi
    rw [UInt8.toNat_ofNat']
    omega

theorem bcdValue_encodeBcd (n v : Nat) : bcdValue (encodeBcd n v) = v % 100 ^ n := by
  induction n generalizing v with
  | zero => simp [encodeBcd, bcdValue, Nat.mod_one]
  | succ n ih =>
    simp only [encodeBcd, bcdValue, ih]
    unfold lo hi
    have hm : v % 100 ^ (n + 1) = v % 100 + 100 * (v / 100 % 100 ^ n) := by
      rw [Nat.pow_succ', Nat.mod_mul]
    have h2 : v % 100 = v % 10 + 10 * (v / 10 % 10) := by omega
    rw [UInt8.toNat_ofNat', hm, h2]
    generalize 100 * (v / 100 % 100 ^ n) = r
    have := Nat.mod_lt v (show 10 > 0 by omega)
    have := Nat.mod_lt (v / 10) (show 10 > 0 by omega)
    generalize v % 10 = x at *
    generalize v / 10 % 10 = y at *
    omega

/-! ## Dates -/

theorem sei8_parse (b mask all : UInt8) :
    sei8 (parseSingleOrEvery b mask all) = orEvery (b &&& mask).toNat all.toNat := by
  unfold parseSingleOrEvery orEvery
  by_cases h : b &&& mask = all
  · simp [h, sei8]
  · have : (b &&& mask).toNat ≠ all.toNat := fun he => h (UInt8.toNat_inj.mp he)
    rw [if_neg h, if_neg this]; rfl

theorem mask5 (b : UInt8) : (b &&& 0x1F).toNat = b.toNat % 32 := by revert b; decide +kernel
theorem mask6 (b : UInt8) : (b &&& 0x3F).toNat = b.toNat % 64 := by revert b; decide +kernel

theorem parseMonth_eq (b : UInt8) : parseMonth b = monthOf (b.toNat % 16) := by
  revert b; decide +kernel

theorem year_lo (b : UInt8) : (b &&& 0xE0).toUInt16 >>> 5 = UInt16.ofNat (b.toNat / 32) := by
  revert b; decide +kernel
theorem year_hi (b : UInt8) : (b &&& 0xF0).toUInt16 >>> 1 = UInt16.ofNat (8 * (b.toNat / 16)) := by
  revert b; decide +kernel

theorem year_or : ∀ x : Fin 16, ∀ y : Fin 8,
    (UInt16.ofNat (8 * x.val) ||| UInt16.ofNat y.val) = UInt16.ofNat (y.val + 8 * x.val) := by
  decide +kernel

theorem parseYear_eq (input : List UInt8) :
    sei16 (parseYear input) = orEvery (yearBits (input[0]?.getD 0) (input[1]?.getD 0)) 127 := by
  unfold parseYear
  simp only
  generalize input[0]?.getD 0 = b0
  generalize input[1]?.getD 0 = b1
  have h0 := b0.toNat_lt
  have h1 := b1.toNat_lt
  rw [year_lo, year_hi, year_or ⟨b1.toNat / 16, by omega⟩ ⟨b0.toNat / 32, by omega⟩]
  unfold yearBits orEvery
  simp only
  have hlt : b0.toNat / 32 + 8 * (b1.toNat / 16) < 65536 := by omega
  by_cases h : b0.toNat / 32 + 8 * (b1.toNat / 16) = 127
  · rw [h]; rfl
  · rw [if_neg h, if_neg]
    · simp only [sei16, UInt16.toNat_ofNat']
      rw [Nat.mod_eq_of_lt hlt]
    · intro hc
      have := congrArg UInt16.toNat hc
      rw [UInt16.toNat_ofNat', Nat.mod_eq_of_lt hlt] at this
      exact h this

/-! ## Variable length -/

theorem slice1 (b : UInt8) (rest : List UInt8) (n : Nat) :
    slice? (b :: rest) 1 (1 + n) = if n ≤ rest.length then some (rest.take n) else none := by
  unfold slice?
  by_cases h : n ≤ rest.length
  · rw [if_pos h, if_pos (by simp; omega), Nat.add_comm, List.take_succ_cons]; rfl
  · rw [if_neg h, if_neg (by simp; omega)]

/-- What a variable-length field of the given kind holds, as a data value. -/
def lvarValue (cfg : Cfg) (lsb : Bool) (kind : LvarKind) (bytes : List UInt8) :
    Res RecordError Data :=
  match kind with
  | .text => .ok ⟨some (.text bytes), bytes.length⟩
  | .positiveBcd => bcdToValue bytes (2 * bytes.length) 1 lsb
  | .negativeBcd => bcdToValue bytes (2 * bytes.length) (-1) lsb
  | .binary => integerChecked cfg bytes bytes.length

theorem lvar_parse (cfg : Cfg) (lsb : Bool) (b : UInt8) (rest : List UInt8) (kind : LvarKind)
    (n : Nat) (hk : lvar b = some (kind, n)) (hl : n ≤ rest.length) :
    Coding.variableLength.parse cfg lsb (b :: rest) =
      addLvarByte (lvarValue cfg lsb kind (rest.take n)) := by
  have hb := b.toNat_lt
  have hlen : (rest.take n).length = n := by simp [hl]
  unfold lvar at hk
  simp only [Coding.parse, parseVariableLength, List.head?_cons, Res.ofOption_some, Res.bind_ok]
  simp only at hk
  split at hk
  · simp only [Option.some.injEq, Prod.mk.injEq] at hk
    obtain ⟨rfl, rfl⟩ := hk
    rw [if_pos (by omega), slice1, if_pos (by omega)]
    simp only [lvarValue, hlen, addLvarByte, Res.ofOption_some, Res.bind_ok]
  rw [if_neg (by omega)]
  split at hk
  · simp only [Option.some.injEq, Prod.mk.injEq] at hk
    obtain ⟨rfl, rfl⟩ := hk
    rw [if_pos (by omega), slice1, if_pos (by omega)]
    simp only [lvarValue, hlen, addLvarByte, Res.ofOption_some, Res.bind_ok]
  rw [if_neg (by omega)]
  split at hk
  · simp only [Option.some.injEq, Prod.mk.injEq] at hk
    obtain ⟨rfl, rfl⟩ := hk
    rw [if_pos (by omega), slice1, if_pos (by omega)]
    simp only [lvarValue, hlen, addLvarByte, Res.ofOption_some, Res.bind_ok]
  rw [if_neg (by omega)]
  split at hk
  · simp only [Option.some.injEq, Prod.mk.injEq] at hk
    obtain ⟨rfl, rfl⟩ := hk
    rw [if_pos (by omega), slice1, if_pos (by omega)]
    simp only [lvarValue, hlen, addLvarByte, Res.ofOption_some, Res.bind_ok]
  rw [if_neg (by omega)]
  split at hk
  · simp only [Option.some.injEq, Prod.mk.injEq] at hk
    obtain ⟨rfl, rfl⟩ := hk
    rw [if_pos (by omega), slice1, if_pos (by omega)]
    simp only [lvarValue, hlen, addLvarByte, Res.ofOption_some, Res.bind_ok]
  rw [if_neg (by omega)]
  split at hk
  · simp only [Option.some.injEq, Prod.mk.injEq] at hk
    obtain ⟨rfl, rfl⟩ := hk
    rw [if_pos (by omega), slice1, if_pos (by omega)]
    simp only [lvarValue, hlen, addLvarByte, Res.ofOption_some, Res.bind_ok]
  rw [if_neg (by omega)]
  split at hk
  · simp only [Option.some.injEq, Prod.mk.injEq] at hk
    obtain ⟨rfl, rfl⟩ := hk
    rw [if_pos (by omega), slice1, if_pos (by omega)]
    simp only [lvarValue, hlen, addLvarByte, Res.ofOption_some, Res.bind_ok]
  · simp at hk

end MBus
