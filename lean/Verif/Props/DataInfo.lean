import Verif.Lemmas.DataInfo
import Verif.Lemmas.F64
import Verif.Props.Wired
/-!
# Properties of data information blocks and data fields: C16-C18, C23-C26, C31, C58
-/
namespace MBus
open Spec

/-! ## C16 -/

/-- C16: a data information block is accepted exactly when its DIFE chain ends within the data
after at most eleven DIFEs, and its DIFEs are exactly the bytes linked by the extension bits. -/
theorem C16_accepts_iff (data : List UInt8) (b : DIB) : DIB.tryFrom data = .ok b ↔
    (∃ dif rest, data = dif :: rest ∧ dif.toNat < 128 ∧ b = ⟨dif, none⟩) ∨
    (∃ dif difes rest, data = dif :: (difes ++ rest) ∧ 128 ≤ dif.toNat ∧ Chain difes ∧
      difes.length ≤ 11 ∧ b = ⟨dif, some difes⟩) := dib_ok data b

/-- C16: the three ways of being rejected: no data, a chain of eleven or more linked DIFEs that
goes on, and a shorter chain cut off by the end of the data. -/
theorem C16_rejects_iff (data : List UInt8) (e : DataInfoError) : DIB.tryFrom data = .err e ↔
    (data = [] ∧ e = .noData) ∨
    (∃ dif rest, data = dif :: rest ∧ 128 ≤ dif.toNat ∧ 11 ≤ rest.length ∧
      (∀ b ∈ rest.take 11, 128 ≤ b.toNat) ∧ e = .dataTooLong) ∨
    (∃ dif rest, data = dif :: rest ∧ 128 ≤ dif.toNat ∧ rest.length ≤ 10 ∧
      (∀ b ∈ rest, 128 ≤ b.toNat) ∧ e = .dataTooShort) := dib_err data e

/-- C16: parsing a data information block never panics. -/
theorem C16_never_panics (data : List UInt8) : DIB.tryFrom data ≠ .panic := dib_ne_panic data

/-- C16: the size of an accepted block is one plus the number of DIFEs, lies within the data, and
interpreting the block succeeds and reports the same size. -/
theorem C16_size (data : List UInt8) (b : DIB) (h : DIB.tryFrom data = .ok b) :
    b.size = 1 + (b.difes.getD []).length ∧ b.size ≤ data.length ∧
      data.take b.size = b.dif :: b.difes.getD [] ∧
      ∃ d, DataInfo.tryFrom b = .ok d ∧ d.size = b.size := by
  rw [dib_ok] at h
  rcases h with ⟨dif, rest, rfl, _, rfl⟩ | ⟨dif, difes, rest, rfl, _, _, hl, rfl⟩
  · obtain ⟨d, hd, _, _, _, _, _, hs⟩ := dataInfo_ok ⟨dif, none⟩ (by simp)
    exact ⟨rfl, by simp [DIB.size], by simp [DIB.size], d, hd, by rw [hs]; rfl⟩
  · obtain ⟨d, hd, _, _, _, _, _, hs⟩ := dataInfo_ok ⟨dif, some difes⟩ (by simpa using hl)
    refine ⟨rfl, by simp [DIB.size]; omega, ?_, d, hd, by rw [hs]; rfl⟩
    simp [DIB.size, Nat.add_comm 1]

/-- A DIF with two DIFEs followed by a VIF. -/
example : DIB.tryFrom [0x84, 0x90, 0x40, 0x13] = .ok ⟨0x84, some [0x90, 0x40]⟩ ∧
    Chain [0x90, 0x40] ∧
    DIB.tryFrom (0x84 :: List.replicate 11 0x80) = .err .dataTooLong ∧
    DIB.tryFrom (0x84 :: List.replicate 10 0x80) = .err .dataTooShort ∧
    DIB.tryFrom (0x84 :: (List.replicate 10 0x80 ++ [0])) =
      .ok ⟨0x84, some (List.replicate 10 0x80 ++ [0])⟩ := by
  refine ⟨by decide +kernel, .more _ _ (by decide) (.last _ (by decide)), ?_⟩
  decide +kernel

/-! ## C17 -/

/-- C17, what the code computes: the DIFE nibbles are placed three bits too high: the first one
lands at bit 5 instead of bit 1. -/
theorem C17_storage_computed (data : List UInt8) (b : DIB) (d : DataInfo)
    (h : DIB.tryFrom data = .ok b) (hd : DataInfo.tryFrom b = .ok d) :
    d.storageNumber = b.dif.toNat / 64 % 2 + 32 * storageBits (b.difes.getD []) := by
  obtain ⟨d', hd', hs, _⟩ := dataInfo_ok b (by
    rw [dib_ok] at h
    rcases h with ⟨_, _, _, _, rfl⟩ | ⟨_, _, _, _, _, _, hl, rfl⟩ <;> simp_all)
  rw [hd'] at hd; cases hd
  exact hs

/-- C17, what holds of the statement: the storage number is the one of EN 13757-3 exactly when all
storage bits of the DIFEs are zero.  Missing: every record that uses a DIFE storage bit gets a wrong
storage number, see `C17_fails`. -/
theorem C17_storage_number_partial (data : List UInt8) (b : DIB) (d : DataInfo)
    (h : DIB.tryFrom data = .ok b) (hd : DataInfo.tryFrom b = .ok d) :
    d.storageNumber = storageNumber b.dif (b.difes.getD []) ↔ storageBits (b.difes.getD []) = 0 := by
  rw [C17_storage_computed data b d h hd]
  unfold storageNumber
  omega

/-- C17 is false of the code: the standard block 84 01 (storage number 2) is reported as storage
number 32. -/
theorem C17_fails : ∃ data b d, DIB.tryFrom data = .ok b ∧ DataInfo.tryFrom b = .ok d ∧
    storageNumber b.dif (b.difes.getD []) = 2 ∧ d.storageNumber = 32 :=
  ⟨[0x84, 0x01], ⟨0x84, some [0x01]⟩,
    ⟨32, 0, 0, .instantaneousValue, .integer32, false, 2⟩, by decide +kernel⟩

/-- The block C4 (storage bit in the DIF only) is reported correctly. -/
example : storageNumber 0xC4 [0x10] = 1 ∧ storageBits [0x10] = 0 ∧
    (DataInfo.tryFrom ⟨0xC4, some [0x10]⟩).toOption.map (·.storageNumber) = some 1 := by
  decide +kernel

/-! ## C18 -/

/-- C18: for every chain, the tariff is made of the two-bit groups and the subunit of the single
bits of the DIFEs, least significant DIFE first. -/
theorem C18_tariff_and_subunit (data : List UInt8) (b : DIB) (d : DataInfo)
    (h : DIB.tryFrom data = .ok b) (hd : DataInfo.tryFrom b = .ok d) :
    d.tariff = tariffNumber (b.difes.getD []) ∧ d.device = subunitNumber (b.difes.getD []) := by
  obtain ⟨d', hd', _, ht, hv, _⟩ := dataInfo_ok b (by
    rw [dib_ok] at h
    rcases h with ⟨_, _, _, _, rfl⟩ | ⟨_, _, _, _, _, _, hl, rfl⟩ <;> simp_all)
  rw [hd'] at hd; cases hd
  exact ⟨ht, hv⟩

/-- C18: the three numbers fit the Rust `u64` they are stored in, so no bit is lost and the
arithmetic cannot overflow. -/
theorem C18_fields_fit_in_u64 (data : List UInt8) (b : DIB) (d : DataInfo)
    (h : DIB.tryFrom data = .ok b) (hd : DataInfo.tryFrom b = .ok d) :
    d.storageNumber < 2 ^ 50 ∧ d.tariff < 2 ^ 22 ∧ d.device < 2 ^ 11 := by
  have hl : (b.difes.getD []).length ≤ 11 := by
    rw [dib_ok] at h
    rcases h with ⟨_, _, _, _, rfl⟩ | ⟨_, _, _, _, _, _, hl, rfl⟩ <;> simp_all
  rw [C17_storage_computed data b d h hd, (C18_tariff_and_subunit data b d h hd).1,
    (C18_tariff_and_subunit data b d h hd).2]
  have h1 := storageBits_lt (b.difes.getD [])
  have h2 := tariffNumber_lt (b.difes.getD [])
  have h3 := subunitNumber_lt (b.difes.getD [])
  have e1 : 16 ^ (b.difes.getD []).length ≤ 16 ^ 11 := Nat.pow_le_pow_right (by omega) hl
  have e2 : 4 ^ (b.difes.getD []).length ≤ 4 ^ 11 := Nat.pow_le_pow_right (by omega) hl
  have e3 : 2 ^ (b.difes.getD []).length ≤ 2 ^ 11 := Nat.pow_le_pow_right (by omega) hl
  norm_num at *
  omega

example : DataInfo.tryFrom ⟨0x84, some [0x90, 0x60]⟩ =
      .ok ⟨0, 9, 2, .instantaneousValue, .integer32, false, 3⟩ ∧
    tariffNumber [0x90, 0x60] = 9 ∧ subunitNumber [0x90, 0x60] = 2 := by decide +kernel

/-! ## C58 -/

/-- C58: for each of the 256 DIF values the function field is the one selected by bits 4 and 5, and
the coding is the one selected by the low nibble; the codes 0F, 1F, 2F and 7F are the special
functions of EN 13757-3 and all other codes ending in F are reserved. -/
theorem C58_dif_table (dif : UInt8) :
    functions[dif.toNat / 16 % 4]? = some (functionFieldOf dif) ∧
      (dif.toNat % 16 ≠ 15 → codings[dif.toNat % 16]? = some (codingOf dif)) ∧
      (dif.toNat % 16 = 15 → codingOf dif = .specialFunctions
        (match dif.toNat / 16 with
          | 0 => .manufacturerSpecific
          | 1 => .moreRecordsFollow
          | 2 => .idleFiller
          | 7 => .globalReadoutRequest
          | _ => .reserved)) := by
  revert dif; decide +kernel

/-- C58: these are the function and coding reported for every accepted block. -/
theorem C58_dif_reported (data : List UInt8) (b : DIB) (d : DataInfo)
    (h : DIB.tryFrom data = .ok b) (hd : DataInfo.tryFrom b = .ok d) :
    data.head? = some b.dif ∧ d.functionField = functionFieldOf b.dif ∧ d.coding = codingOf b.dif := by
  obtain ⟨d', hd', _, _, _, hf, hc, _⟩ := dataInfo_ok b (by
    rw [dib_ok] at h
    rcases h with ⟨_, _, _, _, rfl⟩ | ⟨_, _, _, _, _, _, hl, rfl⟩ <;> simp_all)
  rw [hd'] at hd; cases hd
  refine ⟨?_, hf, hc⟩
  rw [dib_ok] at h
  rcases h with ⟨_, _, rfl, _, rfl⟩ | ⟨_, _, _, rfl, _, _, _, rfl⟩ <;> rfl

example : functionFieldOf 0x2C = .minimumValue ∧ codingOf 0x2C = .bcd8 ∧
    codingOf 0x2F = .specialFunctions .idleFiller := by decide +kernel

/-! ## C23 -/

/-- C23: the integer codings yield the two's complement value of their data bytes, rounded to
`f64`, and are rejected exactly when bytes are missing. -/
theorem C23_integer_value (cfg : Cfg) (lsb : Bool) (c : Coding) (n : Nat) (data : List UInt8)
    (hc : integerWidth c = some n) :
    c.parse cfg lsb data =
      if data.length < n then .err .insufficientData
      else .ok ⟨some (.number (.int (roundF64 (twosComplement (data.take n))))), n⟩ := by
  have key : ∀ n, 0 < n → n ≤ 8 → integerChecked cfg data n =
      if data.length < n then .err .insufficientData
      else .ok ⟨some (.number (.int (roundF64 (twosComplement (data.take n))))), n⟩ := by
    intro n hp hn
    unfold integerChecked
    by_cases hl : data.length < n
    · simp [hl]
    · rw [if_neg hl, if_neg hl, integerToValue_eq cfg data n (by omega) hp, if_neg (by omega)]; rfl
  cases c <;> simp only [integerWidth, reduceCtorEq, Option.some.injEq] at hc <;> subst hc <;>
    exact key _ (by omega) (by omega)

/-- C23: up to six bytes nothing is lost to rounding. -/
theorem C23_exact_up_to_48_bits (cfg : Cfg) (lsb : Bool) (c : Coding) (n : Nat) (data : List UInt8)
    (hc : integerWidth c = some n) (hn : n ≤ 6) (hl : n ≤ data.length) :
    c.parse cfg lsb data = .ok ⟨some (.number (.int (twosComplement (data.take n)))), n⟩ := by
  rw [C23_integer_value cfg lsb c n data hc, if_neg (by omega), roundF64_small]
  have hb := twosComplement_bound (data.take n)
  rw [List.length_take, Nat.min_eq_left hl] at hb
  have : (256 : Int) ^ n ≤ 256 ^ 6 := by
    have := Nat.pow_le_pow_right (show 256 > 0 by omega) hn
    exact_mod_cast this
  norm_num at this ⊢
  omega

/-- C23: the 64-bit value is rounded to a nearest `f64`. -/
theorem C23_rounding_is_nearest (v : Int) : Nearest v (roundF64 v) := roundF64_nearest v

/-- C23, round trip: every integer of the coding's range, encoded in two's complement and followed
by anything, is decoded to itself (64-bit ones when they are representable in an `f64`). -/
theorem C23_round_trip (cfg : Cfg) (lsb : Bool) (c : Coding) (n : Nat) (v : Int)
    (suffix : List UInt8) (hc : integerWidth c = some n)
    (h1 : -(256 ^ n : Int) ≤ 2 * v) (h2 : 2 * v < 256 ^ n) (hr : Representable v) :
    c.parse cfg lsb (encodeLe n v ++ suffix) = .ok ⟨some (.number (.int v)), n⟩ := by
  have hl := encodeLe_length n v
  rw [C23_integer_value cfg lsb c n _ hc, if_neg (by simp [hl]),
    List.take_append_of_le_length (by omega), List.take_of_length_le (by omega),
    twosComplement_encodeLe n v h1 h2]
  have := (roundF64_nearest v).2 v hr
  have e : roundF64 v = v := by omega
  rw [e]

/-- C23: every integer of at most six bytes is representable, so the round trip holds for the whole
range of these codings. -/
theorem C23_representable (n : Nat) (v : Int) (hn : n ≤ 6)
    (h1 : -(256 ^ n : Int) ≤ 2 * v) (h2 : 2 * v < 256 ^ n) : Representable v := by
  refine ⟨v, 0, by simp, ?_⟩
  have : (256 : Int) ^ n ≤ 256 ^ 6 := by
    have := Nat.pow_le_pow_right (show 256 > 0 by omega) hn
    exact_mod_cast this
  norm_num at this ⊢
  omega

/-- C23: the 32-bit real coding keeps the little-endian bit pattern and is rejected exactly when
fewer than four bytes are available. -/
theorem C23_real32 (cfg : Cfg) (lsb : Bool) (b0 b1 b2 b3 : UInt8) (suffix : List UInt8) :
    ∃ bits : UInt32, Coding.real32.parse cfg lsb (b0 :: b1 :: b2 :: b3 :: suffix) =
        .ok ⟨some (.number (.real32 bits)), 4⟩ ∧ bits.toNat = leValue [b0, b1, b2, b3] := by
  refine ⟨_, rfl, ?_⟩
  have h0 := b0.toNat_lt
  have h1 := b1.toNat_lt
  have h2 := b2.toNat_lt
  have h3 := b3.toNat_lt
  simp only [UInt32.toNat_or, UInt32.toNat_shiftLeft, UInt8.toNat_toUInt32, leValue]
  change b0.toNat ||| (b1.toNat <<< 8) % 2 ^ 32 ||| (b2.toNat <<< 16) % 2 ^ 32 |||
    (b3.toNat <<< 24) % 2 ^ 32 = _
  simp only [Nat.shiftLeft_eq]
  rw [Nat.mod_eq_of_lt (by omega), Nat.mod_eq_of_lt (by omega), Nat.mod_eq_of_lt (by omega),
    ← Nat.shiftLeft_eq, ← Nat.shiftLeft_eq, ← Nat.shiftLeft_eq,
    or_shift_add _ _ 8 (by omega), or_shift_add _ _ 16 (by omega), or_shift_add _ _ 24 (by omega)]
  omega

theorem C23_real32_truncated (cfg : Cfg) (lsb : Bool) (data : List UInt8) (h : data.length < 4) :
    Coding.real32.parse cfg lsb data = .err .insufficientData := by
  match data with
  | [] | [_] | [_, _] | [_, _, _] => rfl
  | _ :: _ :: _ :: _ :: _ => simp at h; omega

example : Coding.integer16.parse cfgDebug false [0xFE, 0xFF, 0x13] =
      .ok ⟨some (.number (.int (-2))), 2⟩ ∧ encodeLe 2 (-2) = [0xFE, 0xFF] ∧
    Coding.integer24.parse cfgRelease true [0x01, 0x02] = .err .insufficientData ∧
    Coding.integer64.parse cfgDebug false [1, 0, 0, 0, 0, 0, 0x20, 0] =
      .ok ⟨some (.number (.int (2 ^ 53))), 8⟩ := by decide +kernel

/-! ## C24 -/

/-- C24: BCD fields are accepted exactly when enough bytes are present and every nibble is a
decimal digit; the value is the decimal number they spell, least significant byte first, or most
significant byte first when the frame's byte order flag is set. -/
theorem C24_bcd_value (cfg : Cfg) (lsb : Bool) (c : Coding) (n : Nat) (data : List UInt8)
    (hc : bcdWidth c = some n) :
    c.parse cfg lsb data =
      if data.length < n then .err .insufficientData
      else if ∀ b ∈ data.take n, IsBcd b then
        .ok ⟨some (.number (.int (bcdValue (if lsb then (data.take n).reverse else data.take n)))), n⟩
      else .err (.dataInformation .invalidValueInformation) := by
  have key : ∀ n, n ≤ 7 → bcdToValue data (2 * n) 1 lsb =
      if data.length < n then .err .insufficientData
      else if ∀ b ∈ data.take n, IsBcd b then
        .ok ⟨some (.number (.int (bcdValue (if lsb then (data.take n).reverse else data.take n)))), n⟩
      else .err (.dataInformation .invalidValueInformation) := by
    intro n hn
    rw [bcdToValue_eq]
    by_cases hl : data.length < n
    · rw [if_pos hl, if_pos hl]
    rw [if_neg hl, if_neg hl]
    by_cases hb : ∀ b ∈ data.take n, IsBcd b
    · rw [if_pos hb, if_pos hb]
      have := bcdAcc_exact (bcdOrder lsb (data.take n)) 0 0
        (by unfold bcdOrder; cases lsb <;> simpa using hb) (by simp)
        (by unfold bcdOrder; cases lsb <;> simp <;> omega)
      simp only [Nat.mul_zero, pow_zero, Nat.cast_zero, Nat.zero_add, Nat.one_mul] at this
      rw [this]
      simp [F64.withSign, bcdOrder]
    · rw [if_neg hb, if_neg hb]
  cases c <;> simp only [bcdWidth, reduceCtorEq, Option.some.injEq] at hc <;> subst hc
  · exact key 1 (by omega)
  · exact key 2 (by omega)
  · exact key 3 (by omega)
  · exact key 4 (by omega)
  · exact key 6 (by omega)

/-- C24, round trip: every number with at most as many digits as the field, encoded in BCD, is
decoded to itself. -/
theorem C24_round_trip (cfg : Cfg) (lsb : Bool) (c : Coding) (n v : Nat) (suffix : List UInt8)
    (hc : bcdWidth c = some n) (hv : v < 100 ^ n) :
    c.parse cfg lsb ((if lsb then (encodeBcd n v).reverse else encodeBcd n v) ++ suffix) =
      .ok ⟨some (.number (.int v)), n⟩ := by
  have hl := encodeBcd_length n v
  have hb := encodeBcd_isBcd n v
  rw [C24_bcd_value cfg lsb c n _ hc]
  have ht : ((if lsb then (encodeBcd n v).reverse else encodeBcd n v) ++ suffix).take n =
      if lsb then (encodeBcd n v).reverse else encodeBcd n v := by
    rw [List.take_append_of_le_length (by cases lsb <;> simp [hl]), List.take_of_length_le]
    cases lsb <;> simp [hl]
  rw [ht, if_neg (by cases lsb <;> simp [hl]), if_pos (by cases lsb <;> simpa using hb)]
  have hval := bcdValue_encodeBcd n v
  rw [Nat.mod_eq_of_lt hv] at hval
  cases lsb <;> simp [hval]

example : Coding.bcd4.parse cfgDebug false [0x34, 0x12] = .ok ⟨some (.number (.int 1234)), 2⟩ ∧
    Coding.bcd4.parse cfgDebug true [0x34, 0x12] = .ok ⟨some (.number (.int 3412)), 2⟩ ∧
    encodeBcd 2 1234 = [0x34, 0x12] ∧
    Coding.bcd4.parse cfgDebug false [0x3A, 0x12] =
      .err (.dataInformation .invalidValueInformation) := by decide +kernel

/-! ## C25 -/

/-- C25: a type G date is read from bits 0-4 (day), 8-11 (month) and the seven-bit year split over
bits 5-7 and 12-15; day 0 and year 127 mean "every", months outside 1..12 are invalid. -/
theorem C25_date_g (cfg : Cfg) (lsb : Bool) (b0 b1 : UInt8) (suffix : List UInt8) :
    ∃ day year, Coding.dateTypeG.parse cfg lsb (b0 :: b1 :: suffix) =
        .ok ⟨some (.date day (monthOf (b1.toNat % 16)) year), 2⟩ ∧
      sei8 day = orEvery (b0.toNat % 32) 0 ∧ sei16 year = orEvery (yearBits b0 b1) 127 := by
  refine ⟨parseSingleOrEvery b0 0x1F 0, parseYear (b0 :: b1 :: suffix), ?_, ?_, ?_⟩
  · rw [← parseMonth_eq]; rfl
  · rw [sei8_parse, mask5]; rfl
  · rw [parseYear_eq]; rfl

theorem C25_date_g_truncated (cfg : Cfg) (lsb : Bool) (data : List UInt8) (h : data.length < 2) :
    Coding.dateTypeG.parse cfg lsb data = .err .insufficientData := by
  match data with
  | [] | [_] => rfl
  | _ :: _ :: _ => simp at h; omega

/-- C25, round trip: every date with a day 1..31, a month 1..12 and a two-digit year is decoded to
itself. -/
theorem C25_round_trip (cfg : Cfg) (lsb : Bool) (d m y : Nat) (suffix : List UInt8)
    (hd : 1 ≤ d ∧ d ≤ 31) (hm : 1 ≤ m ∧ m ≤ 12) (hy : y < 127) :
    ∃ day month year, Coding.dateTypeG.parse cfg lsb (encodeDateG d m y ++ suffix) =
        .ok ⟨some (.date day (.single month) year), 2⟩ ∧
      sei8 day = .single d ∧ months[m - 1]? = some month ∧ sei16 year = .single y := by
  obtain ⟨day, year, hp, h1, h2⟩ := C25_date_g cfg lsb (UInt8.ofNat (d + 32 * (y % 8)))
    (UInt8.ofNat (m + 16 * (y / 8))) suffix
  have e0 : (UInt8.ofNat (d + 32 * (y % 8))).toNat = d + 32 * (y % 8) := by
    rw [UInt8.toNat_ofNat']; exact Nat.mod_eq_of_lt (by omega)
  have e1 : (UInt8.ofNat (m + 16 * (y / 8))).toNat = m + 16 * (y / 8) := by
    rw [UInt8.toNat_ofNat']; exact Nat.mod_eq_of_lt (by omega)
  rw [e0] at h1
  rw [e1, show (m + 16 * (y / 8)) % 16 = m by omega] at hp
  unfold yearBits at h2
  rw [e0, e1, show (d + 32 * (y % 8)) / 32 + 8 * ((m + 16 * (y / 8)) / 16) = y by omega] at h2
  have hmon : ∃ month, monthOf m = .single month ∧ months[m - 1]? = some month := by
    obtain ⟨ha, hb⟩ := hm
    interval_cases m <;> exact ⟨_, rfl, rfl⟩
  obtain ⟨month, hm1, hm2⟩ := hmon
  rw [hm1] at hp
  refine ⟨day, month, year, hp, ?_, hm2, ?_⟩
  · rw [h1]; unfold orEvery; rw [if_neg (by omega)]; congr 1; omega
  · rw [h2]; unfold orEvery; rw [if_neg (by omega)]

/-- 29 December 2024, and "every day of every year in an invalid month". -/
example : Coding.dateTypeG.parse cfgDebug false [0x1D, 0x3C] =
      .ok ⟨some (.date (.single 29) (.single .december) (.single 24)), 2⟩ ∧
    encodeDateG 29 12 24 = [0x1D, 0x3C] ∧
    Coding.dateTypeG.parse cfgDebug false [0xE0, 0xFF] =
      .ok ⟨some (.date .every .invalid .every), 2⟩ := by decide +kernel

/-! ## C26 -/

/-- C26, the part that holds: minute, hour, day and month of a type F value are the bits EN 13757-3
assigns to them, with the all-ones codes read as "every".  Missing: the year, and day 31 / day 0,
see `C26_year_fails` and `C26_day_fails`. -/
theorem C26_type_f_partial (cfg : Cfg) (lsb : Bool) (b0 b1 b2 b3 : UInt8) (suffix : List UInt8) :
    ∃ day year hour minute, Coding.dateTimeTypeF.parse cfg lsb (b0 :: b1 :: b2 :: b3 :: suffix) =
        .ok ⟨some (.dateTime day (monthOf (b3.toNat % 16)) year hour minute), 4⟩ ∧
      sei8 minute = orEvery (b0.toNat % 64) 63 ∧ sei8 hour = orEvery (b1.toNat % 32) 31 ∧
      sei8 day = orEvery (b2.toNat % 32) 31 ∧
      sei16 year = orEvery (yearBits b0 b1) 127 := by
  refine ⟨_, _, _, _, by rw [← parseMonth_eq]; rfl, ?_, ?_, ?_, ?_⟩
  · rw [sei8_parse, mask6]; rfl
  · rw [sei8_parse, mask5]; rfl
  · rw [sei8_parse, mask5]; rfl
  · rw [parseYear_eq]; rfl

/-- C26, the part that holds for type I (date and time with seconds). -/
theorem C26_type_i_partial (cfg : Cfg) (lsb : Bool) (b0 b1 b2 b3 b4 b5 : UInt8)
    (suffix : List UInt8) :
    ∃ day year hour minute second,
      Coding.dateTimeTypeI.parse cfg lsb (b0 :: b1 :: b2 :: b3 :: b4 :: b5 :: suffix) =
        .ok ⟨some (.dateTimeWithSeconds day (monthOf (b4.toNat % 16)) year hour minute second), 6⟩ ∧
      sei8 second = orEvery (b0.toNat % 64) 63 ∧ sei8 minute = orEvery (b1.toNat % 64) 63 ∧
      sei8 hour = orEvery (b2.toNat % 32) 31 ∧ sei8 day = orEvery (b3.toNat % 32) 31 ∧
      sei16 year = orEvery (yearBits b0 b1) 127 := by
  refine ⟨_, _, _, _, _, by rw [← parseMonth_eq]; rfl, ?_, ?_, ?_, ?_, ?_⟩
  · rw [sei8_parse, mask6]; rfl
  · rw [sei8_parse, mask6]; rfl
  · rw [sei8_parse, mask5]; rfl
  · rw [sei8_parse, mask5]; rfl
  · rw [parseYear_eq]; rfl

/-- C26: the reported year is the one of the date exactly when the minute and hour bytes happen to
carry the same bits as the day and month bytes. -/
theorem C26_year_correct_iff (b0 b1 b2 b3 : UInt8) :
    yearBits b0 b1 = yearBits b2 b3 ↔
      b0.toNat / 32 = b2.toNat / 32 ∧ b1.toNat / 16 = b3.toNat / 16 := by
  have h0 := b0.toNat_lt
  have h2 := b2.toNat_lt
  unfold yearBits
  omega

/-- C26 is false of the code: 29 December 2024, 12:30 is reported with year 0. -/
theorem C26_year_fails : ∃ b0 b1 b2 b3 : UInt8, yearBits b2 b3 = 24 ∧
    Coding.dateTimeTypeF.parse cfgRelease false [b0, b1, b2, b3] =
      .ok ⟨some (.dateTime (.single 29) (.single .december) (.single 0) (.single 12) (.single 30)), 4⟩ :=
  ⟨30, 12, 0x1D, 0x3C, by decide +kernel⟩

/-- C26 is false of the code: day 31 is reported as "every day" and day 0 ("every day" in the
standard) as a day number 0. -/
theorem C26_day_fails :
    (∃ m y h n, Coding.dateTimeTypeF.parse cfgRelease false [30, 12, 0x1F, 0x3C] =
      .ok ⟨some (.dateTime .every m y h n), 4⟩) ∧
    (∃ m y h n, Coding.dateTimeTypeF.parse cfgRelease false [30, 12, 0x00, 0x3C] =
      .ok ⟨some (.dateTime (.single 0) m y h n), 4⟩) :=
  ⟨⟨_, _, _, _, rfl⟩, ⟨_, _, _, _, rfl⟩⟩

example : Coding.dateTimeTypeI.parse cfgDebug false [15, 30, 12, 0x1D, 0x3C, 0] =
      .ok ⟨some (.dateTimeWithSeconds (.single 29) (.single .december) (.single 8) (.single 12)
        (.single 30) (.single 15)), 6⟩ := by decide +kernel

/-! ## C31 -/

/-- C31: an LVAR byte whose announced bytes are missing is rejected. -/
theorem C31_truncated (cfg : Cfg) (lsb : Bool) (b : UInt8) (rest : List UInt8) (kind : LvarKind)
    (n : Nat) (hk : lvar b = some (kind, n)) (hl : rest.length < n) :
    Coding.variableLength.parse cfg lsb (b :: rest) = .err .insufficientData := by
  have hb := b.toNat_lt
  unfold lvar at hk
  simp only [Coding.parse, parseVariableLength, List.head?_cons, Res.ofOption_some, Res.bind_ok]
  simp only at hk
  split at hk
  · simp only [Option.some.injEq, Prod.mk.injEq] at hk
    rw [if_pos (by omega), slice1, if_neg (by omega)]; rfl
  rw [if_neg (by omega)]
  split at hk
  · simp only [Option.some.injEq, Prod.mk.injEq] at hk
    rw [if_pos (by omega), slice1, if_neg (by omega)]; rfl
  rw [if_neg (by omega)]
  split at hk
  · simp only [Option.some.injEq, Prod.mk.injEq] at hk
    rw [if_pos (by omega), slice1, if_neg (by omega)]; rfl
  rw [if_neg (by omega)]
  split at hk
  · simp only [Option.some.injEq, Prod.mk.injEq] at hk
    rw [if_pos (by omega), slice1, if_neg (by omega)]; rfl
  rw [if_neg (by omega)]
  split at hk
  · simp only [Option.some.injEq, Prod.mk.injEq] at hk
    rw [if_pos (by omega), slice1, if_neg (by omega)]; rfl
  rw [if_neg (by omega)]
  split at hk
  · simp only [Option.some.injEq, Prod.mk.injEq] at hk
    rw [if_pos (by omega), slice1, if_neg (by omega)]; rfl
  rw [if_neg (by omega)]
  split at hk
  · simp only [Option.some.injEq, Prod.mk.injEq] at hk
    rw [if_pos (by omega), slice1, if_neg (by omega)]; rfl
  · simp at hk

/-- C31: text fields return exactly the announced bytes. -/
theorem C31_text (cfg : Cfg) (lsb : Bool) (b : UInt8) (rest : List UInt8) (n : Nat)
    (hk : lvar b = some (.text, n)) (hl : n ≤ rest.length) :
    Coding.variableLength.parse cfg lsb (b :: rest) = .ok ⟨some (.text (rest.take n)), n + 1⟩ := by
  rw [lvar_parse cfg lsb b rest _ n hk hl]
  simp [lvarValue, addLvarByte, hl]

/-- C31: BCD fields are accepted exactly when every nibble of the announced bytes is a digit; up to
seven bytes the value is the decimal number, negated for the codes D0-D9 (a zero keeps its minus
sign). -/
theorem C31_bcd (cfg : Cfg) (lsb neg : Bool) (b : UInt8) (rest : List UInt8) (n : Nat)
    (hk : lvar b = some (if neg then .negativeBcd else .positiveBcd, n)) (hl : n ≤ rest.length) :
    (¬ (∀ x ∈ rest.take n, IsBcd x) → Coding.variableLength.parse cfg lsb (b :: rest) =
      .err (.dataInformation .invalidValueInformation)) ∧
    ((∀ x ∈ rest.take n, IsBcd x) → ∃ v : Int, Coding.variableLength.parse cfg lsb (b :: rest) =
        .ok ⟨some (.number (if v = 0 ∧ neg then .negZero else .int (if neg then -v else v))), n + 1⟩ ∧
      (n ≤ 7 → v = bcdValue (if lsb then (rest.take n).reverse else rest.take n)) ∧
      (n = 8 → Nearest (bcdValue (if lsb then (rest.take n).reverse else rest.take n)) v)) := by
  rw [lvar_parse cfg lsb b rest _ n hk hl]
  have hlen : (rest.take n).length = n := by simp [hl]
  have htt : (rest.take n).take n = rest.take n := by rw [List.take_take, Nat.min_self]
  have hval : lvarValue cfg lsb (if neg then .negativeBcd else .positiveBcd) (rest.take n) =
      bcdToValue (rest.take n) (2 * n) (if neg then -1 else 1) lsb := by
    cases neg <;> simp [lvarValue, hl]
  rw [hval, bcdToValue_eq, if_neg (by omega), htt]
  constructor
  · intro hb; rw [if_neg hb]; rfl
  · intro hb
    rw [if_pos hb]
    have hb' : ∀ x ∈ bcdOrder lsb (rest.take n), IsBcd x := by
      unfold bcdOrder; cases lsb <;> simpa using hb
    have hlen' : (bcdOrder lsb (rest.take n)).length = n := by
      unfold bcdOrder; cases lsb <;> simp [hl]
    refine ⟨bcdAcc (bcdOrder lsb (rest.take n)) 0 1, ?_, ?_, ?_⟩
    · cases neg
      · simp [addLvarByte, F64.withSign]
      · simp [addLvarByte, F64.withSign]
    · intro hn
      have := bcdAcc_exact (bcdOrder lsb (rest.take n)) 0 0 hb' (by simp) (by omega)
      simp only [Nat.mul_zero, pow_zero, Nat.cast_zero, Nat.zero_add, Nat.one_mul] at this
      rw [this]; rfl
    · intro hn
      have := bcdAcc_exact8 (bcdOrder lsb (rest.take n)) 0 0 hb' (by simp) (by omega)
        (by intro h; rw [h] at hlen'; simp at hlen'; omega)
      simp only [Nat.mul_zero, pow_zero, Nat.cast_zero, Nat.zero_add, Nat.one_mul] at this
      rw [this]
      exact roundF64_nearest _

/-- C31: integer fields of one to eight bytes are two's complement numbers; longer ones are read
as the two's complement value of their eight low bytes and marked as lossy. -/
theorem C31_binary (cfg : Cfg) (lsb : Bool) (b : UInt8) (rest : List UInt8) (n : Nat)
    (hk : lvar b = some (.binary, n)) (hn : 0 < n) (hl : n ≤ rest.length) :
    Coding.variableLength.parse cfg lsb (b :: rest) =
      .ok ⟨some (if n ≤ 8 then .number (.int (roundF64 (twosComplement (rest.take n))))
        else .lossyNumber (.int (roundF64 (twosComplement (rest.take 8))))), n + 1⟩ := by
  rw [lvar_parse cfg lsb b rest _ n hk hl]
  have hlen : (rest.take n).length = n := by simp [hl]
  simp only [lvarValue, integerChecked]
  rw [if_neg (by omega), hlen, integerToValue_eq cfg _ n (by omega) hn]
  by_cases h8 : n ≤ 8
  · rw [if_pos h8, if_neg (by omega)]
    simp [addLvarByte, F64.ofInt, List.take_take]
  · rw [if_neg h8, if_pos (by omega), List.take_take, Nat.min_eq_left (by omega)]
    simp [addLvarByte, F64.ofInt]

/-- C31: the zero-byte integer E0 makes a build with overflow checks panic; without them its value
is 0. -/
theorem C31_empty_integer (cfg : Cfg) (lsb : Bool) (rest : List UInt8) :
    Coding.variableLength.parse cfg lsb (0xE0 :: rest) =
      if cfg.overflowChecks then .panic else .ok ⟨some (.number (.int 0)), 1⟩ := by
  rw [lvar_parse cfg lsb 0xE0 rest .binary 0 (by decide +kernel) (by simp)]
  simp only [lvarValue, integerChecked, List.take_zero, List.length_nil, Nat.lt_irrefl, if_false]
  obtain ⟨oc, pf⟩ := cfg
  cases oc <;> cases pf <;> decide +kernel

/-- C31: the reserved LVAR codes (and an absent LVAR byte) are rejected. -/
theorem C31_reserved (cfg : Cfg) (lsb : Bool) (b : UInt8) (rest : List UInt8)
    (hk : lvar b = none) : ∃ m, Coding.variableLength.parse cfg lsb (b :: rest) =
      .err (.dataInformation (.unimplemented m)) := by
  have hb := b.toNat_lt
  unfold lvar at hk
  simp only [Coding.parse, parseVariableLength, List.head?_cons, Res.ofOption_some, Res.bind_ok]
  simp only at hk
  repeat (split at hk; · simp at hk)
  exact ⟨_, by rw [if_neg (by omega), if_neg (by omega), if_neg (by omega), if_neg (by omega),
    if_neg (by omega), if_neg (by omega), if_neg (by omega)]⟩

/-- C31: whatever the kind, the number of consumed bytes of an accepted field is decided by the
LVAR byte alone. -/
theorem C31_consumed (cfg : Cfg) (lsb : Bool) (b : UInt8) (rest : List UInt8) (d : Data)
    (h : Coding.variableLength.parse cfg lsb (b :: rest) = .ok d) :
    ∃ kind n, lvar b = some (kind, n) ∧ d.size = n + 1 ∧ n ≤ rest.length := by
  cases hk : lvar b with
  | none =>
    obtain ⟨m, hm⟩ := C31_reserved cfg lsb b rest hk
    rw [hm] at h; simp at h
  | some kn =>
    obtain ⟨kind, n⟩ := kn
    refine ⟨kind, n, rfl, ?_, ?_⟩
    · by_cases hl : n ≤ rest.length
      · cases kind with
        | text => rw [C31_text cfg lsb b rest n hk hl] at h; cases h; rfl
        | positiveBcd =>
          have := C31_bcd cfg lsb false b rest n (by simpa using hk) hl
          by_cases hb : ∀ x ∈ rest.take n, IsBcd x
          · obtain ⟨v, hv, _⟩ := this.2 hb
            rw [hv] at h; cases h; rfl
          · rw [this.1 hb] at h; simp at h
        | negativeBcd =>
          have := C31_bcd cfg lsb true b rest n (by simpa using hk) hl
          by_cases hb : ∀ x ∈ rest.take n, IsBcd x
          · obtain ⟨v, hv, _⟩ := this.2 hb
            rw [hv] at h; cases h; rfl
          · rw [this.1 hb] at h; simp at h
        | binary =>
          by_cases hn : 0 < n
          · rw [C31_binary cfg lsb b rest n hk hn hl] at h; cases h; rfl
          · have hz : n = 0 := by omega
            subst hz
            have hE : b = 0xE0 := by
              revert hk; clear h hl; revert b; decide +kernel
            subst hE
            rw [C31_empty_integer] at h
            split at h
            · simp at h
            · cases h; rfl
      · rw [C31_truncated cfg lsb b rest kind n hk (by omega)] at h; simp at h
    · by_contra hl
      rw [C31_truncated cfg lsb b rest kind n hk (by omega)] at h; simp at h

example : lvar 0x03 = some (.text, 3) ∧ lvar 0xC2 = some (.positiveBcd, 2) ∧
    lvar 0xD2 = some (.negativeBcd, 2) ∧ lvar 0xE2 = some (.binary, 2) ∧
    lvar 0xF0 = some (.binary, 16) ∧ lvar 0xFF = none ∧
    Coding.variableLength.parse cfgDebug false [0x03, 0x41, 0x42, 0x43, 0x44] =
      .ok ⟨some (.text [0x41, 0x42, 0x43]), 4⟩ ∧
    Coding.variableLength.parse cfgDebug false [0xD2, 0x34, 0x12] =
      .ok ⟨some (.number (.int (-1234))), 3⟩ ∧
    Coding.variableLength.parse cfgDebug false [0xE2, 0xFE, 0xFF] =
      .ok ⟨some (.number (.int (-2))), 3⟩ := by decide +kernel

end MBus
