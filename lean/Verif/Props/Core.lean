import Verif.Lemmas.Core
/-!
# Properties of the shared core: C07-C10
-/
namespace MBus
open Spec

/-! ## C07 -/

/-- C07: an id is accepted exactly when it is the FLAG id of three letters, and the result is then
these letters. -/
theorem C07_manufacturer_from_id (id : UInt16) (code : ManufacturerCode) :
    ManufacturerCode.fromId id = .ok code ↔
      ∃ i j k, IsLetter i ∧ IsLetter j ∧ IsLetter k ∧ id.toNat = flagId i j k ∧
        code = letters i j k := by
  have hid := id.toNat_lt
  have e1 : (id / (32 * 32) + 64).toUInt8 = UInt8.ofNat (64 + id.toNat / 1024) := by
    apply UInt8.toNat_inj.mp
    simp [UInt16.toNat_add, UInt16.toNat_div]; omega
  have e2 : (id % (32 * 32) / 32 + 64).toUInt8 = UInt8.ofNat (64 + id.toNat % 1024 / 32) := by
    apply UInt8.toNat_inj.mp
    simp [UInt16.toNat_add, UInt16.toNat_div]; omega
  have e3 : (id % 32 + 64).toUInt8 = UInt8.ofNat (64 + id.toNat % 32) := by
    apply UInt8.toNat_inj.mp
    simp [UInt16.toNat_add]; omega
  have up : ∀ n, n < 64 → (isAsciiUppercase (UInt8.ofNat (64 + n)) = true ↔ IsLetter n) := by
    intro n hn
    simp [isAsciiUppercase, IsLetter, UInt8.le_iff_toNat_le]; omega
  unfold ManufacturerCode.fromId
  simp only [e1, e2, e3]
  constructor
  · intro h
    split at h
    · rename_i hc
      simp only [Bool.and_eq_true, up _ (show id.toNat / 1024 < 64 by omega),
        up _ (show id.toNat % 1024 / 32 < 64 by omega), up _ (show id.toNat % 32 < 64 by omega)] at hc
      refine ⟨_, _, _, hc.1.1, hc.1.2, hc.2, ?_, ?_⟩
      · unfold flagId; omega
      · cases h; rfl
    · cases h
  · rintro ⟨i, j, k, hi, hj, hk, hf, rfl⟩
    unfold flagId IsLetter at *
    have a1 : id.toNat / 1024 = i := by omega
    have a2 : id.toNat % 1024 / 32 = j := by omega
    have a3 : id.toNat % 32 = k := by omega
    rw [a1, a2, a3, if_pos]
    · rfl
    · simp only [Bool.and_eq_true, up i (by omega), up j (by omega), up k (by omega)]
      exact ⟨⟨hi, hj⟩, hk⟩

/-- `to_id` of three letters is their FLAG id. -/
theorem C07_manufacturer_to_id (i j k : Nat) (hi : IsLetter i) (hj : IsLetter j) (hk : IsLetter k) :
    (letters i j k).toId.toNat = flagId i j k := by
  unfold IsLetter at *
  have h : ∀ n, 1 ≤ n ∧ n ≤ 26 → ((UInt8.ofNat (64 + n)).toUInt16 - 64) = UInt16.ofNat n := by
    intro n hn
    apply UInt16.toNat_inj.mp
    simp [UInt16.toNat_sub]; omega
  simp only [ManufacturerCode.toId, letters, h i hi, h j hj, h k hk, flagId]
  simp; omega

/-- C07: `to_id` undoes `from_id`. -/
theorem C07_manufacturer_to_id_from_id (id : UInt16) (code : ManufacturerCode)
    (h : ManufacturerCode.fromId id = .ok code) : code.toId = id := by
  obtain ⟨i, j, k, hi, hj, hk, hf, rfl⟩ := (C07_manufacturer_from_id id code).1 h
  apply UInt16.toNat_inj.mp
  rw [C07_manufacturer_to_id i j k hi hj hk, hf]

/-- C07: `from_id` undoes `to_id` on every three-letter code. -/
theorem C07_manufacturer_from_id_to_id (i j k : Nat) (hi : IsLetter i) (hj : IsLetter j)
    (hk : IsLetter k) : ManufacturerCode.fromId (letters i j k).toId = .ok (letters i j k) :=
  (C07_manufacturer_from_id _ _).2 ⟨i, j, k, hi, hj, hk, C07_manufacturer_to_id i j k hi hj hk, rfl⟩

/-- C07: distinct accepted ids give distinct codes. -/
theorem C07_manufacturer_injective (id id' : UInt16) (code : ManufacturerCode)
    (h : ManufacturerCode.fromId id = .ok code) (h' : ManufacturerCode.fromId id' = .ok code) :
    id = id' := by
  rw [← C07_manufacturer_to_id_from_id id code h, ← C07_manufacturer_to_id_from_id id' code h']

/-- C07: any other id is reported back in the error; nothing panics. -/
theorem C07_manufacturer_rejects (id : UInt16) (h : ¬ ∃ c, ManufacturerCode.fromId id = .ok c) :
    ManufacturerCode.fromId id = .err (.invalidManufacturerCode id) := by
  unfold ManufacturerCode.fromId at *
  simp only at *
  split
  · rename_i hc; rw [if_pos hc] at h; exact absurd ⟨_, rfl⟩ h
  · rfl

example : ManufacturerCode.fromId 0x1EE6 = .ok ⟨71, 87, 70⟩ := by decide -- GWF
example : ManufacturerCode.fromId 0x9EE6 = .err (.invalidManufacturerCode 0x9EE6) := by decide

/-! ## C08 -/

/-- C08: the identification number is accepted exactly when all eight nibbles are decimal digits
and is then the number they spell. -/
theorem C08_bcd_id_accepts (d0 d1 d2 d3 : UInt8) (n : Nat) :
    bcdHexDigitsToU32 d0 d1 d2 d3 = .ok n ↔
      (IsBcd d0 ∧ IsBcd d1 ∧ IsBcd d2 ∧ IsBcd d3) ∧
      n = lo d0 + 10 * hi d0 + 100 * lo d1 + 1000 * hi d1 + 10000 * lo d2 + 100000 * hi d2 +
        1000000 * lo d3 + 10000000 * hi d3 := by
  rw [bcdHex_ok]
  simp only [bcdValue]
  constructor <;> (rintro ⟨h, rfl⟩; refine ⟨h, by omega⟩)

/-- C08: an accepted identification number has at most eight digits. -/
theorem C08_bcd_id_bound (d0 d1 d2 d3 : UInt8) (n : Nat)
    (h : bcdHexDigitsToU32 d0 d1 d2 d3 = .ok n) : n < 10 ^ 8 := by
  rw [C08_bcd_id_accepts] at h
  unfold IsBcd at h
  omega

/-- C08: re-encoding an accepted number gives the original four bytes. -/
theorem C08_bcd_id_reencode (d0 d1 d2 d3 : UInt8) (n : Nat)
    (h : bcdHexDigitsToU32 d0 d1 d2 d3 = .ok n) : decimalToBcd n = [d0, d1, d2, d3] := by
  rw [C08_bcd_id_accepts] at h
  unfold IsBcd at h
  rw [decimalToBcd_eq]
  have e : ∀ (v : Nat) (d : UInt8), v % 10 = lo d → v / 10 % 10 = hi d → bcdByte v = d := by
    intro v d h1 h2
    have := bcdByte_spec v
    exact byte_ext (by omega) (by omega)
  rw [e n d0 (by omega) (by omega), e (n / 100) d1 (by omega) (by omega),
    e (n / 100 / 100) d2 (by omega) (by omega), e (n / 100 / 100 / 100) d3 (by omega) (by omega)]

/-- C08: every number of at most eight digits survives encoding and decoding. -/
theorem C08_bcd_id_roundtrip (n : Nat) (h : n < 10 ^ 8) :
    ∃ d0 d1 d2 d3, decimalToBcd n = [d0, d1, d2, d3] ∧ bcdHexDigitsToU32 d0 d1 d2 d3 = .ok n := by
  refine ⟨_, _, _, _, decimalToBcd_eq n, ?_⟩
  rw [C08_bcd_id_accepts]
  have := bcdByte_spec n
  have := bcdByte_spec (n / 100)
  have := bcdByte_spec (n / 100 / 100)
  have := bcdByte_spec (n / 100 / 100 / 100)
  unfold IsBcd
  omega

/-- C08: distinct accepted byte strings are distinct numbers. -/
theorem C08_bcd_id_injective (a b c d a' b' c' d' : UInt8) (n : Nat)
    (h : bcdHexDigitsToU32 a b c d = .ok n) (h' : bcdHexDigitsToU32 a' b' c' d' = .ok n) :
    [a, b, c, d] = [a', b', c', d'] := by
  rw [← C08_bcd_id_reencode a b c d n h, ← C08_bcd_id_reencode a' b' c' d' n h']

/-- C08: rejection is an error value naming the four bytes, never a panic. -/
theorem C08_bcd_id_rejects (d0 d1 d2 d3 : UInt8)
    (h : ¬ (IsBcd d0 ∧ IsBcd d1 ∧ IsBcd d2 ∧ IsBcd d3)) :
    ∃ n, bcdHexDigitsToU32 d0 d1 d2 d3 = .err (.identificationNumberError d0 d1 d2 d3 n) := by
  have key : ∀ l acc, (¬ ∀ b ∈ l, IsBcd b) →
      ∃ n, bcdLoop (d0, d1, d2, d3) l acc = .err (.identificationNumberError d0 d1 d2 d3 n) := by
    intro l
    induction l with
    | nil => simp
    | cons b l ih =>
      intro acc hh
      unfold bcdLoop
      simp only [isBcd_iff]
      by_cases hb : IsBcd b
      · simp [hb]
        apply ih
        simpa [hb] using hh
      · simp [hb]
  apply key
  simp; tauto

example : bcdHexDigitsToU32 0x78 0x56 0x34 0x12 = .ok 12345678 := by decide
example : bcdHexDigitsToU32 0x78 0x5A 0x34 0x12 =
    .err (.identificationNumberError 0x78 0x5A 0x34 0x12 1234) := by decide

/-! ## C09 -/

/-- C09: converting a byte to a device type and back is the identity. -/
theorem C09_device_type_roundtrip (b : UInt8) : (DeviceType.fromByte b).toByte = b := by
  revert b; decide +kernel

/-- C09: distinct bytes are distinct device types. -/
theorem C09_device_type_injective (a b : UInt8)
    (h : DeviceType.fromByte a = DeviceType.fromByte b) : a = b := by
  rw [← C09_device_type_roundtrip a, ← C09_device_type_roundtrip b, h]

/-- C09: every code with a name in the standard's table gets that name, and FF is the wildcard. -/
theorem C09_device_type_names (b : UInt8) (d : DeviceType)
    (h : deviceTypes[b.toNat]? = some (some d)) : DeviceType.fromByte b = d := by
  have key : ∀ b : UInt8, (deviceTypes[b.toNat]?.join).all (fun d => DeviceType.fromByte b = d) := by
    decide +kernel
  have := key b
  rw [h] at this
  simpa using this

/-- C09: codes without a name are reported as a reserved type carrying the code. -/
theorem C09_device_type_reserved (b : UInt8) (hn : ∀ d, deviceTypes[b.toNat]? ≠ some (some d))
    (hff : b ≠ 0xFF) :
    DeviceType.fromByte b ∈ [.reservedSensor b, .reservedSwitch b, .reservedCustomer b,
      .reservedEnvironmental b, .reservedSystem b, .reserved b] := by
  have k2 : ∀ b : UInt8, b = 0xFF ∨ (deviceTypes[b.toNat]?.join).isSome ∨
      DeviceType.fromByte b ∈ [.reservedSensor b, .reservedSwitch b, .reservedCustomer b,
        .reservedEnvironmental b, .reservedSystem b, .reserved b] := by decide +kernel
  rcases k2 b with h | h | h
  · exact absurd h hff
  · cases hd : deviceTypes[b.toNat]? with
    | none => simp [hd] at h
    | some o =>
      cases o with
      | none => simp [hd] at h
      | some d => exact absurd hd (hn d)
  · exact h

/-- C09: named device types also survive the round trip (the reserved variants carry the byte). -/
example : DeviceType.fromByte 0x07 = .waterMeter ∧ DeviceType.fromByte 0x15 = .hotWaterMeter ∧
    DeviceType.fromByte 0x3A = .reservedSystem 0x3A ∧ DeviceType.fromByte 0xFF = .wildcard := by
  decide

/-! ## C10 -/

/-- C10: the three parts of the configuration field reassemble to its raw value. -/
theorem C10_configuration_field_decomposition (cf : ConfigurationField) :
    cf.raw.toNat = cf.modeSpecificLower.toNat + 256 * cf.securityMode.toBits.toNat +
      8192 * cf.modeSpecificUpper.toNat := by
  obtain ⟨raw⟩ := cf
  have hr := raw.toNat_lt
  have hbits : ∀ b : UInt8, (SecurityMode.fromBits b).toBits = b &&& 0x1F := by decide +kernel
  simp only [ConfigurationField.securityMode, hbits, ConfigurationField.modeSpecificLower,
    ConfigurationField.modeSpecificUpper]
  have a1 : ∀ n, n &&& 255 = n % 256 := fun n => Nat.and_two_pow_sub_one_eq_mod n 8
  have a2 : ∀ n, n &&& 31 = n % 32 := fun n => Nat.and_two_pow_sub_one_eq_mod n 5
  have a3 : ∀ n, n &&& 7 = n % 8 := fun n => Nat.and_two_pow_sub_one_eq_mod n 3
  simp [a1, a2, a3, Nat.shiftRight_eq_div_pow]
  omega

/-- C10: the security mode is the five bits 8..12. -/
theorem C10_security_mode_bits (cf : ConfigurationField) :
    cf.securityMode.toBits.toNat = cf.raw.toNat / 256 % 32 := by
  have := C10_configuration_field_decomposition cf
  have h1 := cf.modeSpecificLower.toNat_lt
  have hm : ∀ m : UInt8, (SecurityMode.fromBits m).toBits.toNat < 32 := by decide +kernel
  have h2 : cf.securityMode.toBits.toNat < 32 := hm _
  omega

/-- C10: modes 0..15 have the standard's names; higher modes carry their number. -/
theorem C10_security_mode_names (cf : ConfigurationField) :
    cf.securityMode =
      (securityModes[cf.raw.toNat / 256 % 32]?).getD
        (.reservedHigher (UInt8.ofNat (cf.raw.toNat / 256 % 32))) := by
  have key : ∀ n : Fin 32, SecurityMode.fromBits (UInt8.ofNat n.val) =
      (securityModes[n.val]?).getD (.reservedHigher (UInt8.ofNat n.val)) := by decide +kernel
  have := key ⟨cf.raw.toNat / 256 % 32, Nat.mod_lt _ (by decide)⟩
  rw [← this]
  unfold ConfigurationField.securityMode
  congr 1
  apply UInt8.toNat_inj.mp
  have a2 : ∀ n, n &&& 31 = n % 32 := fun n => Nat.and_two_pow_sub_one_eq_mod n 5
  simp [a2, Nat.shiftRight_eq_div_pow]
  omega

/-- C10: only mode 0 is reported as unencrypted. -/
theorem C10_no_encryption_iff (cf : ConfigurationField) :
    cf.securityMode = .noEncryption ↔ cf.raw.toNat / 256 % 32 = 0 := by
  rw [← C10_security_mode_bits]
  have hm : ∀ m : UInt8, SecurityMode.fromBits m = .noEncryption ↔
    (SecurityMode.fromBits m).toBits.toNat = 0 := by decide +kernel
  exact hm _

/-- C10: the configuration bytes are stored least significant byte first. -/
theorem C10_configuration_from_bytes (l m : UInt8) :
    (ConfigurationField.fromBytes l m).raw.toNat = l.toNat + 256 * m.toNat := by
  exact u16le_toNat l m

example : (ConfigurationField.mk 0x0550).securityMode = .aesCbc128IvNonZero := by decide

end MBus
