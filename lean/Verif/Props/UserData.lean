import Verif.Lemmas.UserData
import Verif.Props.Decryption
import Verif.Props.Record
import Verif.Props.Wireless
/-!
# Properties of the user data block and of `MbusData`: C32-C37, C65-C68
-/
namespace MBus
open Spec

/-! ## C32 and C33: dispatch and header fields -/

/-- C32, C33: `UserDataBlock::try_from` accepts exactly the user data blocks of the specification,
with the contents the specification gives: every header field is the byte at its position and the
variable data block is exactly the bytes after the header. -/
theorem C32_accepts_iff (data : List UInt8) (blk : UserDataBlock) :
    UserDataBlock.tryFrom data = .ok blk ↔ Block data blk :=
  (tryFrom_iff data).1 blk

/-- C32: exactly which error every other byte string is reported as. -/
theorem C32_rejects_iff (data : List UInt8) (e : AppError) :
    UserDataBlock.tryFrom data = .err e ↔ Rejected data e :=
  (tryFrom_iff data).2 e

/-- C32: no byte string makes the application layer panic. -/
theorem C32_never_panics (data : List UInt8) : UserDataBlock.tryFrom data ≠ .panic :=
  tryFrom_ne_panic data

/-- C32: empty input. -/
theorem C32_empty : UserDataBlock.tryFrom [] = .err .missingControlInformation :=
  (C32_rejects_iff _ _).2 .empty

/-- C32: `InvalidControlInformation` names the first byte and is reported exactly for the CI fields
that are neither decoded nor known as undecoded. -/
theorem C32_invalid_ci_iff (data : List UInt8) (b : UInt8) :
    UserDataBlock.tryFrom data = .err (.invalidControlInformation b) ↔
      data.head? = some b ∧ ¬ isDecoded b ∧ ∀ f, (b, f) ∉ undecoded := by
  rw [C32_rejects_iff]
  constructor
  · intro h
    generalize he : AppError.invalidControlInformation b = e at h
    cases h <;> cases he
    case mp.unknown.refl rest h1 h2 => exact ⟨rfl, h1, h2⟩
    case mp.longId.refl reversed i0 i1 i2 i3 rest n h1 h2 h3 => cases reversed <;> cases h3
  · rintro ⟨h1, h2, h3⟩
    match data, h1 with
    | ci :: rest, h1 =>
      simp at h1
      subst h1
      exact .unknown ci rest h2 h3

/-- A long header response: id 12345678, manufacturer GWF, version 60, water meter, access number
42, status 16, mode 0. -/
def sampleLongBlock : List UInt8 :=
  [0x72, 0x78, 0x56, 0x34, 0x12, 0xE6, 0x1E, 0x3C, 0x07, 0x2A, 0x10, 0x00, 0x00, 0x0C, 0x13, 1, 2, 3, 4]

theorem sampleLongBlock_ok : Block sampleLongBlock
    (.long none ⟨12345678, .ok ⟨71, 87, 70⟩, 0x3C, .waterMeter, ⟨0x2A, 0x10, ⟨0⟩⟩, false⟩
      [0x0C, 0x13, 1, 2, 3, 4]) :=
  .long false 0x78 0x56 0x34 0x12 0xE6 0x1E 0x3C 0x07 0x2A 0x10 0x00 0x00 [0x0C, 0x13, 1, 2, 3, 4]
    (by decide +kernel)

example : Rejected (sampleLongBlock.take 9) .insufficientData :=
  .longTruncated false 0x78 0x56 0x34 0x12 [0xE6, 0x1E, 0x3C, 0x07] (by decide +kernel) (by decide)
example : Rejected [0x72, 0x78, 0x5A, 0x34, 0x12] (.identificationNumberError 0x78 0x5A 0x34 0x12 1234) :=
  .longId false 0x78 0x5A 0x34 0x12 [] 1234 _ (by decide +kernel) rfl
    ⟨[0x78], 0x5A, [0x34, 0x12], rfl, by decide, by decide +kernel, by decide⟩
example : UserDataBlock.tryFrom [0x10, 1] = .err (.invalidControlInformation 0x10) :=
  (C32_invalid_ci_iff _ _).2 ⟨rfl, by decide, by
    have : ∀ p ∈ undecoded, p.1 ≠ 0x10 := by decide
    intro f hf; exact this _ hf rfl⟩
example : UserDataBlock.tryFrom [0x50, 0x12, 9] = .ok (.reset (.simpleBilling 0x12)) :=
  (C32_accepts_iff _ _).2 (.reset 0x12 [9] _ rfl)
example : UserDataBlock.tryFrom [0xA0, 0x99, 1, 2, 3, 4, 5] =
    .ok (.short none ⟨1, 2, ⟨0x0403⟩⟩ [5]) :=
  (C32_accepts_iff _ _).2 (.shortA0 0x99 1 2 3 4 [5])

/-- C33: the fields of a long header, field by field; CI 76 reverses the identification bytes. -/
theorem C33_long_header (reversed : Bool)
    (i0 i1 i2 i3 m0 m1 version device acc st c0 c1 : UInt8) (block : List UInt8)
    (hb : AllBcd [i0, i1, i2, i3]) :
    ∃ h, UserDataBlock.tryFrom
        ([longCi reversed, i0, i1, i2, i3, m0, m1, version, device, acc, st, c0, c1] ++ block) =
          .ok (.long none h block) ∧
      h.identificationNumber =
        bcdValue (if reversed then [i3, i2, i1, i0] else [i0, i1, i2, i3]) ∧
      (∀ i j k, IsLetter i → IsLetter j → IsLetter k →
        (h.manufacturer = .ok (letters i j k) ↔ m0.toNat + 256 * m1.toNat = flagId i j k)) ∧
      h.version = version ∧ h.deviceType.toByte = device ∧ h.short.accessNumber = acc ∧
      h.short.status = st ∧ h.short.configurationField.raw.toNat = c0.toNat + 256 * c1.toNat ∧
      h.lsbOrder = reversed := by
  refine ⟨_, (C32_accepts_iff _ _).2 (.long reversed i0 i1 i2 i3 m0 m1 version device acc st c0 c1
    block hb), rfl, ?_, rfl, C09_device_type_roundtrip device, rfl, rfl, ?_, rfl⟩
  · intro i j k hi hj hk
    have hu : (le16 m0 m1).toNat = m0.toNat + 256 * m1.toNat := by rw [le16_eq, u16le_toNat]
    simp only
    constructor
    · intro h
      have := C07_manufacturer_to_id_from_id _ _ h
      rw [← hu, ← this, C07_manufacturer_to_id i j k hi hj hk]
    · intro h
      exact (C07_manufacturer_from_id _ _).2 ⟨i, j, k, hi, hj, hk, by rw [hu, h], rfl⟩
  · simp only [le16_eq, u16le_toNat]

/-- C33: the fields of a short header. -/
theorem C33_short_header (ci acc st c0 c1 : UInt8) (block : List UInt8) (hci : isShortCi ci) :
    ∃ h, UserDataBlock.tryFrom ([ci, acc, st, c0, c1] ++ block) = .ok (.short none h block) ∧
      h.accessNumber = acc ∧ h.status = st ∧
      h.configurationField.raw.toNat = c0.toNat + 256 * c1.toNat := by
  refine ⟨_, (C32_accepts_iff _ _).2 (.short ci acc st c0 c1 block hci), rfl, rfl, ?_⟩
  simp only [le16_eq, u16le_toNat]

example : ∃ h, UserDataBlock.tryFrom ([longCi true, 0x12, 0x34, 0x56, 0x78, 0xE6, 0x1E, 0x3C, 0x07,
      0x2A, 0x10, 0x00, 0x05] ++ [1, 2]) = .ok (.long none h [1, 2]) ∧
    h.identificationNumber = 12345678 ∧ h.manufacturer = .ok (letters 7 23 6) ∧
    h.deviceType = .waterMeter := by
  obtain ⟨h, h1, h2, h3, h4, h5, h6⟩ := C33_long_header true 0x12 0x34 0x56 0x78 0xE6 0x1E 0x3C 0x07
    0x2A 0x10 0x00 0x05 [1, 2] (by decide +kernel)
  have := (C32_accepts_iff _ _).2 (Block.long true 0x12 0x34 0x56 0x78 0xE6 0x1E 0x3C 0x07
    0x2A 0x10 0x00 0x05 [1, 2] (by decide +kernel))
  refine ⟨_, this, by decide, by decide, by decide⟩

/-! ## C34: extended link layers -/

/-- C34: an extended link layer is read exactly when its 2, 8 or 16 bytes are there, and takes
exactly those. -/
theorem C34_ell_size (data : List UInt8) (format : EllFormat) :
    (ellSize format ≤ data.length → ∃ ell, ExtendedLinkLayer.parse data format =
      .ok (ell, ellSize format)) ∧
    (data.length < ellSize format → ExtendedLinkLayer.parse data format = .err .insufficientData) := by
  constructor
  · intro h
    cases format <;> simp only [ellSize] at h ⊢
    · match data, h with
      | a :: b :: t, _ => exact ⟨_, rfl⟩
    · obtain ⟨a, b, c, d, t, rfl⟩ := split4 data (by omega)
      simp only [List.length_cons] at h
      obtain ⟨e, f, g, i, t, rfl⟩ := split4 t (by omega)
      exact ⟨_, rfl⟩
    · obtain ⟨a, b, c, d, t, rfl⟩ := split4 data (by omega)
      simp only [List.length_cons] at h
      obtain ⟨e, f, g, i, t, rfl⟩ := split4 t (by omega)
      simp only [List.length_cons] at h
      obtain ⟨a1, b1, c1, d1, t, rfl⟩ := split4 t (by omega)
      simp only [List.length_cons] at h
      obtain ⟨a2, b2, c2, d2, t, rfl⟩ := split4 t (by omega)
      exact ⟨_, rfl⟩
  · intro h
    apply ell_short
    cases format <;> exact h

/-- C34: the fields of the three formats, and nothing after them matters. -/
theorem C34_ell_fields (cc acc m0 m1 a0 a1 a2 a3 a4 a5 s0 s1 s2 s3 r0 r1 : UInt8)
    (rest : List UInt8) :
    ExtendedLinkLayer.parse ([cc, acc] ++ rest) .formatI = .ok (⟨cc, acc, none, none⟩, 2) ∧
    ExtendedLinkLayer.parse ([cc, acc, s0, s1, s2, s3, r0, r1] ++ rest) .formatII =
      .ok (⟨cc, acc, none, some ⟨[s0, s1, s2, s3], le16 r0 r1⟩⟩, 8) ∧
    ExtendedLinkLayer.parse
        ([cc, acc, m0, m1, a0, a1, a2, a3, a4, a5, s0, s1, s2, s3, r0, r1] ++ rest) .formatIII =
      .ok (⟨cc, acc, some ⟨le16 m0 m1, [a0, a1, a2, a3, a4, a5]⟩,
        some ⟨[s0, s1, s2, s3], le16 r0 r1⟩⟩, 16) := by
  simp only [le16_eq]
  exact ⟨rfl, rfl, rfl⟩

/-- C34: a chain of extended link layers I of any depth before a block that may follow one is parsed;
the outermost layer is the one reported, the variable data block is that of the innermost block. -/
theorem C34_nested (cc acc : UInt8) (hs : List (UInt8 × UInt8)) (inner : List UInt8)
    (blk blk' : UserDataBlock) (hb : Block inner blk)
    (hw : withEll ⟨cc, acc, none, none⟩ blk = some blk') :
    UserDataBlock.tryFrom (ellChain ((cc, acc) :: hs) ++ inner) = .ok blk' := by
  induction hs generalizing cc acc blk' with
  | nil => exact (C32_accepts_iff _ _).2 (.ellI cc acc inner blk blk' hb hw)
  | cons h hs ih =>
    have hi : ∃ blk2, withEll ⟨h.1, h.2, none, none⟩ blk = some blk2 ∧
        withEll ⟨cc, acc, none, none⟩ blk2 = some blk' := by
      cases blk <;> simp [withEll] at hw ⊢ <;> exact hw
    obtain ⟨blk2, h1, h2⟩ := hi
    exact (C32_accepts_iff _ _).2
      (.ellI cc acc _ blk2 blk' ((C32_accepts_iff _ _).1 (ih h.1 h.2 blk2 h1)) h2)

example : UserDataBlock.tryFrom (ellChain [(1, 2), (3, 4), (5, 6)] ++ [0x78, 0x01, 0x13, 0x07]) =
    .ok (.noTpl (some ⟨1, 2, none, none⟩) [0x01, 0x13, 0x07]) :=
  C34_nested 1 2 [(3, 4), (5, 6)] _ _ _ (.noTpl _) rfl

/-- C34: an extended link layer I hides the fields of an extended link layer below it: the session
number and the payload CRC of the inner layer are not reported. -/
theorem C34_inner_fields_lost (cc acc cc' acc' s0 s1 s2 s3 r0 r1 : UInt8) (block : List UInt8) :
    UserDataBlock.tryFrom ([0x8C, cc, acc] ++ ([0x8D, cc', acc', s0, s1, s2, s3, r0, r1] ++ block)) =
      .ok (.short (some ⟨cc, acc, none, none⟩) ⟨acc', cc', ⟨0⟩⟩ block) :=
  (C32_accepts_iff _ _).2 (.ellI cc acc _ _ _ (.ellII cc' acc' s0 s1 s2 s3 r0 r1 block) rfl)

/-! ## C35: encrypted payloads are not decoded -/

theorem mode_zero_iff (cf : ConfigurationField) :
    (cf.securityMode != .noEncryption) = true ↔ modeNumber cf ≠ 0 := by
  have := C10_no_encryption_iff cf
  simp only [bne_iff_ne, ne_eq]
  rw [this]
  rfl

/-- C35: the records of a user data block: those of its variable data block when its transport
header, if any, has security mode 0, in the byte order of the header; none otherwise. -/
theorem C35_records (cfg : Cfg) (blk : UserDataBlock) :
    blk.dataRecords.map (·.collect cfg) =
      match blk with
      | .long _ h block =>
        if modeNumber h.short.configurationField = 0 then some (parseDataRecords cfg h.lsbOrder block)
        else none
      | .short _ h block =>
        if modeNumber h.configurationField = 0 then some (parseDataRecords cfg false block) else none
      | .noTpl _ block => some (parseDataRecords cfg false block)
      | .reset .. | .fixed .. => none := by
  cases blk with
  | long ell h block =>
    have := mode_zero_iff h.short.configurationField
    simp only [UserDataBlock.dataRecords, LongTplHeader.isEncrypted]
    by_cases hm : modeNumber h.short.configurationField = 0
    · have hf : (h.short.configurationField.securityMode != .noEncryption) = false := by
        rw [Bool.eq_false_iff, ne_eq, this]; simp [hm]
      simp [hf, hm, parseDataRecords]
    · simp [this.2 hm, hm]
  | short ell h block =>
    have := mode_zero_iff h.configurationField
    simp only [UserDataBlock.dataRecords, ShortTplHeader.isEncrypted]
    by_cases hm : modeNumber h.configurationField = 0
    · have hf : (h.configurationField.securityMode != .noEncryption) = false := by
        rw [Bool.eq_false_iff, ne_eq, this]; simp [hm]
      simp [hf, hm, parseDataRecords]
    · simp [this.2 hm, hm]
  | noTpl ell block => rfl
  | reset s => rfl
  | fixed => rfl

/-- C35, from the bytes: a long header whose configuration names a security mode hides the payload
from `data_records`. -/
theorem C35_encrypted_long_hidden (reversed : Bool)
    (i0 i1 i2 i3 m0 m1 version device acc st c0 c1 : UInt8) (block : List UInt8)
    (hm : c1.toNat % 32 ≠ 0) (blk : UserDataBlock)
    (h : UserDataBlock.tryFrom
        ([longCi reversed, i0, i1, i2, i3, m0, m1, version, device, acc, st, c0, c1] ++ block) =
          .ok blk) : blk.dataRecords = none ∧ blk.isEncrypted = some true := by
  have hb : AllBcd [i0, i1, i2, i3] := by
    by_contra hb
    have hb' : ¬ AllBcd (idBytes reversed i0 i1 i2 i3) := by
      cases reversed
      · exact hb
      · simp only [idBytes, if_true]; rw [allBcd_four] at *; tauto
    obtain ⟨n, hn⟩ := bcdPrefix_exists _ hb'
    have := (C32_rejects_iff _ _).2 (Rejected.longId reversed i0 i1 i2 i3
      ([m0, m1, version, device, acc, st, c0, c1] ++ block) n _ hb rfl hn)
    simp only [List.cons_append, List.nil_append] at this h
    rw [h] at this
    cases this
  rw [(C32_accepts_iff _ _).2 (.long reversed i0 i1 i2 i3 m0 m1 version device acc st c0 c1 block hb)]
    at h
  cases h
  have hmode : modeNumber ⟨le16 c0 c1⟩ ≠ 0 := by
    have := c0.toNat_lt
    simp only [modeNumber, le16_eq, u16le_toNat]
    omega
  have := (mode_zero_iff ⟨le16 c0 c1⟩).2 hmode
  simp [UserDataBlock.dataRecords, UserDataBlock.isEncrypted, LongTplHeader.isEncrypted, this]

/-- C35, from the bytes, for short headers. -/
theorem C35_encrypted_short_hidden (ci acc st c0 c1 : UInt8) (block : List UInt8)
    (hci : isShortCi ci) (hm : c1.toNat % 32 ≠ 0) (blk : UserDataBlock)
    (h : UserDataBlock.tryFrom ([ci, acc, st, c0, c1] ++ block) = .ok blk) :
    blk.dataRecords = none := by
  rw [(C32_accepts_iff _ _).2 (.short ci acc st c0 c1 block hci)] at h
  cases h
  have hmode : modeNumber ⟨le16 c0 c1⟩ ≠ 0 := by
    have := c0.toNat_lt
    simp only [modeNumber, le16_eq, u16le_toNat]
    omega
  have := (mode_zero_iff ⟨le16 c0 c1⟩).2 hmode
  simp [UserDataBlock.dataRecords, ShortTplHeader.isEncrypted, this]

/-- C35: `is_encrypted` answers only for long headers; for an encrypted short header it answers
`None`. -/
theorem C35_is_encrypted (blk : UserDataBlock) :
    blk.isEncrypted =
      match blk with
      | .long _ h _ => some (decide (modeNumber h.short.configurationField ≠ 0))
      | _ => none := by
  cases blk with
  | long ell h block =>
    simp only [UserDataBlock.isEncrypted, LongTplHeader.isEncrypted, Option.some.injEq]
    rw [Bool.eq_iff_iff, mode_zero_iff]
    simp
  | _ => rfl

example : UserDataBlock.tryFrom [0x7A, 1, 0, 0x20, 0x05, 9, 9] =
      .ok (.short none ⟨1, 0, ⟨0x0520⟩⟩ [9, 9]) ∧
    (UserDataBlock.short none ⟨1, 0, ⟨0x0520⟩⟩ [9, 9]).dataRecords = none ∧
    (UserDataBlock.short none ⟨1, 0, ⟨0x0520⟩⟩ [9, 9]).isEncrypted = none :=
  ⟨(C32_accepts_iff _ _).2 (.short 0x7A 1 0 0x20 0x05 [9, 9] (Or.inl rfl)), by decide, by decide⟩

/-- C68 is false: the payload below an extended link layer II or III is offered as records although
the layer's session number announces encryption (here AES-CTR, `session_number` top bits 001):
the configuration field is taken to be 0. -/
theorem C68_fails (cfg : Cfg) (cc acc s0 s1 s2 s3 r0 r1 : UInt8) (block : List UInt8) :
    ∃ blk, UserDataBlock.tryFrom ([0x8D, cc, acc, s0, s1, s2, s3, r0, r1] ++ block) = .ok blk ∧
      blk.dataRecords.map (·.collect cfg) = some (parseDataRecords cfg false block) := by
  refine ⟨_, (C32_accepts_iff _ _).2 (.ellII cc acc s0 s1 s2 s3 r0 r1 block), ?_⟩
  rw [C35_records]
  simp [modeNumber]

/-- C68, partial: encryption announced by a transport header stays hidden below extended link layers
of format I.  Missing: encryption announced by the extended link layer itself, see `C68_fails`. -/
theorem C68_transport_encryption_partial (cc acc : UInt8) (inner : List UInt8)
    (blk blk' : UserDataBlock) (hb : UserDataBlock.tryFrom inner = .ok blk)
    (h : UserDataBlock.tryFrom ([0x8C, cc, acc] ++ inner) = .ok blk') :
    blk'.dataRecords = blk.dataRecords := by
  rw [C32_accepts_iff] at h
  generalize hd : [0x8C, cc, acc] ++ inner = data at h
  cases h with
  | long reversed => cases reversed <;> cases hd
  | fixed =>
    cases hd
    have hci : (0x8C : UInt8) = 0x73 ∨ (0x8C : UInt8) = 0x77 := by assumption
    exact absurd hci (by decide)
  | short b _ _ _ _ _ hs =>
    cases hd
    unfold isShortCi at hs
    exact absurd hs (by decide)
  | ellI cc' acc' rest blk0 _ hb0 hw =>
    cases hd
    rw [C32_accepts_iff] at hb
    rw [← C32_accepts_iff] at hb hb0
    rw [hb] at hb0
    cases hb0
    cases blk <;> simp [withEll] at hw <;> subst hw <;> rfl
  | _ => cases hd

example : UserDataBlock.tryFrom ([0x8C, 1, 2] ++ [0x7A, 1, 0, 0x20, 0x05, 9, 9]) =
    .ok (.short (some ⟨1, 2, none, none⟩) ⟨1, 0, ⟨0x0520⟩⟩ [9, 9]) :=
  (C32_accepts_iff _ _).2 (.ellI 1 2 _ _ _ (.short 0x7A 1 0 0x20 0x05 [9, 9] (Or.inl rfl)) rfl)

/-! ## C36: `MbusData` and the user data block -/

/-- C36: the iterator `MbusData` offers is that of the user data block exactly when the block is not
encrypted and its byte order is the normal one. -/
theorem C36_agree_iff (blk : UserDataBlock) :
    blk.attachedRecords = blk.dataRecords ↔
      PlainBlock blk := by
  unfold PlainBlock
  cases blk with
  | long ell h block =>
    have := mode_zero_iff h.short.configurationField
    simp only [UserDataBlock.attachedRecords, UserDataBlock.dataRecords, LongTplHeader.isEncrypted]
    by_cases hm : modeNumber h.short.configurationField = 0
    · have hf : (h.short.configurationField.securityMode != .noEncryption) = false := by
        rw [Bool.eq_false_iff, ne_eq, this]; simp [hm]
      cases hl : h.lsbOrder <;> simp [hf, hm, DataRecords.new]
    · simp [this.2 hm, hm]
  | short ell h block =>
    have := mode_zero_iff h.configurationField
    simp only [UserDataBlock.attachedRecords, UserDataBlock.dataRecords, ShortTplHeader.isEncrypted]
    by_cases hm : modeNumber h.configurationField = 0
    · have hf : (h.configurationField.securityMode != .noEncryption) = false := by
        rw [Bool.eq_false_iff, ne_eq, this]; simp [hm]
      simp [hf, hm]
    · simp [this.2 hm, hm]
  | noTpl ell block => simp [UserDataBlock.attachedRecords, UserDataBlock.dataRecords]
  | reset s => simp [UserDataBlock.attachedRecords, UserDataBlock.dataRecords]
  | fixed => simp [UserDataBlock.attachedRecords, UserDataBlock.dataRecords]

theorem ofPayload_ok {ε F : Type} (frame : F) (payload : List UInt8) (m : MbusData F) :
    (MbusData.ofPayload frame payload : Res ε (MbusData F)) = .ok m ↔
      m.frame = frame ∧
      ((∃ blk, UserDataBlock.tryFrom payload = .ok blk ∧ m.userData = some blk ∧
          m.dataRecords = blk.attachedRecords ∧ m.applicationError = none) ∨
        ∃ e, UserDataBlock.tryFrom payload = .err e ∧ m.userData = none ∧ m.dataRecords = none ∧
          m.applicationError = some e) := by
  obtain ⟨mf, mu, md, ma⟩ := m
  unfold MbusData.ofPayload
  have := C32_never_panics payload
  cases h : UserDataBlock.tryFrom payload with
  | ok blk =>
    simp
    constructor
    · rintro ⟨rfl, rfl, rfl, rfl⟩; simp
    · rintro ⟨rfl, rfl, rfl, rfl⟩; simp
  | err e =>
    simp
    constructor
    · rintro ⟨rfl, rfl, rfl, rfl⟩; simp
    · rintro ⟨rfl, rfl, rfl, rfl⟩; simp
  | panic => exact absurd h this

theorem ofPayload_isOk {ε F : Type} (frame : F) (payload : List UInt8) :
    ∃ m, (MbusData.ofPayload frame payload : Res ε (MbusData F)) = .ok m ∧ m.frame = frame := by
  unfold MbusData.ofPayload
  have := C32_never_panics payload
  cases h : UserDataBlock.tryFrom payload with
  | ok blk => exact ⟨_, rfl, rfl⟩
  | err e => exact ⟨_, rfl, rfl⟩
  | panic => exact absurd h this

/-- C36, partial: for every wired frame whose user data block is unencrypted and not in the reversed
byte order, `MbusData` and the user data block have the same records.  Missing: encrypted blocks and
CI 76, where the claim is false (`C36_fails_encrypted`, `C36_fails_reversed`). -/
theorem C36_agree_wired_partial (cfg : Cfg) (data : List UInt8) (m : MbusData WiredFrame)
    (blk : UserDataBlock) (h : MbusData.tryFromWired cfg data = .ok m) (hu : m.userData = some blk)
    (hb : PlainBlock blk) :
    m.dataRecords.map (·.collect cfg) = blk.dataRecords.map (·.collect cfg) := by
  unfold MbusData.tryFromWired at h
  rw [Res.bind_eq_ok] at h
  obtain ⟨f, hf, h⟩ := h
  cases f with
  | longFrame fn ad payload =>
    simp only at h
    rw [ofPayload_ok] at h
    rcases h.2 with ⟨b, h1, h2, h3, h4⟩ | ⟨e, h1, h2, h3, h4⟩
    · rw [hu] at h2
      cases h2
      rw [h3, (C36_agree_iff blk).2 hb]
    · rw [hu] at h2; cases h2
  | _ => cases h; cases hu

/-- C36, partial, for wireless frames; the same part is missing. -/
theorem C36_agree_wireless_partial (cfg : Cfg) (data : List UInt8) (m : MbusData WirelessFrame)
    (blk : UserDataBlock) (h : MbusData.tryFromWireless data = .ok m) (hu : m.userData = some blk)
    (hb : PlainBlock blk) :
    m.dataRecords.map (·.collect cfg) = blk.dataRecords.map (·.collect cfg) := by
  unfold MbusData.tryFromWireless at h
  rw [Res.bind_eq_ok] at h
  obtain ⟨f, hf, h⟩ := h
  rw [ofPayload_ok] at h
  rcases h.2 with ⟨b, h1, h2, h3, h4⟩ | ⟨e, h1, h2, h3, h4⟩
  · rw [hu] at h2
    cases h2
    rw [h3, (C36_agree_iff blk).2 hb]
  · rw [hu] at h2; cases h2

/-- A wired long frame with given user data. -/
def wiredLong (userData : List UInt8) : List UInt8 :=
  let l := UInt8.ofNat (userData.length + 2)
  [0x68, l, l, 0x68, 0x08, 0x01] ++ userData ++ [(0x08 :: 0x01 :: userData).foldl (· + ·) 0, 0x16]

/-- C36 is false: `MbusData` offers the ciphertext of a mode 5 payload as records. -/
theorem C36_fails_encrypted (cfg : Cfg) :
    ∃ m blk, MbusData.tryFromWired cfg
        (wiredLong [0x7A, 1, 0, 0x20, 0x05, 0x01, 0x13, 0x07]) = .ok m ∧
      m.userData = some blk ∧ blk.dataRecords = none ∧ m.dataRecords.isSome := by
  have hf : WiredFrame.tryFrom cfg (wiredLong [0x7A, 1, 0, 0x20, 0x05, 0x01, 0x13, 0x07]) =
      .ok (.longFrame (.rspUd false false) (.primary 1) [0x7A, 1, 0, 0x20, 0x05, 0x01, 0x13, 0x07]) := by
    obtain ⟨oc, pf⟩ := cfg
    cases oc <;> cases pf <;> decide +kernel
  have hu := (C32_accepts_iff _ _).2
    (Block.short 0x7A 1 0 0x20 0x05 [0x01, 0x13, 0x07] (Or.inl rfl))
  unfold MbusData.tryFromWired MbusData.ofPayload
  rw [hf, Res.bind_ok]
  simp only
  rw [show [0x7A, 1, 0, 0x20, 0x05, 0x01, 0x13, 0x07] =
    [0x7A, 1, 0, 0x20, 0x05] ++ [(0x01 : UInt8), 0x13, 0x07] from rfl, hu]
  exact ⟨_, _, rfl, rfl, by decide +kernel, rfl⟩

/-- C36 is false: for CI 76 (least significant byte last) `MbusData` reads the values in the wrong
byte order. -/
theorem C36_fails_reversed (cfg : Cfg) :
    ∃ m blk, MbusData.tryFromWired cfg
        (wiredLong ([0x76, 0x12, 0x34, 0x56, 0x78, 0xE6, 0x1E, 0x3C, 0x07, 0x2A, 0, 0, 0] ++
          [0x0A, 0x13, 0x12, 0x34])) = .ok m ∧
      m.userData = some blk ∧
      m.dataRecords.map (·.collect cfg) ≠ blk.dataRecords.map (·.collect cfg) := by
  have hf : WiredFrame.tryFrom cfg
      (wiredLong ([0x76, 0x12, 0x34, 0x56, 0x78, 0xE6, 0x1E, 0x3C, 0x07, 0x2A, 0, 0, 0] ++
        [0x0A, 0x13, 0x12, 0x34])) =
      .ok (.longFrame (.rspUd false false) (.primary 1)
        ([0x76, 0x12, 0x34, 0x56, 0x78, 0xE6, 0x1E, 0x3C, 0x07, 0x2A, 0, 0, 0] ++
          [0x0A, 0x13, 0x12, 0x34])) := by
    obtain ⟨oc, pf⟩ := cfg
    cases oc <;> cases pf <;> decide +kernel
  have hu := (C32_accepts_iff _ _).2
    (Block.long true 0x12 0x34 0x56 0x78 0xE6 0x1E 0x3C 0x07 0x2A 0 0 0 [0x0A, 0x13, 0x12, 0x34]
      (by decide +kernel))
  rw [show longCi true = 0x76 from rfl] at hu
  unfold MbusData.tryFromWired MbusData.ofPayload
  rw [hf, Res.bind_ok]
  simp only
  rw [hu]
  refine ⟨_, _, rfl, rfl, ?_⟩
  rw [C35_records]
  simp only [UserDataBlock.attachedRecords, Option.map_some]
  rw [if_pos (by decide +kernel)]
  intro h
  have h0 := congrArg (fun l => (l.getD []).filterMap fun i => i.toOption.bind (·.data.value)) h
  simp only [Option.getD_some] at h0
  obtain ⟨oc, pf⟩ := cfg
  revert h0
  cases oc <;> cases pf <;> decide +kernel

/-- C69 is false: CI 76 announces the most significant byte first for all values, but binary integers
are read least significant byte first all the same; only BCD values are reversed. -/
theorem C69_fails (cfg : Cfg) (input : List UInt8) (c : Coding)
    (h : c ∈ [.integer8, .integer16, .integer24, .integer32, .integer48, .integer64, .real32]) :
    c.parse cfg true input = c.parse cfg false input := by
  simp only [List.mem_cons, List.not_mem_nil, or_false] at h
  rcases h with rfl | rfl | rfl | rfl | rfl | rfl | rfl <;> rfl

example (cfg : Cfg) : (Coding.parse cfg .integer16 true [0x01, 0x00]) = .ok ⟨some (.number (.int 1)), 2⟩ := by
  obtain ⟨oc, pf⟩ := cfg
  cases oc <;> cases pf <;> rfl

/-- C69, partial: BCD values are read most significant byte first.  Missing: all other codings, see
`C69_fails`. -/
theorem C69_bcd_reversed_partial (cfg : Cfg) (c : Coding) (n : Nat) (field suffix : List UInt8)
    (hc : bcdWidth c = some n) (hl : field.length = n) :
    c.parse cfg true (field ++ suffix) = c.parse cfg false (field.reverse ++ suffix) := by
  rw [C24_bcd_value cfg true c n _ hc, C24_bcd_value cfg false c n _ hc,
    List.take_left' hl, List.take_left' (by simpa using hl)]
  simp [hl]

example : bcdWidth .bcd4 = some 2 := rfl

/-! ## C37: the link frame survives application layer errors -/

/-- C37: `MbusData` of a wired frame fails exactly as the frame parser does; otherwise it carries the
parser's frame. -/
theorem C37_frame_delivered_wired (cfg : Cfg) (data : List UInt8) :
    (∀ e, MbusData.tryFromWired cfg data = .err e ↔ WiredFrame.tryFrom cfg data = .err e) ∧
    (MbusData.tryFromWired cfg data = .panic ↔ WiredFrame.tryFrom cfg data = .panic) ∧
    (∀ f, WiredFrame.tryFrom cfg data = .ok f →
      ∃ m, MbusData.tryFromWired cfg data = .ok m ∧ m.frame = f) := by
  have hok : ∀ f, WiredFrame.tryFrom cfg data = .ok f →
      ∃ m, MbusData.tryFromWired cfg data = .ok m ∧ m.frame = f := by
    intro f hf
    unfold MbusData.tryFromWired
    rw [hf, Res.bind_ok]
    cases f with
    | longFrame fn ad payload => exact ofPayload_isOk _ _
    | _ => exact ⟨_, rfl, rfl⟩
  refine ⟨?_, ?_, hok⟩
  · intro e
    cases hf : WiredFrame.tryFrom cfg data with
    | ok f => obtain ⟨m, hm, _⟩ := hok f hf; rw [hm]; simp
    | err e' => unfold MbusData.tryFromWired; rw [hf]; simp [Bind.bind, Res.bind]
    | panic => unfold MbusData.tryFromWired; rw [hf]; simp [Bind.bind, Res.bind]
  · cases hf : WiredFrame.tryFrom cfg data with
    | ok f => obtain ⟨m, hm, _⟩ := hok f hf; rw [hm]; simp
    | err e' => unfold MbusData.tryFromWired; rw [hf]; simp [Bind.bind, Res.bind]
    | panic => unfold MbusData.tryFromWired; rw [hf]; simp [Bind.bind, Res.bind]

/-- C37: a wired long frame has exactly one of a user data block and an application error, the
result of parsing its payload; the other frames have neither and no records. -/
theorem C37_user_data_or_error_wired (cfg : Cfg) (data : List UInt8) (m : MbusData WiredFrame)
    (h : MbusData.tryFromWired cfg data = .ok m) :
    match m.frame with
    | .longFrame _ _ payload =>
      (∃ blk, UserDataBlock.tryFrom payload = .ok blk ∧ m.userData = some blk ∧
        m.applicationError = none) ∨
      (∃ e, UserDataBlock.tryFrom payload = .err e ∧ m.userData = none ∧ m.dataRecords = none ∧
        m.applicationError = some e)
    | _ => m.userData = none ∧ m.dataRecords = none ∧ m.applicationError = none := by
  unfold MbusData.tryFromWired at h
  rw [Res.bind_eq_ok] at h
  obtain ⟨f, hf, h⟩ := h
  cases f with
  | longFrame fn ad payload =>
    simp only at h
    rw [ofPayload_ok] at h
    rw [h.1]
    rcases h.2 with ⟨b, h1, h2, h3, h4⟩ | h2
    · exact Or.inl ⟨b, h1, h2, h4⟩
    · exact Or.inr h2
  | _ => cases h; simp

/-- C37, wireless: fails exactly as the frame parser does, never otherwise; exactly one of a user
data block and an application error. -/
theorem C37_wireless (data : List UInt8) :
    (∀ e, MbusData.tryFromWireless data = .err e ↔ WirelessFrame.tryFrom data = .err e) ∧
    (∀ f, WirelessFrame.tryFrom data = .ok f →
      ∃ m, MbusData.tryFromWireless data = .ok m ∧ m.frame = f ∧
        ((∃ blk, UserDataBlock.tryFrom f.data = .ok blk ∧ m.userData = some blk ∧
            m.applicationError = none) ∨
          ∃ e, UserDataBlock.tryFrom f.data = .err e ∧ m.userData = none ∧ m.dataRecords = none ∧
            m.applicationError = some e)) := by
  have hok : ∀ f, WirelessFrame.tryFrom data = .ok f →
      ∃ m, MbusData.tryFromWireless data = .ok m ∧ m.frame = f ∧
        ((∃ blk, UserDataBlock.tryFrom f.data = .ok blk ∧ m.userData = some blk ∧
            m.applicationError = none) ∨
          ∃ e, UserDataBlock.tryFrom f.data = .err e ∧ m.userData = none ∧ m.dataRecords = none ∧
            m.applicationError = some e) := by
    intro f hf
    unfold MbusData.tryFromWireless
    rw [hf, Res.bind_ok]
    obtain ⟨m, hm, hmf⟩ := ofPayload_isOk (ε := WirelessFrameError) f f.data
    refine ⟨m, hm, hmf, ?_⟩
    rcases ((ofPayload_ok _ _ _).1 hm).2 with ⟨b, h1, h2, h3, h4⟩ | h2
    · exact Or.inl ⟨b, h1, h2, h4⟩
    · exact Or.inr h2
  refine ⟨?_, hok⟩
  intro e
  cases hf : WirelessFrame.tryFrom data with
  | ok f => obtain ⟨m, hm, _⟩ := hok f hf; rw [hm]; simp
  | err e' => unfold MbusData.tryFromWireless; rw [hf]; simp [Bind.bind, Res.bind]
  | panic => unfold MbusData.tryFromWireless; rw [hf]; simp [Bind.bind, Res.bind]

/-- Non-vacuity: a long frame whose payload has an unknown CI field. -/
example (cfg : Cfg) : ∃ m, MbusData.tryFromWired cfg (wiredLong [0x10, 1]) = .ok m ∧
    m.frame = .longFrame (.rspUd false false) (.primary 1) [0x10, 1] ∧
    m.applicationError = some (.invalidControlInformation 0x10) := by
  have hf : WiredFrame.tryFrom cfg (wiredLong [0x10, 1]) =
      .ok (.longFrame (.rspUd false false) (.primary 1) [0x10, 1]) := by
    obtain ⟨oc, pf⟩ := cfg
    cases oc <;> cases pf <;> decide +kernel
  obtain ⟨m, h1, h2⟩ := (C37_frame_delivered_wired cfg _).2.2 _ hf
  have h3 := C37_user_data_or_error_wired cfg _ m h1
  rw [h2] at h3
  have h4 : UserDataBlock.tryFrom [0x10, 1] = .err (.invalidControlInformation 0x10) :=
    (C32_invalid_ci_iff _ _).2 ⟨rfl, by decide, by
      have : ∀ p ∈ undecoded, p.1 ≠ 0x10 := by decide
      intro f hf; exact this _ hf rfl⟩
  simp only [h4] at h3
  rcases h3 with ⟨_, h, _⟩ | ⟨e, h, _, _, h5⟩
  · cases h
  · cases h; exact ⟨m, h1, h2, h5⟩
example : ∃ f, WirelessFrame.tryFrom sampleWireless = .ok f := by
  have : (match WirelessFrame.tryFrom sampleWireless with | .ok _ => true | _ => false) = true := by
    decide +kernel
  cases h : WirelessFrame.tryFrom sampleWireless with
  | ok f => exact ⟨f, rfl⟩
  | err e => rw [h] at this; cases this
  | panic => rw [h] at this; cases this

/-! ## C65: decrypting a parsed user data block -/

/-- C65: if the payload after a long header with security mode 5 is the AES-128-CBC encryption of
whole blocks, under the meter's key and the initialisation vector of EN 13757-7 formed from the
header bytes, followed by a clear partial block, then decrypting the parsed block gives the plain
bytes.  CI 76 sends the identification number the other way round; the vector has it least
significant byte first. -/
theorem C65_decrypt_mode5 (enc dec : AesBlock) (key : List UInt8) (hk : key.length = 16)
    (hlen : ∀ b, b.length = 16 → (enc key b).length = 16)
    (hinv : ∀ b, b.length = 16 → dec key (enc key b) = b)
    (getKey : KeyContext → Res DecryptionError (List UInt8)) (reversed : Bool)
    (i0 i1 i2 i3 m0 m1 version device acc st c0 c1 : UInt8)
    (hb : AllBcd [i0, i1, i2, i3]) (hc1 : c1.toNat % 32 = 5)
    (code : ManufacturerCode) (hcode : ManufacturerCode.fromId (le16 m0 m1) = .ok code)
    (hgk : ∀ ctx : KeyContext, ctx.manufacturer = code → ctx.identificationNumber.toNat =
      bcdValue (idBytes reversed i0 i1 i2 i3) → getKey ctx = .ok key)
    (blocks : List (List UInt8)) (hbl : ∀ b ∈ blocks, b.length = 16) (hne : blocks ≠ [])
    (tail : List UInt8) (ht : tail.length < 16) (output : List UInt8)
    (ho : 16 * blocks.length + tail.length ≤ output.length) :
    ∃ blk out', UserDataBlock.tryFrom
        ([longCi reversed, i0, i1, i2, i3, m0, m1, version, device, acc, st, c0, c1] ++
          (cbcEncrypt enc key (headerIv m0 m1 (idBytes reversed i0 i1 i2 i3) version device acc)
            blocks ++ tail)) = .ok blk ∧
      blk.decryptVariableData dec getKey output =
        (.ok (16 * blocks.length + tail.length), out') ∧
      out'.take (16 * blocks.length + tail.length) = blocks.flatten ++ tail := by
  have hb' : AllBcd (idBytes reversed i0 i1 i2 i3) := by
    cases reversed
    · exact hb
    · simp only [idBytes, if_true]; rw [allBcd_four] at *; tauto
  have hid : ∃ d0 d1 d2 d3, idBytes reversed i0 i1 i2 i3 = [d0, d1, d2, d3] := by
    cases reversed <;> simp [idBytes]
  obtain ⟨d0, d1, d2, d3, hd⟩ := hid
  rw [hd] at hb' hgk ⊢
  have hn := bcdHex_of d0 d1 d2 d3 hb'
  have hbound := C08_bcd_id_bound d0 d1 d2 d3 _ hn
  rw [le16_eq] at hcode
  have hmode : (⟨le16 c0 c1⟩ : ConfigurationField).securityMode = .aesCbc128IvNonZero := by
    have := c0.toNat_lt
    rw [C10_security_mode_names]
    have : (le16 c0 c1).toNat / 256 % 32 = 5 := by rw [le16_eq, u16le_toNat]; omega
    rw [this]; rfl
  have hiv := C41_iv_is_address_field m0 m1 d0 d1 d2 d3 version device acc .aesCbc128IvNonZero code _
    hcode hn
  obtain ⟨out', h1, h2⟩ := C40_cbc_inverts_encryption enc dec key hk hlen hinv getKey
    ⟨code, UInt32.ofNat (bcdValue [d0, d1, d2, d3]), version, DeviceType.fromByte device,
      .aesCbc128IvNonZero, acc⟩
    (hgk _ rfl (by simp; omega)) (headerIv m0 m1 [d0, d1, d2, d3] version device acc)
    (Or.inr ⟨rfl, by rw [hiv]; rfl⟩) blocks hbl hne tail ht output ho
  refine ⟨_, out', (C32_accepts_iff _ _).2
    (.long reversed i0 i1 i2 i3 m0 m1 version device acc st c0 c1 _ hb), ?_, h2⟩
  rw [← h1]
  rw [le16_eq] at hmode
  simp only [UserDataBlock.decryptVariableData, LongTplHeader.isEncrypted, hmode, le16_eq, hcode, hd]
  rfl

/-- C65: what `decrypt_variable_data` says about blocks it does not decrypt; the buffer is not
touched. -/
theorem C65_not_decrypted (aes : AesBlock) (getKey : KeyContext → Res DecryptionError (List UInt8))
    (output : List UInt8) :
    (∀ ell h block, modeNumber h.short.configurationField = 0 →
      (UserDataBlock.long ell h block).decryptVariableData aes getKey output =
        (.err .notEncrypted, output)) ∧
    (∀ ell h block, modeNumber h.short.configurationField ≠ 0 → (∀ c, h.manufacturer ≠ .ok c) →
      (UserDataBlock.long ell h block).decryptVariableData aes getKey output =
        (.err .decryptionFailed, output)) ∧
    (∀ ell h block, (UserDataBlock.short ell h block).decryptVariableData aes getKey output =
        (.err (if modeNumber h.configurationField = 0 then .notEncrypted else .unknownEncryptionState),
          output)) ∧
    (∀ blk : UserDataBlock, (∀ ell h block, blk ≠ .long ell h block) →
      (∀ ell h block, blk ≠ .short ell h block) →
      blk.decryptVariableData aes getKey output = (.err .unknownEncryptionState, output)) := by
  have hz : ∀ cf : ConfigurationField, modeNumber cf = 0 →
      (cf.securityMode != .noEncryption) = false := by
    intro cf hm
    have := mode_zero_iff cf
    rw [Bool.eq_false_iff, ne_eq, this]; simp [hm]
  refine ⟨?_, ?_, ?_, ?_⟩
  · intro ell h block hm
    rw [UserDataBlock.decryptVariableData, LongTplHeader.isEncrypted, hz _ hm]
    rfl
  · intro ell h block hm hc
    rw [UserDataBlock.decryptVariableData, LongTplHeader.isEncrypted, (mode_zero_iff _).2 hm]
    cases hh : h.manufacturer with
    | ok c => exact absurd hh (hc c)
    | err e => rfl
    | panic => rfl
  · intro ell h block
    rw [UserDataBlock.decryptVariableData, ShortTplHeader.isEncrypted]
    by_cases hm : modeNumber h.configurationField = 0
    · rw [hz _ hm, if_pos hm]; rfl
    · rw [(mode_zero_iff _).2 hm, if_neg hm]; rfl
  · intro blk h1 h2
    cases blk with
    | long ell h block => exact absurd rfl (h1 ell h block)
    | short ell h block => exact absurd rfl (h2 ell h block)
    | _ => rfl

theorem decryptInto_ok_length (aes : AesBlock)
    (getKey : KeyContext → Res DecryptionError (List UInt8)) (ctx : KeyContext)
    (data output : List UInt8) (n : Nat) (h : (decryptInto aes getKey ctx data output).1 = .ok n) :
    n = data.length ∧ n ≤ output.length := by
  rw [C39_decrypt_result] at h
  split at h
  · cases h
  · cases h
  · repeat' split at h
    all_goals first | (cases h; done) | (cases h; exact ⟨rfl, by assumption⟩)

/-- C65: a successful decryption wrote `variable_data_len` bytes, and that many fit the buffer. -/
theorem C65_written_length (aes : AesBlock) (getKey : KeyContext → Res DecryptionError (List UInt8))
    (blk : UserDataBlock) (output : List UInt8) (n : Nat)
    (h : (blk.decryptVariableData aes getKey output).1 = .ok n) :
    n = blk.variableDataLen ∧ n ≤ output.length := by
  cases blk with
  | long ell hd block =>
    rw [UserDataBlock.decryptVariableData] at h
    split at h
    · cases h
    · split at h
      · exact decryptInto_ok_length _ _ _ _ _ _ h
      · cases h
  | short ell hd block =>
    rw [UserDataBlock.decryptVariableData] at h
    split at h <;> cases h
  | _ => cases h

/-- C65: `variable_data_len` is the number of bytes after the header. -/
theorem C65_variable_data_len (blk : UserDataBlock) :
    blk.variableDataLen =
      match blk with
      | .long _ _ block | .short _ _ block | .noTpl _ block => block.length
      | .reset .. | .fixed .. => 0 := by
  cases blk <;> rfl

/-- C65: a short header has no address; the one of the link layer passed as context is used, so the
block decrypts exactly as under a long header carrying that address. -/
theorem C65_with_context (aes : AesBlock) (getKey : KeyContext → Res DecryptionError (List UInt8))
    (ell ell' : Option ExtendedLinkLayer) (h : ShortTplHeader) (block : List UInt8)
    (code : ManufacturerCode) (n : Nat) (version : UInt8) (device : DeviceType) (lsb : Bool)
    (output : List UInt8) :
    (UserDataBlock.short ell h block).decryptVariableDataWithContext aes getKey code
        (UInt32.ofNat n) version device output =
      (UserDataBlock.long ell' ⟨n, .ok code, version, device, h, lsb⟩ block).decryptVariableData
        aes getKey output := by
  rfl

/-- Non-vacuity of `C65_decrypt_mode5`: byte-wise complement as the block cipher. -/
example : ∃ blk out', UserDataBlock.tryFrom
      ([longCi true, 0x12, 0x34, 0x56, 0x78, 0xE6, 0x1E, 0x3C, 0x07, 0x2A, 0, 0x20, 0x05] ++
        (cbcEncrypt (fun _ b => b.map (~~~ ·)) (List.replicate 16 1)
          (headerIv 0xE6 0x1E (idBytes true 0x12 0x34 0x56 0x78) 0x3C 0x07 0x2A)
          [List.replicate 16 3, List.replicate 16 4] ++ [1, 2])) = .ok blk ∧
    blk.decryptVariableData (fun _ b => b.map (~~~ ·)) (fun _ => .ok (List.replicate 16 1))
      (List.replicate 40 0) = (.ok 34, out') ∧
    out'.take 34 = [List.replicate 16 3, List.replicate 16 4].flatten ++ [1, 2] :=
  C65_decrypt_mode5 (fun _ b => b.map (~~~ ·)) (fun _ b => b.map (~~~ ·)) (List.replicate 16 1)
    (by simp) (by simp) (by intro b _; simp [Function.comp_def]) _ true
    0x12 0x34 0x56 0x78 0xE6 0x1E 0x3C 0x07 0x2A 0 0x20 0x05 (by decide +kernel) (by decide)
    ⟨71, 87, 70⟩ (by decide +kernel) (fun _ _ _ => rfl)
    [List.replicate 16 3, List.replicate 16 4] (by decide) (by simp) [1, 2]
    (by decide) (List.replicate 40 0) (by decide)

/-! ## C66: status text -/

/-- C66: a non-zero status is shown as the names of the flags set, from bit 0 up, separated by
commas; 0 is shown as `No Error(s)`. -/
theorem C66_status_text (status : UInt8) :
    statusDisplay status =
      if status = 0 then "No Error(s)".toList else commaSeparated (setFlags status) := by
  have key : ∀ s : UInt8, statusDisplay s =
      if s = 0 then "No Error(s)".toList else commaSeparated (setFlags s) := by decide +kernel
  exact key status

/-- C66: different status bytes have different texts. -/
theorem C66_status_injective (a b : UInt8) (h : statusDisplay a = statusDisplay b) : a = b := by
  have key : ∀ s : UInt8, (statusNames.map fun name =>
      (statusDisplay s).tails.any (name.toList.isPrefixOf ·)) =
        (List.range 8).map (s.toNat.testBit ·) := by decide +kernel
  have h1 := key a
  rw [h, key b, List.map_inj_left] at h1
  apply UInt8.toNat_inj.1
  apply Nat.eq_of_testBit_eq
  intro i
  by_cases hi : i < 8
  · exact (h1 i (List.mem_range.2 hi)).symm
  · have hp : 2 ^ 8 ≤ 2 ^ i := Nat.pow_le_pow_right (by decide) (by omega)
    have ha := a.toNat_lt
    have hb := b.toNat_lt
    rw [Nat.testBit_lt_two_pow (by omega), Nat.testBit_lt_two_pow (by omega)]

example : statusDisplay 0x14 = "Power low, Temporary error".toList := by decide +kernel

/-! ## C67: direction -/

/-- C67: every CI field the parser decodes, apart from the application reset, is one that a meter
sends; the application reset is one that a meter receives. -/
theorem C67_direction (ci : UInt8) (rest : List UInt8) (blk : UserDataBlock)
    (h : UserDataBlock.tryFrom (ci :: rest) = .ok blk) (c : ControlInformation)
    (hc : ControlInformation.ofByte ci = .ok c) :
    ((∃ s, blk = .reset s) → Direction.ofControl c = .masterToSlave) ∧
    ((∀ s, blk ≠ .reset s) → Direction.ofControl c = .slaveToMaster) := by
  have key : ∀ b : UInt8, isDecoded b → ∀ c, ControlInformation.ofByte b = .ok c →
      Direction.ofControl c = if b = 0x50 then .masterToSlave else .slaveToMaster := by
    have : ∀ b : UInt8, isDecoded b → (match ControlInformation.ofByte b with
        | .ok c => decide (Direction.ofControl c =
            if b = 0x50 then .masterToSlave else .slaveToMaster)
        | _ => true) = true := by decide +kernel
    intro b hb c hc
    have := this b hb
    rw [hc] at this
    simpa using this
  rw [C32_accepts_iff] at h
  generalize hd : ci :: rest = data at h
  have hshort : ∀ b : UInt8, isShortCi b → b ≠ 0x50 ∧ isDecoded b := by
    intro b hb
    rcases hb with rfl | hb
    · decide
    · exact ⟨by rintro rfl; simp at hb, Or.inr ⟨by omega, hb.2⟩⟩
  cases h with
  | reset => cases hd; rw [key _ (by decide) c hc]; simp
  | long reversed => cases hd; cases reversed <;> rw [key _ (by decide) c hc] <;> simp [longCi]
  | short b _ _ _ _ _ hb =>
    cases hd; rw [key _ (hshort _ hb).2 c hc, if_neg (hshort _ hb).1]; simp
  | ellI cc acc rest blk0 _ hb hw =>
    cases hd
    rw [key _ (by decide) c hc]
    cases blk0 <;> simp [withEll] at hw <;> subst hw <;> simp
  | fixed =>
    cases hd
    have hci : ci = 0x73 ∨ ci = 0x77 := by assumption
    rcases hci with rfl | rfl <;> rw [key _ (by decide) c hc] <;> simp
  | _ => cases hd; rw [key _ (by decide) c hc]; simp

example : ControlInformation.ofByte 0x72 = .ok (.responseWithVariableDataStructure false) ∧
    ∃ blk, UserDataBlock.tryFrom sampleLongBlock = .ok blk :=
  ⟨by decide +kernel, _, (C32_accepts_iff _ _).2 sampleLongBlock_ok⟩

end MBus
