import Verif.Props.OutputFields
/-!
# Properties of the records of a decoded telegram
-/
namespace MBus
open Spec

/-! ## C89: the records of a clear telegram -/

/-- Clear payloads are accepted as blocks that are not encrypted and have the clear records attached. -/
theorem clear_block (payload d : List UInt8) (h : ClearData payload d) :
    ∃ blk, Block payload blk ∧ blk.attachedRecords = some (DataRecords.new d false) ∧
      (securityFields (some blk)).1 = false ∧
      ((∀ reversed, payload.head? ≠ some (longCi reversed)) →
        ∀ ell : ExtendedLinkLayer, ell.encryption = none → ∃ blk', withEll ell blk = some blk' ∧
          blk'.attachedRecords = some (DataRecords.new d false) ∧
          (securityFields (some blk')).1 = false) := by
  have hclear : ∀ c0 c1 : UInt8, c1.toNat % 32 = 0 →
      (⟨le16 c0 c1⟩ : ConfigurationField).securityMode = .noEncryption := by
    intro c0 c1 hc
    have := (mode_zero_iff ⟨le16 c0 c1⟩).not.2 (by rw [mode_bytes]; simp [hc])
    simpa using this
  induction h with
  | long reversed i0 i1 i2 i3 m0 m1 version device acc st c0 c1 d hb hc =>
    refine ⟨_, .long reversed i0 i1 i2 i3 m0 m1 version device acc st c0 c1 d hb, rfl, ?_, ?_⟩
    · simp [securityFields, hclear c0 c1 hc]
    · intro hr; exact absurd rfl (hr reversed)
  | short ci acc st c0 c1 d hci hc =>
    refine ⟨_, .short ci acc st c0 c1 d hci, rfl, ?_, ?_⟩
    · simp [securityFields, hclear c0 c1 hc]
    · intro _ ell he
      exact ⟨_, rfl, rfl, by simp [securityFields, hclear c0 c1 hc, he]⟩
  | shortA0 x acc st c0 c1 d hc =>
    refine ⟨_, .shortA0 x acc st c0 c1 d, rfl, ?_, ?_⟩
    · simp [securityFields, hclear c0 c1 hc]
    · intro _ ell he
      exact ⟨_, rfl, rfl, by simp [securityFields, hclear c0 c1 hc, he]⟩
  | noTpl d => exact ⟨_, .noTpl d, rfl, rfl, fun _ ell _ => ⟨_, rfl, rfl, rfl⟩⟩
  | ellI cc acc inner d _ hr ih =>
    obtain ⟨blk, hb, _, _, h4⟩ := ih
    obtain ⟨blk', h5, h6, h7⟩ := h4 hr ⟨cc, acc, none, none⟩ rfl
    refine ⟨blk', .ellI cc acc inner blk blk' hb h5, h6, h7, ?_⟩
    intro _ ell he
    cases blk with
    | short e h b =>
      simp only [withEll, Option.some.injEq] at h5
      subst h5
      refine ⟨_, rfl, h6, ?_⟩
      simp only [securityFields, Option.any_some, Option.isSome_none, Bool.false_and,
        Bool.false_eq_true, if_false, he] at h7 ⊢
      exact h7
    | noTpl e b =>
      simp only [withEll, Option.some.injEq] at h5
      subst h5
      exact ⟨_, rfl, h6, rfl⟩
    | _ => simp [withEll] at h5

theorem items_shape (cfg : Cfg) (d : List UInt8) : ∃ rs : List DataRecord, parseDataRecords cfg false d = rs.map .ok ∨
    (∃ e, parseDataRecords cfg false d = rs.map .ok ++ [.err e]) ∨
    parseDataRecords cfg false d = rs.map .ok ++ [.panic] := by
  have h := (C27_items cfg false d _).1 rfl
  generalize parseDataRecords cfg false d = items at h
  induction h with
  | nil => exact ⟨[], Or.inl rfl⟩
  | skip b data items _ _ ih => exact ih
  | record b data rest r items _ _ _ _ _ ih =>
    obtain ⟨rs, h | ⟨e, h⟩ | h⟩ := ih
    · exact ⟨r :: rs, Or.inl (by simp [h])⟩
    · exact ⟨r :: rs, Or.inr (Or.inl ⟨e, by simp [h]⟩)⟩
    · exact ⟨r :: rs, Or.inr (Or.inr (by simp [h]))⟩
  | fail b data _ hf =>
    cases hx : DataRecord.parse cfg false (b :: data) with
    | ok r => exact absurd hx (hf r)
    | err e => exact ⟨[], Or.inr (Or.inl ⟨e, rfl⟩)⟩
    | panic => exact ⟨[], Or.inr (Or.inr rfl)⟩

theorem collectItems_panic (rs : List DataRecord) (out : List DataRecord) (o : Nat) :
    collectItems (rs.map .ok ++ [.panic]) out o = none := by
  induction rs generalizing out o with
  | nil => rfl
  | cons r rs ih => simp [collectItems, ih]

/-- The decoding of a clear telegram follows from its records. -/
theorem clear_decode (cfg : Cfg) (aes : AesBlock) (data : List UInt8) (link : Option ManufacturerId)
    (payload d : List UInt8) (options : DecodeOptions) (ht : Telegram data link payload)
    (hd : ClearData payload d) :
    (∀ rs : List DataRecord, parseDataRecords cfg false d = rs.map .ok →
      ∃ o, decodeBytes cfg aes data options = .ok o ∧ o.records = recordOutputs rs ∧
        o.decodeState = "complete".toList ∧ o.security.payloadProtection = "cleartext".toList) ∧
    (∀ (rs : List DataRecord) e, parseDataRecords cfg false d = rs.map .ok ++ [.err e] →
      ∃ o, decodeBytes cfg aes data options = .ok o ∧ o.records = recordOutputs rs ∧
        o.decodeState = "partial".toList ∧ o.security.payloadProtection = "cleartext".toList ∧
        recordDiagnostic ((rs.map (·.rawBytes.length)).sum, e) ∈ o.diagnostics) ∧
    (∀ rs : List DataRecord, parseDataRecords cfg false d = rs.map .ok ++ [.panic] →
      decodeBytes cfg aes data options = .panic) := by
  obtain ⟨blk, hb, ha, hs, _⟩ := clear_block payload d hd
  obtain ⟨protocol, frame, normalized, stripped, hdec⟩ := decode_telegram cfg aes data link payload ht
  have hell : (securityFields (some blk)).2.2 = false := by
    cases blk with
    | short ell h b =>
      simp only [securityFields] at hs ⊢
      split at hs
      · cases hs
      · rename_i hx
        rw [if_neg hx]
        simp only at hs ⊢
        simp only [Bool.and_eq_true, not_and] at hx
        cases hy : ell.any (fun e => e.encryption.isSome)
        · rfl
        · exact absurd (by simpa using hs) (by simpa using hx hy)
    | _ => rfl
  rw [hdec, (C32_accepts_iff _ _).2 hb]
  simp only [finish, prepareSecurity_clear _ _ _ _ _ hs, recordsToShow, ha, Bool.false_eq_true, if_false,
    buildOutput]
  refine ⟨?_, ?_, ?_⟩
  · intro rs h
    have h := C54_no_error cfg (DataRecords.new d false) rs h
    simp only [h]
    exact ⟨_, rfl, rfl, by simp, by simp [hell]⟩
  · intro rs e h
    have h := C54_reported cfg (DataRecords.new d false) rs e h
    simp only [h]
    exact ⟨_, rfl, rfl, by simp, by simp [hell], by simp⟩
  · intro rs h
    have h : collectRecords cfg (some (DataRecords.new d false)) = none := by
      have := collectItems_panic rs [] 0
      rw [← h] at this
      exact this
    simp only [h]

theorem hexSpaced_tokens (bytes : List UInt8) : Tokens (hexSpaced bytes) bytes := by
  have hb : ∀ b : UInt8, ByteToken (hexString [b]) b := by
    intro b
    refine ⟨[], hexString [b], rfl, by simp, ?_⟩
    rw [(C43_hex_string [b] (by simp)).1]
    obtain ⟨hi, lo, x, y, h1, h2, h3, h4⟩ := hexPair_pairs true b
    have := Pairs.cons hi lo x y [] [] h2 h3 .nil
    rw [h4] at this
    simpa [h1] using this
  unfold hexSpaced
  induction bytes with
  | nil => exact .nil
  | cons b rest ih =>
    cases rest with
    | nil => simpa [List.intercalate] using Tokens.last _ b (hb b)
    | cons c rest =>
      have := Tokens.token _ b ' ' _ _ (hb b) (by decide) ih
      simpa [List.intercalate] using this

theorem recordOutputs_index (rs : List DataRecord) :
    (recordOutputs rs).map (·.index) = List.range (recordOutputs rs).length := by
  unfold recordOutputs
  rw [List.map_map, List.length_map, List.length_zipIdx]
  have : ((fun x => x.index) ∘ fun (x : DataRecord × Nat) => recordOutput x.2 x.1) = Prod.snd := by
    funext x; rfl
  rw [this, List.zipIdx_map_snd, List.range_eq_range']

/-- C89: the records are numbered from 0 without gaps, whatever the telegram. -/
theorem C89_indices (cfg : Cfg) (aes : AesBlock) (data : List UInt8) (options : DecodeOptions)
    (o : DecodedOutput) (h : decodeBytes cfg aes data options = .ok o) :
    o.records.map (·.index) = List.range o.records.length := by
  have := decoding cfg aes data options
  rw [h] at this
  generalize hr : (Res.ok o : Res OutputError DecodedOutput) = r at this
  cases this with
  | empty => cases hr
  | crash => cases hr
  | wired g m =>
    obtain ⟨c, outs, err, _, _, _, _, _, ho, _⟩ := finish_ok _ _ _ _ _ _ _ _ _ _ _ _ hr.symm
    rw [ho]; exact recordOutputs_index outs
  | wireless f m frame =>
    obtain ⟨c, outs, err, _, _, _, _, _, ho, _⟩ := finish_ok _ _ _ _ _ _ _ _ _ _ _ _ hr.symm
    rw [ho]; exact recordOutputs_index outs
  | neither => cases hr

theorem parsed_from (cfg : Cfg) (lsb : Bool) (data : List UInt8) (r : DataRecord)
    (h : .ok r ∈ parseDataRecords cfg lsb data) :
    ∃ rest, rest <:+ data ∧ DataRecord.parse cfg lsb rest = .ok r := by
  have hi := (C27_items cfg lsb data _).1 rfl
  generalize parseDataRecords cfg lsb data = items at h hi
  induction hi with
  | nil => simp at h
  | skip b data items _ _ ih =>
    obtain ⟨rest, h1, h2⟩ := ih h
    exact ⟨rest, h1.trans (List.suffix_cons _ _), h2⟩
  | record b data rest r' items _ hp hr _ _ ih =>
    rw [List.mem_cons] at h
    obtain h | h := h
    · cases h; exact ⟨_, List.suffix_refl _, hp⟩
    · obtain ⟨rest', h1, h2⟩ := ih h
      exact ⟨rest', h1.trans (hr ▸ List.suffix_append _ _), h2⟩
  | fail b data _ hf =>
    simp only [List.mem_singleton] at h
    exact ⟨_, List.suffix_refl _, h.symm⟩

theorem shown_pieces (cfg : Cfg) (lsb : Bool) (data : List UInt8) (rs : List DataRecord)
    (h : ∀ r ∈ rs, .ok r ∈ parseDataRecords cfg lsb data) :
    List.Forall₂ ShowsBytes (recordOutputs rs) (rs.map (·.rawBytes)) := by
  have key : ∀ (rs : List DataRecord) (n : Nat), (∀ r ∈ rs, .ok r ∈ parseDataRecords cfg lsb data) →
      List.Forall₂ ShowsBytes ((rs.zipIdx n).map (fun (r, i) => recordOutput i r))
        (rs.map (·.rawBytes)) := by
    intro rs
    induction rs with
    | nil => intro n _; exact .nil
    | cons r rs ih =>
      intro n h
      rw [List.zipIdx_cons, List.map_cons, List.map_cons]
      refine .cons ?_ (ih _ (fun r' hr' => h r' (by simp [hr'])))
      obtain ⟨rest, _, hp⟩ := parsed_from cfg lsb data r (h r (by simp))
      exact ⟨r.headerBytes, r.dataBytes, ((C29_raw_bytes cfg lsb rest r hp).2.1).symm,
        hexSpaced_tokens _, hexSpaced_tokens _⟩
  exact key rs 0 h

/-- C89: the bytes shown for the records of a clear telegram are, in order and apart from skipped filler
bytes, its data up to the place where a record cannot be parsed; if the decoding is complete, all of it. -/
theorem C89_bytes (cfg : Cfg) (aes : AesBlock) (data : List UInt8) (link : Option ManufacturerId)
    (payload d : List UInt8) (options : DecodeOptions) (ht : Telegram data link payload)
    (hd : ClearData payload d) (o : DecodedOutput) (h : decodeBytes cfg aes data options = .ok o) :
    ∃ done rest pieces, d = done ++ rest ∧ Tiles done pieces ∧
      List.Forall₂ ShowsBytes o.records pieces ∧
      (o.decodeState = "complete".toList → rest = []) ∧
      (rest ≠ [] → ∃ e, DataRecord.parse cfg false rest = .err e) := by
  obtain ⟨h1, h2, h3⟩ := clear_decode cfg aes data link payload d options ht hd
  obtain ⟨rs, hi | ⟨e, hi⟩ | hi⟩ := items_shape cfg d
  · obtain ⟨o', ho, hr, hs, _⟩ := h1 rs hi
    rw [h] at ho; cases ho
    refine ⟨d, [], _, by simp, C28_records_tile cfg false d rs hi, ?_, fun _ => rfl, fun h => absurd rfl h⟩
    rw [hr]
    exact shown_pieces cfg false d rs (by intro r hr; rw [hi]; simpa using hr)
  · obtain ⟨o', ho, hr, hs, _⟩ := h2 rs e hi
    rw [h] at ho; cases ho
    obtain ⟨done, rest, h4, h5, h6⟩ := C28_records_tile_before_error cfg false d rs _ (by simp) hi
    refine ⟨done, rest, _, h4, h5, ?_, ?_, fun _ => ⟨e, h6⟩⟩
    · rw [hr]
      exact shown_pieces cfg false d rs (by intro r hr; rw [hi]; simpa using hr)
    · rw [hs]; intro hx; exact absurd hx (by decide)
  · rw [h3 rs hi] at h; cases h

/-- C89: a clear telegram all of whose records can be parsed is decoded completely, and one with a
record that cannot be parsed up to this record, with a warning. -/
theorem C89_shown (cfg : Cfg) (aes : AesBlock) (data : List UInt8) (link : Option ManufacturerId)
    (payload d : List UInt8) (options : DecodeOptions) (ht : Telegram data link payload)
    (hd : ClearData payload d) (rs : List DataRecord) :
    (parseDataRecords cfg false d = rs.map .ok →
      ∃ o, decodeBytes cfg aes data options = .ok o ∧ o.decodeState = "complete".toList ∧
        o.records.length = rs.length ∧ ∀ i r, rs[i]? = some r → o.records[i]? = some (recordOutput i r)) ∧
    (∀ e, parseDataRecords cfg false d = rs.map .ok ++ [.err e] →
      ∃ o, decodeBytes cfg aes data options = .ok o ∧ o.decodeState = "partial".toList ∧
        o.records.length = rs.length ∧ (∀ i r, rs[i]? = some r → o.records[i]? = some (recordOutput i r)) ∧
        ∃ w ∈ o.diagnostics, w.severity = "warning".toList ∧
          w.code = "application.record_partial".toList ∧ w.message = e.display) := by
  have hl : (recordOutputs rs).length = rs.length := by simp [recordOutputs]
  have hg : ∀ i r, rs[i]? = some r → (recordOutputs rs)[i]? = some (recordOutput i r) := by
    intro i r hr
    simp [recordOutputs, hr]
  obtain ⟨h1, h2, h3⟩ := clear_decode cfg aes data link payload d options ht hd
  constructor
  · intro hi
    obtain ⟨o, ho, hr, hs, _⟩ := h1 rs hi
    exact ⟨o, ho, hs, hr ▸ hl, hr ▸ hg⟩
  · intro e hi
    obtain ⟨o, ho, hr, hs, _, hw⟩ := h2 rs e hi
    exact ⟨o, ho, hs, hr ▸ hl, hr ▸ hg, _, hw, rfl, rfl, rfl⟩

/-- C89: what a record shows of its data information block.  The storage number is off, as in C17. -/
theorem C89_fields (cfg : Cfg) (lsb : Bool) (data : List UInt8) (r : DataRecord) (i : Nat)
    (h : DataRecord.parse cfg lsb data = .ok r) :
    ∃ dif difes rest, data = dif :: (difes ++ rest) ∧
      (dif.toNat < 128 ∧ difes = [] ∨ 128 ≤ dif.toNat ∧ Chain difes) ∧
      (recordOutput i r).tariff = tariffNumber difes ∧
      (recordOutput i r).subunit = subunitNumber difes ∧
      (recordOutput i r).storageNumber = dif.toNat / 64 % 2 + 32 * storageBits difes ∧
      (recordOutput i r).function = (functionText dif).toList := by
  obtain ⟨h1, rest, di, hr, hdi, hp, hraw⟩ := (record_ok _ _ _ _).mp h
  obtain ⟨h2, h3⟩ := recordHeader_ok _ _ _ h1
  obtain ⟨_, hn, hb, _⟩ := rawHeader_ok _ _ _ h2
  have hlen : (r.header.raw.dib.difes.getD []).length ≤ 11 := by
    rw [dib_ok] at hb
    rcases hb with ⟨_, _, _, _, hx⟩ | ⟨_, _, _, _, _, _, hl, hx⟩ <;> rw [hx] <;> simp_all
  obtain ⟨d, hd, hs, ht, hv, hf, hc, _⟩ := dataInfo_ok r.header.raw.dib hlen
  have hfields : di.storageNumber = d.storageNumber ∧ di.tariff = d.tariff ∧ di.device = d.device ∧
      di.functionField = d.functionField ∧
      (r.header.raw.vib = none → di.coding = d.coding) ∧
      (r.header.raw.vib ≠ none → ∃ l, di.coding = dateCoding l d.coding) := by
    unfold ProcessedHeader.tryFrom at h3
    rw [hd] at h3
    cases hvib : r.header.raw.vib with
    | none =>
      rw [hvib] at h3
      simp only [(special_iff _).mpr (hn.mp hvib), if_true, Res.mapErr_ok, Res.bind_ok, Res.ok.injEq] at h3
      rw [← h3] at hdi
      simp only [Option.some.injEq] at hdi
      subst hdi
      simp
    | some v =>
      rw [hvib] at h3
      simp only at h3
      rw [Res.bind_eq_ok] at h3
      obtain ⟨v', _, h4⟩ := h3
      simp only [Res.mapErr_ok, Res.bind_ok, Res.ok.injEq] at h4
      rw [← h4] at hdi
      simp only [Option.some.injEq] at hdi
      subst hdi
      exact ⟨rfl, rfl, rfl, rfl, by simp, fun _ => ⟨_, rfl⟩⟩
  obtain ⟨g1, g2, g3, g4, g5, g6⟩ := hfields
  have hfun : (recordOutput i r).function = (functionText r.header.raw.dib.dif).toList := by
    have k1 : ∀ b : UInt8, b.toNat % 16 = 15 → codingOf b = .specialFunctions (specialFunction b) ∧
        specialFunctionName (specialFunction b) = (functionText b).toList := by decide +kernel
    have k2 : ∀ b : UInt8, b.toNat % 16 ≠ 15 → (∀ f, codingOf b ≠ .specialFunctions f) ∧
        recordFunctionName (functionFieldOf b) = (functionText b).toList := by
      have k3 : ∀ b : UInt8, b.toNat % 16 ≠ 15 →
        (match codingOf b with | .specialFunctions _ => false | _ => true) = true ∧
        recordFunctionName (functionFieldOf b) = (functionText b).toList := by decide +kernel
      intro b hb
      refine ⟨fun f hf => ?_, (k3 b hb).2⟩
      have := (k3 b hb).1
      rw [hf] at this
      cases this
    simp only [recordOutput, hdi]
    cases hvib : r.header.raw.vib with
    | none =>
      obtain ⟨k4, k5⟩ := k1 _ (hn.mp hvib)
      rw [g5 hvib, hc, k4]
      exact k5
    | some v =>
      obtain ⟨k4, k5⟩ := k2 r.header.raw.dib.dif (fun hx => by rw [hn.mpr hx] at hvib; cases hvib)
      obtain ⟨l, k6⟩ := g6 (by simp [hvib])
      have k7 : ∀ f, di.coding ≠ .specialFunctions f := by
        intro f hx
        rw [k6, hc, dateCoding] at hx
        split at hx
        · cases hx
        · split at hx
          · split at hx <;> cases hx
          · split at hx
            · cases hx
            · split at hx
              · cases hx
              · exact k4 f hx
      rw [g4, hf, k5]
      split
      · rename_i f hx
        exact absurd hx (k7 f)
      · rfl
  rw [dib_ok] at hb
  rcases hb with ⟨dif, rest', hx, hy, hz⟩ | ⟨dif, difes, rest', hx, hy, hch, _, hz⟩
  · rw [hz] at hs ht hv hfun
    refine ⟨dif, [], rest', by simpa using hx, Or.inl ⟨hy, rfl⟩, ?_, ?_, ?_, hfun⟩ <;>
      simp only [recordOutput, hdi, Option.map_some, Option.getD_some, g1, g2, g3, hs, ht, hv,
        Option.getD_none]
  · rw [hz] at hs ht hv hfun
    refine ⟨dif, difes, rest', by simpa using hx, Or.inr ⟨hy, hch⟩, ?_, ?_, ?_, hfun⟩ <;>
      simp only [recordOutput, hdi, Option.map_some, Option.getD_some, g1, g2, g3, hs, ht, hv]

/-- A telegram without transport header, with two records, a filler between them and a record that is cut
off at the end. -/
example : ∃ link, Telegram [0x68, 0x12, 0x12, 0x68, 0x08, 0x01, 0x78, 0x8C, 0x10, 0x13, 0x78, 0x56, 0x34, 0x12, 0x2F, 0x01, 0xFD, 0x17, 0x05, 0x02, 0x13, 0x01, 0xA3, 0x16]
    link [0x78, 0x8C, 0x10, 0x13, 0x78, 0x56, 0x34, 0x12, 0x2F, 0x01, 0xFD, 0x17, 0x05, 0x02, 0x13, 0x01] :=
  ⟨none, wired_telegram _ _ (.rspUd false false) (.primary 1) (by decide +kernel)⟩

example : ClearData [0x78, 0x8C, 0x10, 0x13, 0x78, 0x56, 0x34, 0x12, 0x2F, 0x01, 0xFD, 0x17, 0x05, 0x02, 0x13, 0x01]
    [0x8C, 0x10, 0x13, 0x78, 0x56, 0x34, 0x12, 0x2F, 0x01, 0xFD, 0x17, 0x05, 0x02, 0x13, 0x01] := .noTpl _

/-! ## C90: records without a telegram -/

/-- C90: decoding data records on their own gives the records of a complete telegram with these data, and
an error exactly if the telegram is decoded partially. -/
theorem C90_data_records (cfg : Cfg) (aes : AesBlock) (data : List UInt8) (link : Option ManufacturerId)
    (payload d : List UInt8) (options : DecodeOptions) (ht : Telegram data link payload)
    (hd : ClearData payload d) (hne : d ≠ []) :
    (∀ records, decodeDataRecords cfg d = .ok records ↔
      ∃ o, decodeBytes cfg aes data options = .ok o ∧ o.decodeState = "complete".toList ∧
        o.records = records) ∧
    ((∃ e, decodeDataRecords cfg d = .err e) ↔
      ∃ o, decodeBytes cfg aes data options = .ok o ∧ o.decodeState = "partial".toList) ∧
    (decodeDataRecords cfg d = .panic ↔ decodeBytes cfg aes data options = .panic) := by
  obtain ⟨h1, h2, h3⟩ := clear_decode cfg aes data link payload d options ht hd
  have hcp : "partial".toList ≠ "complete".toList := by decide
  unfold decodeDataRecords
  rw [if_neg hne]
  obtain ⟨rs, hi | ⟨e, hi⟩ | hi⟩ := items_shape cfg d
  · obtain ⟨o, ho, hr, hs, _⟩ := h1 rs hi
    rw [C54_no_error cfg (DataRecords.new d false) rs hi, ho]
    refine ⟨fun records => ?_, ?_, by simp⟩
    · simp only [Res.ok.injEq]
      constructor
      · rintro rfl; exact ⟨o, rfl, hs, hr⟩
      · rintro ⟨o', rfl, _, h⟩; rw [← h, hr]
    · simp only [reduceCtorEq, exists_false, false_iff, not_exists, not_and, Res.ok.injEq]
      rintro o' rfl h
      rw [hs] at h
      exact hcp h.symm
  · obtain ⟨o, ho, hr, hs, _⟩ := h2 rs e hi
    rw [C54_reported cfg (DataRecords.new d false) rs e hi, ho]
    refine ⟨fun records => ?_, ?_, by simp⟩
    · simp only [reduceCtorEq, false_iff, not_exists, not_and, Res.ok.injEq]
      rintro o' rfl h
      rw [hs] at h
      exact absurd h hcp
    · exact ⟨fun _ => ⟨o, rfl, hs⟩, fun _ => ⟨_, rfl⟩⟩
  · have hn : collectRecords cfg (some (DataRecords.new d false)) = none := by
      have := collectItems_panic rs [] 0
      rw [← hi] at this
      exact this
    rw [hn, h3 rs hi]
    simp

/-- C90: no data are an error. -/
theorem C90_empty (cfg : Cfg) : decodeDataRecords cfg [] = .err .emptyInput := rfl

/-- C90: every record block fits a telegram. -/
theorem C90_clear (d : List UInt8) : ClearData (0x78 :: d) d := .noTpl d

/-! ## C91: what is called clear text -/

/-- Only payloads that announce encryption are parsed to encrypted blocks. -/
theorem block_encrypted (payload : List UInt8) (blk : UserDataBlock) (hb : Block payload blk) :
    BlockEncrypted blk → Encrypted payload := by
  induction hb with
  | long reversed i0 i1 i2 i3 m0 m1 version device acc st c0 c1 block h =>
    intro he
    simp only [BlockEncrypted, mode_bytes] at he
    exact .long reversed _ _ _ _ _ _ _ _ _ _ _ _ _ he
  | short ci acc st c0 c1 block hci =>
    intro he
    simp only [BlockEncrypted, mode_bytes] at he
    rcases he with he | ⟨_, _, h, _⟩
    · exact .short _ _ _ _ _ _ hci he
    · cases h
  | shortA0 x acc st c0 c1 block =>
    intro he
    simp only [BlockEncrypted, mode_bytes] at he
    rcases he with he | ⟨_, _, h, _⟩
    · exact .shortA0 _ _ _ _ _ _ he
    · cases h
  | ellI cc acc inner blk blk' hb hw ih =>
    intro he
    refine .ellI _ _ _ (ih ?_)
    cases blk with
    | short ell h block =>
      simp only [withEll, Option.some.injEq] at hw
      subst hw
      rcases he with he | ⟨e, s, h1, h2⟩
      · exact Or.inl he
      · cases h1; cases h2
    | noTpl ell block =>
      simp only [withEll, Option.some.injEq] at hw
      subst hw
      exact he
    | _ => simp [withEll] at hw
  | ellII cc acc s0 s1 s2 s3 r0 r1 block => intro _; exact .ellII _ _ _ _ _ _ _ _ _
  | ellIII cc acc m0 m1 a0 a1 a2 a3 a4 a5 s0 s1 s2 s3 r0 r1 block =>
    intro _; exact .ellIII _ _ _ _ _ _ _ _ _ _ _ _ _ _ _ _ _
  | reset => intro he; exact he.elim
  | fixed => intro he; exact he.elim
  | noTpl => intro he; exact he.elim

theorem prepareSecurity_fields (aes : AesBlock) (ud : Option UserDataBlock)
    (link : Option ManufacturerId) (key : Option (List UInt8)) (out : List UInt8) (c : SecurityContext)
    (h : prepareSecurity aes ud link key out = .ok c) :
    (c.encrypted = true ↔ ∃ blk, ud = some blk ∧ BlockEncrypted blk) ∧
      (c.encrypted = false → c.ellEncrypted = false) := by
  have hell : (securityFields ud).1 = false → (securityFields ud).2.2 = false := by
    intro hs
    cases ud with
    | none => rfl
    | some blk =>
      cases blk with
      | short ell h b =>
        simp only [securityFields] at hs ⊢
        split at hs
        · cases hs
        · rename_i hx
          rw [if_neg hx]
          simp only at hs ⊢
          simp only [Bool.and_eq_true, not_and] at hx
          cases hy : ell.any (fun e => e.encryption.isSome)
          · rfl
          · exact absurd (by simpa using hs) (by simpa using hx hy)
      | _ => rfl
  have henc : (securityFields ud).1 = true ↔ ∃ blk, ud = some blk ∧ BlockEncrypted blk := by
    cases ud with
    | none => simp [securityFields]
    | some blk => simp [securityFields_encrypted]
  unfold prepareSecurity at h
  rcases hf : securityFields ud with ⟨enc, mode, ell⟩
  rw [hf] at h hell henc
  cases enc with
  | false =>
    simp only [Res.ok.injEq] at h
    subst h
    exact ⟨by simpa using henc, hell⟩
  | true =>
    cases ud with
    | none => simp [securityFields] at hf
    | some blk =>
      have hc : c.encrypted = true := by
        simp only at h
        cases key with
        | none => simp only [Res.ok.injEq] at h; rw [← h]
        | some key =>
          simp only at h
          split at h
          · cases h
          · split at h
            · split at h
              · simp only [Res.ok.injEq] at h; rw [← h]
              · cases h
            · cases h
            · cases h
      exact ⟨by simpa [hc] using henc, by simp [hc]⟩

/-- C91: for every accepted payload, with or without key, the output says that the payload was encrypted
exactly if it announces so, and that it was clear text otherwise.  Missing: payloads the library does not
accept, see `C91_fails`, and hidden session numbers, see `C53_fails`. -/
theorem C91_protection_partial (cfg : Cfg) (aes : AesBlock) (data : List UInt8)
    (link : Option ManufacturerId) (payload : List UInt8) (options : DecodeOptions)
    (ht : Telegram data link payload) (hb : ∃ blk, Block payload blk) (hn : ¬ HiddenSession payload)
    (o : DecodedOutput) (h : decodeBytes cfg aes data options = .ok o) :
    (Encrypted payload → o.security.payloadProtection = "encrypted".toList) ∧
    (¬ Encrypted payload → o.security.payloadProtection = "cleartext".toList) := by
  obtain ⟨blk, hb⟩ := hb
  obtain ⟨protocol, frame, normalized, stripped, hdec⟩ := decode_telegram cfg aes data link payload ht
  rw [hdec, (C32_accepts_iff _ _).2 hb] at h
  obtain ⟨c, outs, err, hc, _, _, _, _, _, _, _, _, _, hp, _⟩ := finish_ok _ _ _ _ _ _ _ _ _ _ _ _ h
  obtain ⟨h1, h2⟩ := prepareSecurity_fields _ _ _ _ _ _ hc
  constructor
  · intro he
    rw [hp, if_pos (h1.2 ⟨blk, rfl, encrypted_block payload he blk hb hn⟩)]
  · intro he
    have hce : c.encrypted = false := by
      cases hx : c.encrypted
      · rfl
      · obtain ⟨b, hb', hbe⟩ := h1.1 hx
        cases hb'
        exact absurd (block_encrypted payload blk hb hbe) he
    rw [hp, hce, h2 hce]
    rfl

/-- C91: the value "unknown" provided for payloads whose protection cannot be told is never reported. -/
theorem C91_never_unknown (cfg : Cfg) (aes : AesBlock) (data : List UInt8) (options : DecodeOptions)
    (o : DecodedOutput) (h : decodeBytes cfg aes data options = .ok o) :
    o.security.payloadProtection = "encrypted".toList ∨
      o.security.payloadProtection = "cleartext".toList := by
  have main : ∀ c : SecurityContext, (c.encrypted = false → c.ellEncrypted = false) →
      (if c.encrypted then "encrypted" else if c.ellEncrypted then "unknown"
        else "cleartext").toList = "encrypted".toList ∨
      (if c.encrypted then "encrypted" else if c.ellEncrypted then "unknown"
        else "cleartext").toList = "cleartext".toList := by
    intro c hc
    cases hx : c.encrypted
    · rw [hc hx]; exact Or.inr rfl
    · exact Or.inl rfl
  have := decoding cfg aes data options
  rw [h] at this
  generalize hr : (Res.ok o : Res OutputError DecodedOutput) = r at this
  cases this with
  | empty => cases hr
  | crash => cases hr
  | wired g m =>
    obtain ⟨c, outs, err, hc, _, _, _, _, _, _, _, _, _, hp, _⟩ :=
      finish_ok _ _ _ _ _ _ _ _ _ _ _ _ hr.symm
    rw [hp]; exact main c (prepareSecurity_fields _ _ _ _ _ _ hc).2
  | wireless f m frame =>
    obtain ⟨c, outs, err, hc, _, _, _, _, _, _, _, _, _, hp, _⟩ :=
      finish_ok _ _ _ _ _ _ _ _ _ _ _ _ hr.symm
    rw [hp]; exact main c (prepareSecurity_fields _ _ _ _ _ _ hc).2
  | neither => cases hr

/-- C91 is false: the payload of a long header with security mode 5 below an extended link layer I, which
the library does not accept, is reported as clear text. -/
theorem C91_fails (cfg : Cfg) (aes : AesBlock) : ∃ data payload o,
    Telegram data none payload ∧ Encrypted payload ∧ decodeBytes cfg aes data ⟨none, false⟩ = .ok o ∧
    o.security.payloadProtection = "cleartext".toList := by
  refine ⟨wiredLong [0x8C, 0x20, 0x01, 0x72, 0x78, 0x56, 0x34, 0x12, 0xE6, 0x1E, 0x3C, 0x07, 0x2A, 0, 0x20, 5,
      1, 2, 3, 4], [0x8C, 0x20, 0x01, 0x72, 0x78, 0x56, 0x34, 0x12, 0xE6, 0x1E, 0x3C, 0x07, 0x2A, 0, 0x20, 5,
      1, 2, 3, 4], ?_⟩
  have key : (match decodeBytes cfg (fun _ _ => []) (wiredLong [0x8C, 0x20, 0x01, 0x72, 0x78, 0x56, 0x34,
      0x12, 0xE6, 0x1E, 0x3C, 0x07, 0x2A, 0, 0x20, 5, 1, 2, 3, 4]) ⟨none, false⟩ with
    | .ok o => decide (o.security.payloadProtection = "cleartext".toList)
    | _ => false) = true := by
    obtain ⟨oc, tf⟩ := cfg
    cases oc <;> cases tf <;> decide +kernel
  rw [decode_any_aes cfg _ aes] at key
  split at key
  · rename_i o ho
    exact ⟨o, wired_telegram _ _ (.rspUd false false) (.primary 1) (by decide +kernel),
      .ellI 0x20 1 _ (.long false 0x78 0x56 0x34 0x12 0xE6 0x1E 0x3C 7 0x2A 0 0x20 5 [1, 2, 3, 4]
        (by decide)), ho, of_decide_eq_true key⟩
  · cases key

end MBus
