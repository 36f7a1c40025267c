import Verif.Lemmas.Legacy
import Verif.Lemmas.Display
/-!
# C106–C109: the older outputs (`json-legacy`, `yaml-legacy`, `csv-wide`)
-/
namespace MBus
open Spec

/-- A wired telegram with a long header, meter 12345678, access number 42, security mode `mode`. -/
def olderWired (mode : UInt8) (block : List UInt8) : List UInt8 :=
  longFrameBytes 0x68 0x08 0x05
    ([0x72, 0x78, 0x56, 0x34, 0x12, 0x93, 0x15, 0x33, 0x03, 0x2A, 0x00, 0x00, mode] ++ block)

/-- A wireless telegram of the same meter. -/
def olderWireless (payload : List UInt8) : List UInt8 :=
  UInt8.ofNat (9 + payload.length) ::
    ([0x44, 0x93, 0x15, 0x78, 0x56, 0x34, 0x12, 0x33, 0x03] ++ payload)

theorem coding_text (c : Coding) : (∃ f, c = .specialFunctions f) ∨
    (c.display, dataCodingName c) ∈ codingTexts := by
  cases c with
  | specialFunctions f => exact .inl ⟨f, rfl⟩
  | _ => right; decide +kernel

theorem special_text (f : SpecialFunction) :
    ((Coding.specialFunctions f).display, specialFunctionName f) ∈ specialTexts := by
  cases f <;> decide +kernel

theorem coding_special (f : SpecialFunction) : dataCodingName (.specialFunctions f) = specialFunctionName f := rfl

theorem function_text (f : FunctionField) : (f.display, recordFunctionName f) ∈ functionTexts := by
  cases f <;> decide +kernel

theorem same_information (rt : UInt32 → List Char) (n : Nat) (r : DataRecord) :
    SameInformation (recordSummary rt r).dataInformation (recordOutput n r) := by
  cases hi : r.header.processed.dataInfo with
  | none =>
    have h1 : (recordSummary rt r).dataInformation = "None".toList := by simp only [recordSummary, hi]
    have h2 : (recordOutput n r).dataCoding = specialRecordName r := by simp only [recordOutput, hi]
    have h3 : (recordOutput n r).function = specialRecordName r := by simp only [recordOutput, hi]
    rw [h1]
    refine .none ?_ (by rw [h2, h3])
    rw [h2]
    unfold specialRecordName
    simp only
    repeat' split
    all_goals decide +kernel
  | some i =>
    have h1 : (recordSummary rt r).dataInformation =
        decimal i.storageNumber ++ [','] ++ i.functionField.display ++ [','] ++ i.coding.display := by
      simp only [recordSummary, hi, DataInfo.display, natText_eq]; simp
    have h2 : (recordOutput n r).storageNumber = i.storageNumber := by simp [recordOutput, hi]
    have h3 : (recordOutput n r).dataCoding = dataCodingName i.coding := by simp only [recordOutput, hi]
    rw [h1, ← h2]
    rcases coding_text i.coding with ⟨f, hf⟩ | hc
    · have h4 : (recordOutput n r).function = specialFunctionName f := by simp only [recordOutput, hi, hf]
      rw [hf, coding_special] at h3
      refine .special (List.mem_map.mpr ⟨_, function_text _, rfl⟩) ?_ (by rw [h3, h4])
      rw [h3, hf]; exact special_text f
    · refine .value ?_ (by rw [h3]; exact hc)
      have : (recordOutput n r).function = recordFunctionName i.functionField := by
        simp only [recordOutput, hi]
        split
        · rename_i f hf
          rw [hf] at hc
          exfalso; revert hc; cases f <;> decide +kernel
        · rfl
      rw [this]; exact function_text _

theorem unit_display_ne (u : MUnit) : u.display ≠ [] := by
  have h : u.name.display.toList ≠ [] := by cases u.name <;> decide
  simp only [MUnit.display]
  repeat' split
  all_goals simp [h]

theorem units_display_ne (us : List MUnit) : us.flatMap MUnit.display = [] ↔ us = [] := by
  cases us with
  | nil => simp
  | cons u us => simp [unit_display_ne]

theorem unitOutput_none (us : Option (List MUnit)) :
    (us.bind fun v => if v = [] then none else some (unitOutput v)) = none ↔
      (us.bind fun v => nonEmpty (v.flatMap MUnit.display)) = none := by
  cases us with
  | none => simp
  | some v =>
    simp only [Option.bind_some, nonEmpty, units_display_ne]
    split <;> simp

theorem label_ne (l : ValueLabel) : l.debug.toList ≠ [] := by cases l <;> decide

theorem labels_ne (ls : List ValueLabel) :
    ", ".toList.intercalate (ls.map (fun l => l.debug.toList)) = [] ↔ ls = [] := by
  cases ls with
  | nil => simp [List.intercalate]
  | cons l ls =>
    have := label_ne l
    cases ls <;> simp only [List.map_cons, List.map_nil, List.intercalate, List.intersperse, List.flatten_cons,
      List.append_eq_nil_iff, this, false_and, reduceCtorEq]

theorem decimal_kind : ("decimal".toList ∈ ["decimal".toList, "float".toList]) ∧
    ("float".toList ∈ ["decimal".toList, "float".toList]) ∧
    ∀ k ∈ ["text".toList, "date".toList, "time".toList, "datetime".toList, "manufacturer_specific".toList,
      "none".toList], k ∉ ["decimal".toList, "float".toList] := by decide +kernel

theorem same_number (r : DataRecord) : (∃ v, r.data.value = some (.number v) ∨ r.data.value = some (.lossyNumber v)) ↔
    (valueOutput r).kind ∈ ["decimal".toList, "float".toList] := by
  obtain ⟨k1, k2, k3⟩ := decimal_kind
  unfold valueOutput
  simp only
  cases h : r.data.value with
  | none => simp only [reduceCtorEq, or_self, exists_false, false_iff]; exact k3 _ (by simp)
  | some d =>
    cases d with
    | number v =>
      simp only
      refine ⟨fun _ => ?_, fun _ => ⟨v, .inl rfl⟩⟩
      split <;> assumption
    | lossyNumber v =>
      simp only
      refine ⟨fun _ => ?_, fun _ => ⟨v, .inr rfl⟩⟩
      split <;> assumption
    | _ => simp only [Option.some.injEq, reduceCtorEq, or_self, exists_false, false_iff]; exact k3 _ (by simp [temporalValue])

theorem same_record (rt : UInt32 → List Char) (n : Nat) (r : DataRecord) :
    SameRecord (recordSummary rt r) (recordOutput n r) where
  header := rfl
  data := rfl
  information := same_information rt n r
  number := by
    rw [show (recordOutput n r).value = valueOutput r from rfl, ← same_number]
    simp only [recordSummary]
    cases r.data.value with
    | none => simp
    | some d => cases d <;> simp
  unit := by
    have := unitOutput_none (r.header.processed.valueInfo.map ValueInfo.units)
    simp only [Option.bind_map, Function.comp_def] at this
    exact this.symm
  quantity := by
    simp only [recordSummary, recordOutput]
    cases r.header.processed.valueInfo with
    | none => simp
    | some v =>
      simp only [Option.bind_some, Option.map_some, Option.getD_some, nonEmpty, labels_ne]
      split <;> simp_all

theorem same_records (rt : UInt32 → List Char) (rs : List DataRecord) :
    List.Forall₂ SameRecord (rs.map (recordSummary rt)) (recordOutputs rs) := by
  have key : ∀ (rs : List DataRecord) n, List.Forall₂ SameRecord (rs.map (recordSummary rt))
      ((rs.zipIdx n).map (fun (r, i) => recordOutput i r)) := by
    intro rs
    induction rs with
    | nil => intro n; exact .nil
    | cons r rs ih => intro n; exact .cons (same_record rt n r) (ih _)
  exact key rs 0

/-- A record that was read from bytes consists of its header and its data. -/
theorem raw_split {cfg : Cfg} {lsb : Bool} {bytes : List UInt8} {r : DataRecord}
    (h : DataRecord.parse cfg lsb bytes = .ok r) : r.rawBytes = r.headerBytes ++ r.dataBytes := by
  have key : ∀ (hd : RecordHeader) (d : Data), hd.size ≤ bytes.length →
      ((Res.ofOption RecordError.insufficientData (sliceTo? bytes (min (hd.size + d.size) bytes.length)))
        >>= fun raw => Res.ok (DataRecord.mk hd d raw)) = .ok r → r.rawBytes = r.headerBytes ++ r.dataBytes := by
    intro hd d hlen h
    rw [Res.bind_eq_ok] at h
    obtain ⟨raw, hraw, h⟩ := h
    unfold sliceTo? at hraw
    rw [if_pos (Nat.min_le_right _ _)] at hraw
    cases hraw
    cases h
    simp only [DataRecord.headerBytes, DataRecord.dataBytes, DataRecord.size, slice?, List.length_take]
    rw [if_pos (by omega), if_pos (by omega)]
    simp only [List.drop_zero, Option.getD_some, Nat.min_assoc, Nat.min_self]
    rw [List.take_of_length_le (i := min (hd.size + d.size) bytes.length) (l := List.take _ _) (by simp)]
    exact (List.take_append_drop _ _).symm
  unfold DataRecord.parse at h
  rw [Res.bind_eq_ok] at h
  obtain ⟨hd, -, h⟩ := h
  simp only at h
  split at h
  · cases h
  · rename_i hlen
    rw [Res.bind_eq_ok] at h
    obtain ⟨rest, -, h⟩ := h
    split at h
    · rw [Res.bind_eq_ok] at h
      obtain ⟨d, -, h⟩ := h
      exact key hd d (by omega) h
    · exact key hd _ (by omega) h

theorem next_split (cfg : Cfg) (s s' : DataRecords) (r : DataRecord) (h : s.next cfg = (some (.ok r), s')) :
    r.rawBytes = r.headerBytes ++ r.dataBytes := by
  fun_induction DataRecords.next cfg s
  all_goals first
    | (rename_i ih; exact ih h)
    | (simp only [Prod.mk.injEq, Option.some.injEq, reduceCtorEq, false_and] at h; done)
    | (simp only [Prod.mk.injEq, Option.some.injEq, Res.ok.injEq] at h
       first
         | exact raw_split h.1
         | (obtain ⟨rfl, -⟩ := h; exact raw_split (by assumption)))

theorem collect_split (cfg : Cfg) (s : DataRecords) (r : DataRecord) (h : .ok r ∈ s.collect cfg) :
    r.rawBytes = r.headerBytes ++ r.dataBytes := by
  have key : ∀ n (s : DataRecords), some (.ok r) ∈ DataRecords.calls cfg n s →
      r.rawBytes = r.headerBytes ++ r.dataBytes := by
    intro n
    induction n with
    | zero => intro s h; cases h
    | succ n ih =>
      intro s h
      unfold DataRecords.calls at h
      split at h
      · simp at h
      · rename_i x s' _ hx
        rcases List.mem_cons.1 h with rfl | h
        · exact next_split cfg s s' r hx
        · exact ih s' h
  unfold DataRecords.collect at h
  obtain ⟨x, hx, hr⟩ := List.mem_filterMap.1 h
  simp only [id_eq] at hr
  subst hr
  exact key _ _ (List.takeWhile_subset _ hx)

theorem same_bytes (rs : List DataRecord) (h : ∀ r ∈ rs, r.rawBytes = r.headerBytes ++ r.dataBytes) :
    List.Forall₂ SameBytes rs (recordOutputs rs) := by
  have key : ∀ (rs : List DataRecord) n, (∀ r ∈ rs, r.rawBytes = r.headerBytes ++ r.dataBytes) →
      List.Forall₂ SameBytes rs ((rs.zipIdx n).map (fun (r, i) => recordOutput i r)) := by
    intro rs
    induction rs with
    | nil => intro n _; exact .nil
    | cons r rs ih =>
      intro n h
      exact .cons ⟨rfl, rfl, h r (by simp)⟩ (ih _ (fun r hr => h r (by simp [hr])))
  exact key rs 0 h

/-- What is common to both halves of C106. -/
theorem shown_both {F : Type} (cfg : Cfg) (rt : UInt32 → List Char) (aes : AesBlock)
    (protocol : List Char) (frame : FrameOutput) (data normalized : List UInt8) (stripped : Bool)
    (payload : Option (List UInt8)) (m : MbusData F) (link : Option ManufacturerId)
    (options : DecodeOptions) (o : DecodedOutput) (s0 : FrameSummary) (c : SecurityContext)
    (outs : List DataRecord) (err : Option (Nat × RecordError)) (r : Res Unit ParsedOutput)
    (h : finish cfg aes protocol frame data normalized stripped payload m link options = .ok o)
    (hc : prepareSecurity aes m.userData link options.key (List.replicate 512 0) = .ok c)
    (hcol : collectRecords cfg (recordsToShow m c) = some (outs, err))
    (ha : Agrees cfg rt m s0 c outs err r) (hhex : s0.encryptedPayloadHex = none)
    (hs : o.security.decryptionState ≠ "key_missing".toList) :
    ∃ p, r = .ok p ∧ List.Forall₂ SameRecord p.summary.records o.records ∧
      (p.summary.encrypted = true ↔ o.security.payloadProtection = "encrypted".toList) ∧
      (p.summary.decrypted = true ↔ o.security.decryptionState = "decrypted_unverified".toList) ∧
      p.summary.encryptedPayloadHex = none ∧
      (o.decodeState = "complete".toList →
        List.Forall₂ SameBytes (p.jsonRecords.getD []) o.records) := by
  obtain ⟨h1, h2, h3⟩ := finish_security _ _ _ _ _ _ _ _ _ _ _ _ c h hc
  obtain ⟨c', outs', err', k1, k2, _, _, _, k3, _, _, k4, _⟩ := finish_ok _ _ _ _ _ _ _ _ _ _ _ _ h
  rw [hc] at k1; cases k1
  rw [hcol] at k2; cases k2
  have hn : ¬ (c.encrypted = true ∧ c.decrypted = false) := by
    rintro ⟨a, b⟩
    rw [h3, a, b] at hs
    exact hs rfl
  cases ha with
  | sealed a b _ => exact absurd ⟨a, b⟩ hn
  | ell a b _ => exact absurd ⟨a, b⟩ hn
  | shown _ =>
    refine ⟨_, rfl, ?_, ?_, ?_, hhex, ?_⟩
    · rw [k3]; exact same_records rt outs
    · rw [h1]
      cases c.encrypted <;> cases c.ellEncrypted <;> simp only [Bool.false_eq_true, if_false, if_true,
        true_iff, false_iff] <;> decide
    · rw [h3]
      cases hce : c.encrypted <;> cases hcd : c.decrypted <;> simp only [Bool.false_eq_true, if_false,
        if_true, true_iff, false_iff, Bool.not_true, Bool.not_false]
      · decide
      · exfalso
        obtain ⟨_, _, _, _, h5⟩ := context _ _ _ _ _ c hc
        have := (h5 hcd).1
        rw [hce] at this; cases this
      · decide
    · intro hst
      rw [k4] at hst
      have he : err = none := by
        cases err with
        | none => rfl
        | some e =>
          exfalso
          revert hst
          simp only [Option.isSome_some, Bool.or_true, Bool.true_or, if_true]
          decide
      subst he
      rw [k3]
      simp only [serialised]
      cases hrec : recordsToShow m c with
      | none =>
        rw [hrec] at hcol
        simp only [collectRecords, Option.some.injEq, Prod.mk.injEq] at hcol
        rw [← hcol.1]
        exact .nil
      | some s =>
        simp only [Option.map_some, Option.isSome_none, Bool.false_eq_true, if_false, Option.getD_some]
        rw [hrec] at hcol
        obtain ⟨rs, h1, h2⟩ := collectItems_none _ _ _ _ hcol
        refine same_bytes outs (fun r hr => collect_split cfg s r ?_)
        rw [h1]
        rw [h2] at hr
        exact List.mem_map.2 ⟨r, by simpa using hr, rfl⟩

theorem applied_hex (s : FrameSummary) (u : Option UserDataBlock) :
    (applyUserDataSummary s u).encryptedPayloadHex = s.encryptedPayloadHex := by
  unfold applyUserDataSummary
  split <;> rfl

/-- C106 (partial: not if the payload stays encrypted): whenever the structured output exists, the older
outputs exist, show records of the same bytes in the same order, and say alike whether the payload was
encrypted and decrypted; the records in the JSON and YAML text are the same if decoding was complete. -/
theorem C106_records_partial (cfg : Cfg) (rt : UInt32 → List Char) (aes : AesBlock) (haes : BlockSized aes)
    (data : List UInt8) (key : Option (List UInt8)) (enrich : Bool) (o : DecodedOutput)
    (h : decodeBytes cfg aes data ⟨key, enrich⟩ = .ok o)
    (hs : o.security.decryptionState ≠ "key_missing".toList) :
    ∃ p, parseFrameOutput cfg rt aes data key = .ok p ∧
      List.Forall₂ SameRecord p.summary.records o.records ∧
      (p.summary.encrypted = true ↔ o.security.payloadProtection = "encrypted".toList) ∧
      (p.summary.decrypted = true ↔ o.security.decryptionState = "decrypted_unverified".toList) ∧
      p.summary.encryptedPayloadHex = none ∧
      (o.decodeState = "complete".toList →
        List.Forall₂ SameBytes (p.jsonRecords.getD []) o.records) := by
  rcases both cfg rt aes haes data key enrich o h with
    ⟨m, c, outs, err, h1, _, _, h2, h3, h4⟩ | ⟨m, frame, c, outs, err, h1, _, _, _, _, h2, h3, h4⟩
  · exact shown_both cfg rt aes _ _ _ _ _ _ m _ _ o _ c outs err _ h1 h2 h3 h4
      (by rw [applied_hex]; cases m.frame <;> rfl) hs
  · exact shown_both cfg rt aes _ _ _ _ _ _ m _ _ o _ c outs err _ h1 h2 h3 h4
      (by rw [applied_hex]; rfl) hs

/-- From a computed check to its statement. -/
theorem checked {ε α : Type} (x : Res ε α) (P : α → Prop) [DecidablePred P]
    (h : (match x with | .ok a => decide (P a) | _ => false) = true) : ∃ a, x = .ok a ∧ P a := by
  cases x with
  | ok a => exact ⟨a, rfl, of_decide_eq_true h⟩
  | err e => cases h
  | panic => cases h

/-- A decrypted telegram (with a cipher that does nothing) and a clear one satisfy the hypotheses. -/
example : (∃ o, decodeBytes ⟨false, false⟩ (fun _ b => b) (olderWired 5 (List.replicate 16 0))
      ⟨some (List.replicate 16 1), true⟩ = .ok o ∧
      o.security.decryptionState = "decrypted_unverified".toList ∧ o.records.length = 2) ∧
    ∃ o, decodeBytes ⟨false, false⟩ (fun _ b => b) (olderWired 0 [0x01, 0x13, 0x05]) ⟨none, true⟩ = .ok o ∧
      o.security.decryptionState = "not_applicable".toList ∧ o.records.length = 1 ∧
      o.decodeState = "complete".toList := by
  constructor
  · exact checked _ (fun o : DecodedOutput => _ ∧ _) (by decide +kernel)
  · exact checked _ (fun o : DecodedOutput => _ ∧ _) (by decide +kernel)

example : BlockSized (fun _ b => b) := fun _ _ h => h

/-- C106 fails for a payload that stays encrypted: an encrypted telegram that the structured output shows
with its header makes the older outputs panic, `csv-wide` as well, because they parse the ciphertext. -/
theorem C106_fails (cfg : Cfg) (rt : UInt32 → List Char) (aes : AesBlock) :
    (∃ o, decodeBytes cfg aes (olderWired 5 [0x01, 0x7D, 0x00]) ⟨none, true⟩ = .ok o ∧
      o.security.decryptionState = "key_missing".toList) ∧
    parseFrameOutput cfg rt aes (olderWired 5 [0x01, 0x7D, 0x00]) none = .panic := by
  obtain ⟨oc, tf⟩ := cfg
  refine ⟨checked _ _ ?_, ?_⟩ <;> cases oc <;> cases tf <;> with_unfolding_all rfl

/-- C106 fails for the JSON and YAML text of a telegram with a bad record: the summary lists the records
before it, as the structured output does, the serialised frame none. -/
theorem C106_fails_json (cfg : Cfg) (rt : UInt32 → List Char) (aes : AesBlock) :
    (∃ o, decodeBytes cfg aes (olderWired 0 [0x01, 0x13, 0x05, 0x04, 0x13]) ⟨none, true⟩ = .ok o ∧
      o.records.length = 1) ∧
    ∃ p, parseFrameOutput cfg rt aes (olderWired 0 [0x01, 0x13, 0x05, 0x04, 0x13]) none = .ok p ∧
      p.summary.records.length = 1 ∧ p.jsonRecords = some [] := by
  obtain ⟨oc, tf⟩ := cfg
  refine ⟨checked _ _ ?_, checked _ (fun p : ParsedOutput => _ ∧ _) ?_⟩ <;> cases oc <;> cases tf <;> with_unfolding_all rfl

theorem flatten_not_err (items : List (Res RecordError DataRecord)) : flattenItems items ≠ .err () := by
  induction items with
  | nil => simp [flattenItems]
  | cons x items ih =>
    cases x with
    | ok r =>
      simp only [flattenItems]
      cases hx : flattenItems items with
      | ok rs => simp
      | err e => exact absurd hx ih
      | panic => simp
    | err e => exact ih
    | panic => simp [flattenItems]

theorem finalize_not_err (cfg : Cfg) (rt : UInt32 → List Char) (s : FrameSummary)
    (recs : Option DataRecords) (u : Option UserDataBlock) (enc dec : Bool) :
    finalizeSummary cfg rt s recs u enc dec ≠ .err () := by
  unfold finalizeSummary
  simp only
  split
  · simp
  · split
    · rename_i records
      unfold recordSummaries
      cases hx : flattenItems (records.collect cfg) with
      | ok rs => simp
      | err e => exact absurd hx (flatten_not_err _)
      | panic => simp
    · simp

theorem buildParsed_not_err {F : Type} (cfg : Cfg) (m : MbusData F) (s : FrameSummary) :
    buildParsed cfg m s ≠ .err () := by
  unfold buildParsed
  split
  · simp
  · split <;> simp

theorem legacyWired_not_err (cfg : Cfg) (rt : UInt32 → List Char) (aes : AesBlock)
    (key : Option (List UInt8)) (m : MbusData WiredFrame) :
    legacyWired cfg rt aes key m ≠ .err () := by
  unfold legacyWired
  have hd : ∀ e, legacyDecryptWired aes key m ≠ .err e := by
    intro e
    unfold legacyDecryptWired
    split
    · split
      · split <;> simp
      · simp
      · simp
    · simp
  cases hx : legacyDecryptWired aes key m with
  | err e => exact absurd hx (hd e)
  | panic => simp
  | ok p =>
    obtain ⟨p, d⟩ := p
    simp only [Res.bind_ok]
    cases hy : summarizeWired cfg rt p (userDataIsEncrypted m.userData) d with
    | err e => exact absurd hy (finalize_not_err _ _ _ _ _ _ _)
    | panic => simp
    | ok s => exact buildParsed_not_err _ _ _

theorem legacyWireless_not_err (cfg : Cfg) (rt : UInt32 → List Char) (aes : AesBlock)
    (key : Option (List UInt8)) (m : MbusData WirelessFrame) :
    legacyWireless cfg rt aes key m ≠ .err () := by
  unfold legacyWireless
  have hd : ∀ e, legacyDecryptWireless aes key m ≠ .err e := by
    intro e
    unfold legacyDecryptWireless
    split
    · split
      · split <;> simp
      · simp
      · simp
    · simp
  cases hx : legacyDecryptWireless aes key m with
  | err e => exact absurd hx (hd e)
  | panic => simp
  | ok p =>
    obtain ⟨p, d⟩ := p
    simp only [Res.bind_ok]
    cases hy : summarizeWireless cfg rt p (userDataIsEncrypted m.userData) d with
    | err e => exact absurd hy (finalize_not_err _ _ _ _ _ _ _)
    | panic => simp
    | ok s => exact buildParsed_not_err _ _ _

/-- C106: the older outputs report that they cannot parse the input exactly if it is neither a wired
telegram nor, with or without block CRCs, a wireless telegram; a wrong or missing key is no reason.
The inputs on which the wired parser panics (C04: four or five bytes starting with `68`, in a build with
overflow checks) are excluded. -/
theorem C106_refused (cfg : Cfg) (rt : UInt32 → List Char) (aes : AesBlock) (data : List UInt8)
    (key : Option (List UInt8)) (hp : WiredFrame.tryFrom cfg data ≠ .panic) :
    parseFrameOutput cfg rt aes data key = .err () ↔
    (∀ g, ¬ WiredTelegram data g) ∧ ∀ frame f, Normalized data frame → ¬ WirelessTelegram frame f := by
  unfold parseFrameOutput
  cases hx : WiredFrame.tryFrom cfg data with
  | panic => exact absurd hx hp
  | ok g =>
    obtain ⟨m, hm, hg⟩ := (C37_frame_delivered_wired cfg data).2.2 g hx
    rw [hm]
    simp only
    constructor
    · intro h; exact absurd h (legacyWired_not_err _ _ _ _ _)
    · rintro ⟨h, _⟩; exact absurd ((C01_wired_accepts_exactly_telegrams cfg data g).1 hx) (h g)
  | err e =>
    have hn : ∀ g, ¬ WiredTelegram data g := by
      intro g hg
      rw [← C01_wired_accepts_exactly_telegrams cfg, hx] at hg
      cases hg
    rw [((C37_frame_delivered_wired cfg data).1 e).2 hx]
    obtain ⟨frame, hf⟩ := normalized_exists data
    rw [(withoutFormatA_iff data frame).2 hf]
    simp only [Res.bind_ok]
    have uniq : ∀ frame', Normalized data frame' → frame' = frame := by
      intro frame' h'
      have := (withoutFormatA_iff data frame').2 h'
      rw [(withoutFormatA_iff data frame).2 hf] at this
      cases this; rfl
    cases hy : WirelessFrame.tryFrom frame with
    | panic => exact absurd hy (C13_wireless_never_panics frame)
    | ok f =>
      obtain ⟨m, hm, hg, _⟩ := (C37_wireless frame).2 f hy
      rw [hm]
      simp only
      constructor
      · intro h; exact absurd h (legacyWireless_not_err _ _ _ _ _)
      · rintro ⟨_, h⟩
        exact absurd ((C12_wireless_accepts_exactly_telegrams frame f).1 hy) (h frame f hf)
    | err e' =>
      rw [((C37_wireless frame).1 e').2 hy]
      simp only [true_iff]
      refine ⟨hn, fun frame' f' h' hw => ?_⟩
      rw [uniq frame' h', ← C12_wireless_accepts_exactly_telegrams, hy] at hw
      cases hw

/-- Both sides occur. -/
example : parseFrameOutput ⟨false, false⟩ (fun _ => []) (fun _ b => b) [0x68, 0x01] none = .err () ∧
    parseFrameOutput ⟨false, false⟩ (fun _ => []) (fun _ b => b) (olderWired 0 []) none ≠ .err () := by
  decide +kernel

/-! ## C107 -/

theorem variableBlock (blk : UserDataBlock) (h : userDataIsEncrypted (some blk) = true) :
    variableDataBlock (some blk) = some (variableData blk) := by
  cases blk <;> first | rfl | cases h

/-- What is common to both halves of C107. -/
theorem sealed_both {F : Type} (cfg : Cfg) (rt : UInt32 → List Char) (aes : AesBlock)
    (protocol : List Char) (frame : FrameOutput) (data normalized : List UInt8) (stripped : Bool)
    (payload : Option (List UInt8)) (m : MbusData F) (link : Option ManufacturerId)
    (options : DecodeOptions) (o : DecodedOutput) (s0 : FrameSummary) (c : SecurityContext)
    (outs : List DataRecord) (err : Option (Nat × RecordError)) (r : Res Unit ParsedOutput)
    (h : finish cfg aes protocol frame data normalized stripped payload m link options = .ok o)
    (hc : prepareSecurity aes m.userData link options.key (List.replicate 512 0) = .ok c)
    (ha : Agrees cfg rt m s0 c outs err r) (hs0 : s0.records = [])
    (hs : o.security.decryptionState = "key_missing".toList) (hmode : o.security.mode ≠ none)
    (p : ParsedOutput) (hp : r = .ok p) :
    p.summary.records = [] ∧ p.summary.encrypted = true ∧ p.summary.decrypted = false ∧
      ∃ blk, m.userData = some blk ∧
        p.summary.encryptedPayloadHex = some (hexString (variableData blk)) := by
  obtain ⟨h1, h2, h3⟩ := finish_security _ _ _ _ _ _ _ _ _ _ _ _ c h hc
  have he : c.encrypted = true ∧ c.decrypted = false := by
    rw [h3] at hs
    revert hs
    cases c.encrypted <;> cases c.decrypted <;> simp only [Bool.false_eq_true, if_false,
        if_true, Bool.not_true, Bool.not_false] <;> decide
  have hm : c.mode ≠ none := by
    intro hx; rw [h2, hx] at hmode; exact hmode rfl
  cases ha with
  | shown hn => exact absurd he hn
  | ell _ _ hx => exact absurd hx hm
  | sealed _ _ _ =>
    rw [buildParsed_ok hp]
    obtain ⟨k1, k2, _⟩ := context _ _ _ _ _ c hc
    have hue : userDataIsEncrypted m.userData = true := by
      rw [encrypted_same m.userData (by rw [← k2]; exact fun h => hm h.2), ← k1]
      exact he.1
    refine ⟨hs0, rfl, rfl, ?_⟩
    cases hu : m.userData with
    | none => rw [hu] at hue; cases hue
    | some blk =>
      rw [hu] at hue
      exact ⟨blk, rfl, by simp only [variableBlock blk hue, Option.map_some]⟩

/-- C107 (partial: for telegrams whose transport header names a security mode, and not for the JSON and
YAML text of the frame): if the payload is encrypted and no key was given, the summary, and with it
`csv-wide`, shows no record, says that the payload is encrypted and not decrypted, and gives exactly the
encrypted bytes. -/
theorem C107_protected_partial (cfg : Cfg) (rt : UInt32 → List Char) (aes : AesBlock)
    (haes : BlockSized aes) (data : List UInt8) (key : Option (List UInt8)) (enrich : Bool)
    (o : DecodedOutput) (p : ParsedOutput) (h : decodeBytes cfg aes data ⟨key, enrich⟩ = .ok o)
    (hs : o.security.decryptionState = "key_missing".toList) (hm : o.security.mode ≠ none)
    (hp : parseFrameOutput cfg rt aes data key = .ok p) :
    p.summary.records = [] ∧ p.summary.encrypted = true ∧ p.summary.decrypted = false ∧
      ∃ link payload blk, Telegram data link payload ∧ Block payload blk ∧
        p.summary.encryptedPayloadHex = some (hexString (variableData blk)) := by
  rcases both cfg rt aes haes data key enrich o h with
    ⟨m, c, outs, err, h1, ht, _, h2, h3, h4⟩ | ⟨m, frame, c, outs, err, h1, hw, hn, ht, _, h2, h3, h4⟩
  · obtain ⟨e1, e2, e3, blk, e4, e5⟩ := sealed_both cfg rt aes _ _ _ _ _ _ m _ _ o _ c outs err _ h1 h2 h4
      (by rw [applied_records]; cases m.frame <;> rfl) hs hm p hp
    unfold MbusData.tryFromWired at ht
    rw [Res.bind_eq_ok] at ht
    obtain ⟨f, hf, ht⟩ := ht
    have hw := (C01_wired_accepts_exactly_telegrams _ _ _).1 hf
    cases f with
    | longFrame fn address payload =>
      simp only [MbusData.ofPayload] at ht
      cases hx : UserDataBlock.tryFrom payload with
      | ok blk' =>
        rw [hx] at ht
        cases ht
        cases e4
        exact ⟨e1, e2, e3, none, payload, blk, .wired fn address payload hw, (C32_accepts_iff _ _).1 hx, e5⟩
      | err e => rw [hx] at ht; cases ht; cases e4
      | panic => rw [hx] at ht; cases ht
    | shortFrame _ _ => cases ht; cases e4
    | controlFrame _ _ _ => cases ht; cases e4
    | singleCharacter _ => cases ht; cases e4
  · obtain ⟨e1, e2, e3, blk, e4, e5⟩ := sealed_both cfg rt aes _ _ _ _ _ _ m _ _ o _ c outs err _ h1 h2 h4
      (by rw [applied_records]; rfl) hs hm p hp
    unfold MbusData.tryFromWireless at ht
    rw [Res.bind_eq_ok] at ht
    obtain ⟨f, hf, ht⟩ := ht
    simp only [MbusData.ofPayload] at ht
    cases hx : UserDataBlock.tryFrom f.data with
    | ok blk' =>
      rw [hx] at ht
      cases ht
      cases e4
      exact ⟨e1, e2, e3, _, f.data, blk,
        .wireless f frame hw hn ((C12_wireless_accepts_exactly_telegrams frame f).1 hf),
        (C32_accepts_iff _ _).1 hx, e5⟩
    | err e => rw [hx] at ht; cases ht; cases e4
    | panic => rw [hx] at ht; cases ht

/-- An encrypted wired telegram satisfies the hypotheses. -/
example : (∃ o, decodeBytes ⟨false, false⟩ (fun _ b => b) (olderWired 5 [0x01, 0x13, 0x05]) ⟨none, true⟩ = .ok o ∧
      o.security.decryptionState = "key_missing".toList ∧ o.security.mode ≠ none) ∧
    ∃ p, parseFrameOutput ⟨false, false⟩ (fun _ => []) (fun _ b => b) (olderWired 5 [0x01, 0x13, 0x05]) none
      = .ok p ∧ p.summary.encryptedPayloadHex = some "011305".toList := by
  exact ⟨checked _ (fun o : DecodedOutput => _ ∧ _) (by decide +kernel),
    checked _ (fun p : ParsedOutput => _ = _) (by decide +kernel)⟩

/-- The wireless telegram with an extended link layer II and a record-like ciphertext. -/
def olderEll : List UInt8 :=
  olderWireless [0x8D, 0x20, 0x01, 0x01, 0x02, 0x03, 0x04, 0xAA, 0xBB, 0x01, 0x13, 0x05]

set_option maxRecDepth 20000 in
/-- C107 fails for encryption in the extended link layer: the structured output says the payload is
encrypted and shows no record, the older outputs say it is not encrypted and show the ciphertext as a
reading (`01 13 05`, five litres). -/
theorem C107_fails (cfg : Cfg) (rt : UInt32 → List Char) (aes : AesBlock) :
    (∃ o, decodeBytes cfg aes olderEll ⟨none, true⟩ = .ok o ∧
      o.security.payloadProtection = "encrypted".toList ∧ o.records.length = 0) ∧
    ∃ p, parseFrameOutput cfg rt aes olderEll none = .ok p ∧
      p.summary.encrypted = false ∧
      p.summary.records.map (fun r => (r.headerHex, r.dataHex)) = [("01 13".toList, "05".toList)] := by
  obtain ⟨oc, tf⟩ := cfg
  refine ⟨checked _ (fun o : DecodedOutput => _ ∧ _) ?_, checked _ (fun p : ParsedOutput => _ ∧ _) ?_⟩ <;>
    cases oc <;> cases tf <;> with_unfolding_all rfl

/-- C107 fails for the JSON and YAML text: the serialised frame of an encrypted telegram contains records
read from the ciphertext, beside a summary that says it is encrypted. -/
theorem C107_fails_json (cfg : Cfg) (rt : UInt32 → List Char) (aes : AesBlock) :
    ∃ p, parseFrameOutput cfg rt aes (olderWired 5 [0x01, 0x13, 0x05]) none = .ok p ∧
      p.summary.encrypted = true ∧ p.summary.decrypted = false ∧
      p.jsonRecords.map (fun rs => rs.map (·.rawBytes)) = some [[0x01, 0x13, 0x05]] := by
  obtain ⟨oc, tf⟩ := cfg
  refine checked _ (fun p : ParsedOutput => _ ∧ _) ?_
  cases oc <;> cases tf <;> with_unfolding_all rfl

/-! ## C108 -/

theorem meter_long (ell : Option ExtendedLinkLayer) (header : LongTplHeader) (block : List UInt8)
    (link : Option ManufacturerId) :
    (meterAndTransport (some (.long ell header block)) link).1.identity = some (identityFromLong header) ∧
    (meterAndTransport (some (.long ell header block)) link).2.headerKind = some "long_tpl".toList ∧
    (meterAndTransport (some (.long ell header block)) link).2.accessNumbers =
      [("tpl.long".toList, header.short.accessNumber)] ∧
    (meterAndTransport (some (.long ell header block)) link).2.statuses =
      [⟨"tpl.long".toList, hexString [header.short.status], statusDisplay header.short.status⟩] ∧
    (securityFields (some (.long ell header block))).2.1 =
      some header.short.configurationField.securityMode := ⟨rfl, rfl, rfl, rfl, rfl⟩

theorem applied_long (s : FrameSummary) (ell : Option ExtendedLinkLayer) (header : LongTplHeader)
    (block : List UInt8) :
    (applyUserDataSummary s (some (.long ell header block))).identificationNumber =
      some (idDisplay header.identificationNumber) ∧
    (applyUserDataSummary s (some (.long ell header block))).manufacturer =
      some (manufacturerSummary (manufacturerText header.manufacturer)) ∧
    (applyUserDataSummary s (some (.long ell header block))).version = some header.version ∧
    (applyUserDataSummary s (some (.long ell header block))).deviceType = some header.deviceType.display ∧
    (applyUserDataSummary s (some (.long ell header block))).accessNumber = some header.short.accessNumber ∧
    (applyUserDataSummary s (some (.long ell header block))).status =
      some (statusDisplay header.short.status) ∧
    (applyUserDataSummary s (some (.long ell header block))).securityMode =
      some header.short.configurationField.securityMode.display := ⟨rfl, rfl, rfl, rfl, rfl, rfl, rfl⟩

theorem meter_synthetic (ell : Option ExtendedLinkLayer) (header : ShortTplHeader) (block : List UInt8)
    (link : Option ManufacturerId) (h : (ell.any (fun e => e.encryption.isSome) &&
      header.configurationField.securityMode == .noEncryption) = true) :
    (meterAndTransport (some (.short ell header block)) link).2.headerKind = some "ell".toList := by
  cases ell with
  | none => cases h
  | some e =>
    unfold meterAndTransport
    simp only [h, if_true]

theorem meter_short (ell : Option ExtendedLinkLayer) (header : ShortTplHeader) (block : List UInt8)
    (link : Option ManufacturerId) (h : (ell.any (fun e => e.encryption.isSome) &&
      header.configurationField.securityMode == .noEncryption) = false) :
    (meterAndTransport (some (.short ell header block)) link).2.accessNumbers =
      [("tpl.short".toList, header.accessNumber)] ∧
    (meterAndTransport (some (.short ell header block)) link).2.statuses =
      [⟨"tpl.short".toList, hexString [header.status], statusDisplay header.status⟩] := by
  unfold meterAndTransport
  simp only [h, Bool.false_eq_true, if_false]
  exact ⟨rfl, rfl⟩

/-- The header fields of both outputs, from the user data block. -/
theorem header_both (s : FrameSummary) (u : Option UserDataBlock) (link : Option ManufacturerId)
    (mode : Option SecurityMode) (hmode : mode = (securityFields u).2.1)
    (hs : s.identificationNumber = link.map (fun id => idDisplay id.identificationNumber))
    (hsm : s.manufacturer = link.map (fun id => manufacturerSummary id.manufacturerCode.display))
    (hsv : s.version = link.map (·.version)) (hsd : s.deviceType = link.map (·.deviceType.display))
    (hsa : s.accessNumber = none) (hss : s.status = none) (hsc : s.securityMode = none) :
    (applyUserDataSummary s u).identificationNumber = (meterAndTransport u link).1.identity.bind (·.id) ∧
    ((meterAndTransport u link).1.identity = none → (applyUserDataSummary s u).manufacturer = none ∧
      (applyUserDataSummary s u).version = none ∧ (applyUserDataSummary s u).deviceType = none) ∧
    (∀ i, (meterAndTransport u link).1.identity = some i → i.source ≠ "application.fixed".toList →
      (applyUserDataSummary s u).version = i.version ∧ (applyUserDataSummary s u).deviceType = i.deviceType ∧
      ∀ code, i.manufacturerCode = some code →
        (applyUserDataSummary s u).manufacturer = some ⟨code, lookupManufacturer code⟩) ∧
    ((meterAndTransport u link).2.headerKind ≠ some "ell".toList →
      (applyUserDataSummary s u).accessNumber =
        (meterAndTransport u link).2.accessNumbers.head?.map (·.2) ∧
      (applyUserDataSummary s u).status = (meterAndTransport u link).2.statuses.head?.map (·.display) ∧
      (applyUserDataSummary s u).securityMode = mode.map SecurityMode.display) := by
  subst hmode
  have linked : ∀ (x : Option MeterIdentity), x = link.map identityFromWireless →
      s.identificationNumber = x.bind (·.id) ∧
      (x = none → s.manufacturer = none ∧ s.version = none ∧ s.deviceType = none) ∧
      (∀ i, x = some i → i.source ≠ "application.fixed".toList →
        s.version = i.version ∧ s.deviceType = i.deviceType ∧
        ∀ code, i.manufacturerCode = some code →
          s.manufacturer = some ⟨code, lookupManufacturer code⟩) := by
    rintro x rfl
    rw [hs, hsm, hsv, hsd]
    cases link with
    | none => simp
    | some id =>
      refine ⟨rfl, by simp, ?_⟩
      rintro i hi _
      cases hi
      refine ⟨rfl, rfl, ?_⟩
      intro code hc
      cases hc
      rfl
  cases u with
  | none =>
    obtain ⟨a, b, c⟩ := linked _ rfl
    exact ⟨a, b, c, fun _ => ⟨hsa, hss, hsc⟩⟩
  | some blk =>
    cases blk with
    | reset _ =>
      obtain ⟨a, b, c⟩ := linked _ rfl
      exact ⟨a, b, c, fun _ => ⟨hsa, hss, hsc⟩⟩
    | noTpl ell block =>
      obtain ⟨a, b, c⟩ := linked _ rfl
      cases ell with
      | none => exact ⟨a, b, c, fun _ => ⟨hsa, hss, hsc⟩⟩
      | some e => exact ⟨a, b, c, fun h => absurd rfl h⟩
    | fixed id acc st dt c1 c2 =>
      refine ⟨rfl, fun h => (by cases h), ?_, fun _ => ⟨rfl, rfl, hsc⟩⟩
      rintro i hi hne
      cases hi
      exact absurd rfl hne
    | long ell header block =>
      obtain ⟨k1, k2, k3, k4, k5⟩ := meter_long ell header block link
      obtain ⟨l1, l2, l3, l4, l5, l6, l7⟩ := applied_long s ell header block
      rw [k1, k3, k4, k5, l1, l2, l3, l4, l5, l6, l7]
      refine ⟨rfl, fun h => (by cases h), ?_, fun _ => ⟨rfl, rfl, rfl⟩⟩
      intro i hi _
      cases hi
      refine ⟨rfl, rfl, ?_⟩
      intro code hc
      have hc' : header.manufacturer.toOption.map ManufacturerCode.display = some code := hc
      cases hm : header.manufacturer with
      | ok m => rw [hm] at hc'; cases hc'; rfl
      | err e => rw [hm] at hc'; cases hc'
      | panic => rw [hm] at hc'; cases hc'
    | short ell header block =>
      obtain ⟨a, b, c⟩ := linked _ rfl
      refine ⟨a, b, c, ?_⟩
      intro hk
      by_cases hx : (ell.any (fun e => e.encryption.isSome) &&
        header.configurationField.securityMode == .noEncryption) = true
      · exact absurd (meter_synthetic ell header block link hx) hk
      · obtain ⟨k3, k4⟩ := meter_short ell header block link (by simpa using hx)
        have k5 : (securityFields (some (.short ell header block))).2.1 =
            some header.configurationField.securityMode := by
          simp only [securityFields, hx, Bool.false_eq_true, if_false]
        rw [k3, k4, k5]
        exact ⟨rfl, rfl, rfl⟩

theorem header_same {F : Type} (cfg : Cfg) (rt : UInt32 → List Char) (aes : AesBlock)
    (protocol : List Char) (frame : FrameOutput) (data normalized : List UInt8) (stripped : Bool)
    (payload : Option (List UInt8)) (m : MbusData F) (link : Option ManufacturerId)
    (options : DecodeOptions) (o : DecodedOutput) (s : FrameSummary) (c : SecurityContext)
    (outs : List DataRecord) (err : Option (Nat × RecordError)) (r : Res Unit ParsedOutput) (p : ParsedOutput)
    (h : finish cfg aes protocol frame data normalized stripped payload m link options = .ok o)
    (hc : prepareSecurity aes m.userData link options.key (List.replicate 512 0) = .ok c)
    (ha : Agrees cfg rt m (applyUserDataSummary s m.userData) c outs err r) (hp : r = .ok p)
    (hf : s.address = frame.address)
    (hs : s.identificationNumber = link.map (fun id => idDisplay id.identificationNumber))
    (hsm : s.manufacturer = link.map (fun id => manufacturerSummary id.manufacturerCode.display))
    (hsv : s.version = link.map (·.version)) (hsd : s.deviceType = link.map (·.deviceType.display))
    (hsa : s.accessNumber = none) (hss : s.status = none) (hsc : s.securityMode = none) :
    p.summary.address = o.frame.address ∧
    p.summary.identificationNumber = o.meter.identity.bind (·.id) ∧
    (o.meter.identity = none → p.summary.manufacturer = none ∧ p.summary.version = none ∧
      p.summary.deviceType = none) ∧
    (∀ i, o.meter.identity = some i → i.source ≠ "application.fixed".toList →
      p.summary.version = i.version ∧ p.summary.deviceType = i.deviceType ∧
      ∀ code, i.manufacturerCode = some code →
        p.summary.manufacturer = some ⟨code, lookupManufacturer code⟩) ∧
    (o.transport.headerKind ≠ some "ell".toList →
      p.summary.accessNumber = o.transport.accessNumbers.head?.map (·.2) ∧
      p.summary.status = o.transport.statuses.head?.map (·.display) ∧
      p.summary.securityMode = o.security.mode) := by
  obtain ⟨c', outs', err', k1, _, _, k2, k3, _⟩ := finish_ok _ _ _ _ _ _ _ _ _ _ _ _ h
  rw [hc] at k1; cases k1
  obtain ⟨_, h2, _⟩ := finish_security _ _ _ _ _ _ _ _ _ _ _ _ c h hc
  obtain ⟨_, h3, _⟩ := context _ _ _ _ _ c hc
  obtain ⟨enc, dec, hex, records, hsum⟩ := agrees_head ha hp
  obtain ⟨e1, e2, e3, e4⟩ := header_both s m.userData link c.mode h3 hs hsm hsv hsd hsa hss hsc
  have hm : o.meter = (meterAndTransport m.userData link).1 := by rw [← k3]
  have ht : o.transport = (meterAndTransport m.userData link).2 := by rw [← k3]
  rw [hsum, hm, ht, h2, k2]
  refine ⟨?_, e1, e2, e3, e4⟩
  rw [← hf]
  unfold applyUserDataSummary
  split <;> rfl

/-- C108 (partial: the fields of the transport header are not compared if the only header is one of the
extended link layer; manufacturer, version and device type not for the fixed data structure, nor a
manufacturer that is no valid code): the older outputs show the address, identification number,
manufacturer with its registered name, version, device type, access number, status and security mode that
the structured output shows. -/
theorem C108_header_partial (cfg : Cfg) (rt : UInt32 → List Char) (aes : AesBlock) (haes : BlockSized aes)
    (data : List UInt8) (key : Option (List UInt8)) (enrich : Bool) (o : DecodedOutput) (p : ParsedOutput)
    (h : decodeBytes cfg aes data ⟨key, enrich⟩ = .ok o)
    (hp : parseFrameOutput cfg rt aes data key = .ok p) :
    p.summary.address = o.frame.address ∧
    p.summary.identificationNumber = o.meter.identity.bind (·.id) ∧
    (o.meter.identity = none → p.summary.manufacturer = none ∧ p.summary.version = none ∧
      p.summary.deviceType = none) ∧
    (∀ i, o.meter.identity = some i → i.source ≠ "application.fixed".toList →
      p.summary.version = i.version ∧ p.summary.deviceType = i.deviceType ∧
      ∀ code, i.manufacturerCode = some code →
        p.summary.manufacturer = some ⟨code, lookupManufacturer code⟩) ∧
    (o.transport.headerKind ≠ some "ell".toList →
      p.summary.accessNumber = o.transport.accessNumbers.head?.map (·.2) ∧
      p.summary.status = o.transport.statuses.head?.map (·.display) ∧
      p.summary.securityMode = o.security.mode) := by
  rcases both cfg rt aes haes data key enrich o h with
    ⟨m, c, outs, err, h1, _, _, h2, h3, h4⟩ | ⟨m, frame, c, outs, err, h1, _, _, _, _, h2, h3, h4⟩
  · refine header_same cfg rt aes _ _ _ _ _ _ m _ _ o _ c outs err _ p h1 h2 h4 hp ?_ ?_ ?_ ?_ ?_ ?_ ?_ ?_ <;>
      cases m.frame <;> rfl
  · exact header_same cfg rt aes _ _ _ _ _ _ m _ _ o _ c outs err _ p h1 h2 h4 hp rfl rfl rfl rfl rfl rfl
      rfl rfl

/-- The fields of a wired telegram with a long header, as both outputs show them. -/
example : (∃ o, decodeBytes ⟨false, false⟩ (fun _ b => b) (olderWired 0 [0x01, 0x13, 0x05]) ⟨none, true⟩ = .ok o ∧
      o.transport.headerKind = some "long_tpl".toList ∧
      o.meter.identity.bind (·.manufacturerCode) = some "ELS".toList) ∧
    ∃ p, parseFrameOutput ⟨false, false⟩ (fun _ => []) (fun _ b => b) (olderWired 0 [0x01, 0x13, 0x05]) none
      = .ok p ∧ p.summary.identificationNumber = some "12345678".toList ∧
      p.summary.manufacturer.map (·.code) = some "ELS".toList ∧ p.summary.accessNumber = some 42 := by
  exact ⟨checked _ (fun o : DecodedOutput => _ ∧ _) (by decide +kernel),
    checked _ (fun p : ParsedOutput => _ ∧ _) (by decide +kernel)⟩

set_option maxRecDepth 20000 in
/-- C108 fails for telegrams with an extended link layer as their only header: the older outputs show a
status and a security mode that were not transmitted (`Manufacturer specific 1`, read from the session
number; no encryption), the structured output none. -/
theorem C108_fails_ell (cfg : Cfg) (rt : UInt32 → List Char) (aes : AesBlock) :
    (∃ o, decodeBytes cfg aes olderEll ⟨none, true⟩ = .ok o ∧
      o.transport.statuses = [] ∧ o.security.mode = none) ∧
    ∃ p, parseFrameOutput cfg rt aes olderEll none = .ok p ∧
      p.summary.status = some "Manufacturer specific 1".toList ∧
      p.summary.securityMode = some "No encryption used".toList := by
  obtain ⟨oc, tf⟩ := cfg
  refine ⟨checked _ (fun o : DecodedOutput => _ ∧ _) ?_, checked _ (fun p : ParsedOutput => _ ∧ _) ?_⟩ <;>
    cases oc <;> cases tf <;> with_unfolding_all rfl

/-- A wireless telegram of meter 12345678 with the fixed data structure of meter 87654321. -/
def olderFixed : List UInt8 :=
  olderWireless [0x73, 0x21, 0x43, 0x65, 0x87, 0x2A, 0x00, 0xE9, 0x7E, 1, 0, 0, 0, 0x35, 1, 0, 0]

set_option maxRecDepth 20000 in
/-- C108 fails for the fixed data structure in a wireless telegram: the older outputs combine the
identification number of one meter with the manufacturer and device type of another. -/
theorem C108_fails_fixed (cfg : Cfg) (rt : UInt32 → List Char) (aes : AesBlock) :
    (∃ o, decodeBytes cfg aes olderFixed ⟨none, true⟩ = .ok o ∧
      o.meter.identity.bind (·.id) = some "87654321".toList ∧
      o.meter.identity.bind (·.manufacturerCode) = none) ∧
    ∃ p, parseFrameOutput cfg rt aes olderFixed none = .ok p ∧
      p.summary.identificationNumber = some "87654321".toList ∧
      p.summary.manufacturer.map (·.code) = some "ELS".toList ∧
      p.summary.deviceType = some "Gas Meter".toList := by
  obtain ⟨oc, tf⟩ := cfg
  refine ⟨checked _ (fun o : DecodedOutput => _ ∧ _) ?_, checked _ (fun p : ParsedOutput => _ ∧ _) ?_⟩ <;>
    cases oc <;> cases tf <;> with_unfolding_all rfl

/-! ## C109 -/

theorem pairs_get {α β : Type} (f g : α → β) (l : List α) (i : Nat) :
    (l.flatMap (fun x => [f x, g x]))[2 * i]? = l[i]?.map f ∧
    (l.flatMap (fun x => [f x, g x]))[2 * i + 1]? = l[i]?.map g := by
  induction l generalizing i with
  | nil => simp
  | cons x l ih =>
    cases i with
    | zero => simp
    | succ i =>
      have := ih i
      simp only [List.flatMap_cons, List.cons_append, List.nil_append]
      rw [show 2 * (i + 1) = (2 * i + 1) + 1 by omega]
      simpa using this

theorem name_inj (i j : Nat) (a b : List Char) (ha : a ∈ ["_Value".toList, "_Info".toList])
    (hb : b ∈ ["_Value".toList, "_Info".toList])
    (h : "DataPoint".toList ++ natText i ++ a = "DataPoint".toList ++ natText j ++ b) : i = j ∧ a = b := by
  rw [List.append_assoc, List.append_assoc] at h
  have h := List.append_cancel_left h
  have hd : ∀ n, ∀ c ∈ natText n, c ≠ '_' := by
    intro n c hc
    have := natText_digits n c hc
    rintro rfl
    revert this
    decide
  have hab : ∀ a ∈ ["_Value".toList, "_Info".toList], ∃ t, a = '_' :: t := by
    intro a ha
    simp only [List.mem_cons, List.not_mem_nil, or_false] at ha
    rcases ha with rfl | rfl
    · exact ⟨"Value".toList, by decide⟩
    · exact ⟨"Info".toList, by decide⟩
  obtain ⟨s, rfl⟩ := hab a ha
  obtain ⟨t, rfl⟩ := hab b hb
  obtain ⟨h1, h2⟩ := split_at h (fun h => hd i _ h rfl) (fun h => hd j _ h rfl)
  exact ⟨natText_inj h1, by rw [h2]⟩

/-- C109: the two rows of `csv-wide`: as many columns in the header row as in the data row (so that the CSV
writer accepts both), no two of the same name; eleven of the telegram's header, then for record number `i`
(from 1) its text and its data information under names with that number. -/
theorem C109_columns (cfg : Cfg) (rt : UInt32 → List Char) (aes : AesBlock) (input : List Char)
    (key : Option (List UInt8)) (p : ParsedOutput)
    (h : parseFrameOutput cfg rt aes (cleanAndConvert input) key = .ok p) :
    ∃ headers row, parseToCsv cfg rt aes input key = .ok [headers, row] ∧
      headers.length = 11 + 2 * p.summary.records.length ∧ row.length = headers.length ∧
      headers.Nodup ∧
      headers[3]? = some "Identification Number".toList ∧
      row[3]? = some (p.summary.identificationNumber.getD []) ∧
      headers[8]? = some "Security Mode".toList ∧ row[8]? = some (p.summary.securityMode.getD []) ∧
      ∀ i r, p.summary.records[i]? = some r →
        headers[11 + 2 * i]? = some ("DataPoint".toList ++ natText (i + 1) ++ "_Value".toList) ∧
        row[11 + 2 * i]? = some r.display ∧
        headers[11 + (2 * i + 1)]? = some ("DataPoint".toList ++ natText (i + 1) ++ "_Info".toList) ∧
        row[11 + (2 * i + 1)]? = some r.dataInformation := by
  refine ⟨wideHeaders p.summary, wideRow p.summary, by unfold parseToCsv; rw [h], ?_, ?_, ?_, rfl, rfl, rfl,
    rfl, ?_⟩
  · simp [wideHeaders, Nat.mul_comm]
    omega
  · simp [wideHeaders, wideRow]
  · unfold wideHeaders
    rw [List.nodup_append]
    refine ⟨by decide +kernel, ?_, ?_⟩
    · rw [List.nodup_flatMap]
      refine ⟨?_, ?_⟩
      · intro i _
        rw [List.nodup_cons]
        refine ⟨?_, by simp⟩
        simp only [List.mem_singleton]
        intro hx
        exact absurd (name_inj _ _ _ _ (by simp) (by simp) hx).2 (by decide)
      · refine List.Nodup.pairwise_of_forall_ne (List.nodup_range) ?_
        intro i _ j _ hij
        simp only [Function.onFun]
        intro x hx hy
        simp only [List.mem_cons, List.not_mem_nil, or_false] at hx hy
        rcases hx with rfl | rfl <;> rcases hy with hy | hy <;>
          exact hij (by have := (name_inj _ _ _ _ (by simp) (by simp) hy).1; omega)
    · intro a ha b hb hab
      subst hab
      simp only [List.mem_flatMap, List.mem_cons, List.not_mem_nil, or_false] at hb
      obtain ⟨i, _, hb⟩ := hb
      have hpre : "DataPoint".toList <+: a := by
        rcases hb with rfl | rfl <;> exact ⟨_, (List.append_assoc _ _ _).symm⟩
      revert hpre
      simp only [List.mem_cons, List.not_mem_nil, or_false] at ha
      rcases ha with rfl | rfl | rfl | rfl | rfl | rfl | rfl | rfl | rfl | rfl | rfl <;> decide +kernel
  · intro i r hr
    have hi : i < p.summary.records.length := by
      obtain ⟨hi, _⟩ := List.getElem?_eq_some_iff.1 hr
      exact hi
    have h1 := pairs_get (fun i => "DataPoint".toList ++ natText (i + 1) ++ "_Value".toList)
      (fun i => "DataPoint".toList ++ natText (i + 1) ++ "_Info".toList)
      (List.range p.summary.records.length) i
    have h2 := pairs_get (fun r : RecordSummary => r.display) (fun r => r.dataInformation)
      p.summary.records i
    rw [List.getElem?_range hi] at h1
    rw [hr] at h2
    unfold wideHeaders wideRow
    refine ⟨?_, ?_, ?_, ?_⟩ <;> rw [List.getElem?_append_right (by simp)]
    · simpa using h1.1
    · simpa using h2.1
    · simpa using h1.2
    · simpa using h2.2

/-- The rows of a telegram with one record. -/
example : parseToCsv ⟨false, false⟩ (fun _ => []) (fun _ b => b) (hexString (olderWired 0 [0x01, 0x13, 0x05])) none
    = .ok [["FrameType".toList, "Function".toList, "Address".toList, "Identification Number".toList,
      "Manufacturer".toList, "Manufacturer Name".toList, "Access Number".toList, "Status".toList,
      "Security Mode".toList, "Version".toList, "Device Type".toList, "DataPoint1_Value".toList,
      "DataPoint1_Info".toList],
      ["LongFrame".toList, "RspUd (ACD: false, DFC: false)".toList, "Primary (5)".toList,
        "12345678".toList, "ELS".toList, "Elster Group".toList, "42".toList, "No Error(s)".toList,
        "No encryption used".toList, "51".toList, "Gas Meter".toList, "(5)e-3[m³](Volume)".toList,
        "0,Inst,8-bit Integer".toList]] := by
  unfold parseToCsv
  rw [C44_round_trip]
  decide +kernel

/-- C109: input that cannot be parsed gives two rows of one column. -/
theorem C109_error (cfg : Cfg) (rt : UInt32 → List Char) (aes : AesBlock) (input : List Char)
    (key : Option (List UInt8)) (h : parseFrameOutput cfg rt aes (cleanAndConvert input) key = .err ()) :
    parseToCsv cfg rt aes input key =
      .ok [["Error".toList], ["Error parsing data as wired or wireless M-Bus".toList]] := by
  unfold parseToCsv; rw [h]

end MBus
