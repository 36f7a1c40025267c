import Verif.Lemmas.PlainText
import Verif.Model.Api
/-!
# C163: The feature `plaintext-before-extension` matters only for units in plain text

`⟨c, p⟩` and `⟨c, q⟩` are two builds that differ at most in this feature.
-/
namespace MBus
open MBus.Spec

/-- C163: data that do not begin with the header of a unit in plain text are parsed to the same record, or refused
with the same error. -/
theorem C163_record (c p q lsb : Bool) (data : List UInt8) (h : ¬ PlainTextHeader data) :
    DataRecord.parse ⟨c, p⟩ lsb data = DataRecord.parse ⟨c, q⟩ lsb data :=
  feature_record lsb data h

/-- C163: the iterator yields the same items if those it yields in one build are records without units in plain
text. -/
theorem C163_iterator (c p q : Bool) (s : DataRecords)
    (h : ∀ x ∈ s.collect ⟨c, p⟩, ∃ r, x = .ok r ∧ ¬ PlainTextHeader r.headerBytes) :
    s.collect ⟨c, q⟩ = s.collect ⟨c, p⟩ :=
  feature_collect s h

/-- C163: so do data without the bytes 7C and FC, whatever they are. -/
theorem C163_without (c p q : Bool) (lsb : Bool) (data : List UInt8) (h : ∀ b ∈ data, b ≠ 0x7C ∧ b ≠ 0xFC) :
    parseDataRecords ⟨c, q⟩ lsb data = parseDataRecords ⟨c, p⟩ lsb data
    ∧ decodeDataRecords ⟨c, q⟩ data = decodeDataRecords ⟨c, p⟩ data := by
  have key : ∀ lsb, parseDataRecords ⟨c, q⟩ lsb data = parseDataRecords ⟨c, p⟩ lsb data := fun lsb =>
    (C27_items ⟨c, q⟩ lsb data _).2 (feature_without ((C27_items ⟨c, p⟩ lsb data _).1 rfl) h)
  refine ⟨key lsb, ?_⟩
  unfold decodeDataRecords collectRecords
  have e := key false
  unfold parseDataRecords at e
  simp only [e]

/-- C163: records decoded without a telegram around them are decoded to the same. -/
theorem C163_records (c p q : Bool) (data : List UInt8) (records : List RecordOutput)
    (h : decodeDataRecords ⟨c, p⟩ data = .ok records) (hp : ∀ r ∈ records, ¬ ShowsPlainText r) :
    decodeDataRecords ⟨c, q⟩ data = .ok records := by
  unfold decodeDataRecords at h ⊢
  split at h
  · cases h
  · rename_i hd
    rw [if_neg hd]
    cases hr : collectRecords ⟨c, p⟩ (some (DataRecords.new data false)) with
    | none => rw [hr] at h; cases h
    | some x =>
      obtain ⟨outs, err⟩ := x
      rw [hr] at h
      cases err with
      | some e => cases h
      | none =>
        simp only [Res.ok.injEq] at h
        subst h
        rw [feature_records (q := q) _ outs hr (shown_plain outs hp)]

/-- C163: a telegram whose records could all be read, none of them with a unit in plain text, is decoded to the same
output. -/
theorem C163_decode (c p q : Bool) (aes : AesBlock) (data : List UInt8) (options : DecodeOptions) (o : DecodedOutput)
    (h : decodeBytes ⟨c, p⟩ aes data options = .ok o)
    (hc : ∀ d ∈ o.diagnostics, d.code ≠ "application.record_partial".toList)
    (hp : ∀ r ∈ o.records, ¬ ShowsPlainText r) : decodeBytes ⟨c, q⟩ aes data options = .ok o := by
  unfold decodeBytes at h ⊢
  split at h
  · cases h
  · rename_i hd
    rw [if_neg hd]
    rw [show MbusData.tryFromWired ⟨c, q⟩ data = MbusData.tryFromWired ⟨c, p⟩ data from rfl]
    cases hw : MbusData.tryFromWired ⟨c, p⟩ data with
    | panic => rw [hw] at h; cases h
    | ok parsed =>
      rw [hw] at h
      simp only at h ⊢
      cases hs : prepareSecurity aes parsed.userData none options.key (List.replicate 512 0) with
      | panic => rw [hs] at h; cases h
      | err e => rw [hs] at h; cases h
      | ok sc =>
        rw [hs] at h
        simp only at h ⊢
        split at h
        · rename_i output ho
          cases h
          rw [feature_output (q := q) _ _ _ _ _ _ _ _ _ _ _ _ _ ho hc hp]
        · cases h
    | err e =>
      rw [hw] at h
      simp only at h ⊢
      cases hf : stripFormatACrcs data (List.replicate 512 0) with
      | panic => rw [hf] at h; cases h
      | err e => rw [hf] at h; cases h
      | ok x =>
        obtain ⟨result, buffer⟩ := x
        rw [hf] at h
        simp only at h ⊢
        cases hr : MbusData.tryFromWireless (result.getD data) with
        | panic => rw [hr] at h; cases h
        | err e => rw [hr] at h; cases h
        | ok parsed =>
          rw [hr] at h
          simp only at h ⊢
          cases hs : prepareSecurity aes parsed.userData (some parsed.frame.manufacturerId) options.key
              (List.replicate 512 0) with
          | panic => rw [hs] at h; cases h
          | err e => rw [hs] at h; cases h
          | ok sc =>
            rw [hs] at h
            simp only at h ⊢
            split at h
            · rename_i output ho
              cases h
              rw [feature_output (q := q) _ _ _ _ _ _ _ _ _ _ _ _ _ ho hc hp]
            · cases h

/-- C163: and its text in each of the formats made from this output is the same. -/
theorem C163_render (c p q : Bool) (env : FrontEnv) (aes : AesBlock) (data : List UInt8) (format : OutputFormat)
    (options : RenderOptions) (o : DecodedOutput)
    (hf : format = .json ∨ format = .yaml ∨ format = .csv ∨ format = .table ∨ format = .mermaid)
    (h : decodeBytes ⟨c, p⟩ aes data options.decode = .ok o)
    (hc : ∀ d ∈ o.diagnostics, d.code ≠ "application.record_partial".toList)
    (hp : ∀ r ∈ o.records, ¬ ShowsPlainText r) :
    renderBytes ⟨c, q⟩ env aes data format options = renderBytes ⟨c, p⟩ env aes data format options := by
  have h' := C163_decode c p q aes data options.decode o h hc hp
  rcases hf with rfl | rfl | rfl | rfl | rfl <;> unfold renderBytes <;> simp only [h, h']

/-- A telegram with one record without a unit in plain text. -/
example (p : Bool) (aes : AesBlock) : ∃ o, decodeBytes ⟨true, p⟩ aes
    [0x68, 6, 6, 0x68, 0x08, 0x01, 0x78, 0x01, 0x13, 0x05, 0x9A, 0x16] ⟨none, true⟩ = .ok o ∧ o.records.length = 1
    ∧ o.diagnostics = [] ∧ ∀ r ∈ o.records, ¬ ShowsPlainText r := by
  obtain ⟨o, h1, h2, h3⟩ : ∃ o, decodeBytes ⟨true, p⟩ aes
      [0x68, 6, 6, 0x68, 0x08, 0x01, 0x78, 0x01, 0x13, 0x05, 0x9A, 0x16] ⟨none, true⟩ = .ok o
      ∧ o.records.map (·.headerHex) = [hexSpaced [0x01, 0x13]] ∧ o.diagnostics = [] := by
    cases p <;> exact ⟨_, by with_unfolding_all rfl, by with_unfolding_all rfl, by with_unfolding_all rfl⟩
  refine ⟨o, h1, by simpa using congrArg List.length h2, h3, ?_⟩
  rintro r hr ⟨header, ht, dif, difes, vif, rest, he, -, hd, hv⟩
  have : r.headerHex ∈ o.records.map (·.headerHex) := List.mem_map.2 ⟨r, hr, rfl⟩
  rw [h2, List.mem_singleton] at this
  rw [this] at ht
  have e := tokens_unique _ _ (Nat.le_refl _) _ _ ht (hexSpaced_tokens [0x01, 0x13])
  rw [e] at he
  cases difes with
  | nil =>
    simp only [List.nil_append, List.cons.injEq] at he
    rw [← he.2.1] at hv
    revert hv; decide
  | cons x difes =>
    have := congrArg List.length he
    simp at this

/-- The feature matters for a unit in plain text: here the unit is the letter k, which stands behind the extension. -/
example (c lsb : Bool) : PlainTextHeader [0x01, 0xFC, 0x74, 0x01, 0x6B, 0x05]
    ∧ (∃ r, DataRecord.parse ⟨c, false⟩ lsb [0x01, 0xFC, 0x74, 0x01, 0x6B, 0x05] = .ok r ∧ r.size = 6)
    ∧ ∃ e, DataRecord.parse ⟨c, true⟩ lsb [0x01, 0xFC, 0x74, 0x01, 0x6B, 0x05] = .err e := by
  refine ⟨⟨0x01, [], 0xFC, _, rfl, by decide, .inl ⟨by decide, rfl⟩, .inr rfl⟩, ?_, ?_⟩
  · cases c <;> cases lsb <;> exact ⟨_, by with_unfolding_all rfl, by with_unfolding_all rfl⟩
  · cases c <;> cases lsb <;> exact ⟨_, by with_unfolding_all rfl⟩

end MBus
