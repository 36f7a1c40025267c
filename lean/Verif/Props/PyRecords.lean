import Verif.Model.Api
import Verif.Props.Json
import Verif.Props.Frontend
/-!
# C132: the records the Python package returns
-/
namespace MBus
open MBus.Spec

theorem follow_records (env : TextEnv) (o : DecodedOutput) :
    follow [.key "records"] (o.doc env) = some (.arr (o.records.map (RecordOutput.doc env))) := rfl

theorem follow_state (env : TextEnv) (o : DecodedOutput) :
    follow [.key "decode_state"] (o.doc env) = some (.str o.decodeState) := rfl

/-- C132: what `parse_records` returns for a block of records, given as bytes, is the member `records` of
what `parse` returns for every telegram that carries this block in the clear and is decoded completely; it
raises an error with the code of invalid records exactly if that telegram is decoded partially, and crashes
exactly if its decoding does. -/
theorem C132_records (cfg : Cfg) (env : FrontEnv) (aes : AesBlock) (data : List UInt8)
    (link : Option ManufacturerId) (payload d : List UInt8) (key : Option PyValue) (k : Option (List UInt8))
    (enrichment : Bool) (hk : pyKey key = .ok k) (ht : Telegram data link payload) (hd : ClearData payload d)
    (hne : d ≠ []) (henv : ∀ bits, FiniteReal bits → NumberText (env.text.realText bits)) :
    match pyParseRecords cfg env (.bytes d) with
    | .ok text => ∃ whole D R, pyParse cfg env aes (.bytes data) key enrichment = .ok whole ∧
        JsonText whole D ∧ follow [.key "decode_state"] D = some (.str "complete".toList) ∧
        follow [.key "records"] D = some R ∧ JsonText text R
    | .err e => e = .parser (.rendering "application.records_invalid".toList) ∧
        ∃ whole D, pyParse cfg env aes (.bytes data) key enrichment = .ok whole ∧ JsonText whole D ∧
          follow [.key "decode_state"] D = some (.str "partial".toList)
    | .panic => pyParse cfg env aes (.bytes data) key enrichment = .panic := by
  obtain ⟨h1, h2, h3⟩ := C90_data_records cfg aes data link payload d ⟨k, enrichment⟩ ht hd hne
  have hdne : d.isEmpty = false := by cases d <;> simp_all
  have hdata : data.isEmpty = false := by
    cases data with
    | cons b s => rfl
    | nil =>
      have he : decodeBytes cfg aes [] ⟨k, enrichment⟩ = .err .emptyInput := rfl
      rw [he] at h1 h2 h3
      cases hr : decodeDataRecords cfg d with
      | ok rs => obtain ⟨o, h, -⟩ := (h1 rs).1 hr; cases h
      | err e => obtain ⟨o, h, -⟩ := h2.1 ⟨e, hr⟩; cases h
      | panic => cases h3.1 hr
  have hparse : ∀ o, decodeBytes cfg aes data ⟨k, enrichment⟩ = .ok o →
      pyParse cfg env aes (.bytes data) key enrichment = .ok (compactJson (o.doc env.text)) := by
    intro o ho
    simp [pyParse, pyBytes, hdata, hk, ho, Res.mapErr]
  have hjson : ∀ o, decodeBytes cfg aes data ⟨k, enrichment⟩ = .ok o →
      JsonText (compactJson (o.doc env.text)) (o.doc env.text) := by
    intro o ho
    exact ⟨[], _, [], by simp [compactJson], blank_nil,
      text_reads (sound_telegram env.text henv o (decoded_plain cfg aes data _ o ho)) false 0, blank_nil⟩
  cases hr : decodeDataRecords cfg d with
  | ok rs =>
    obtain ⟨o, ho, hs, hrec⟩ := (h1 rs).1 hr
    have hp : pyParseRecords cfg env (.bytes d) =
        .ok (compactJson (.arr (rs.map (RecordOutput.doc env.text)))) := by
      simp [pyParseRecords, pyBytes, hdne, pyRecordsJson, hr, Res.mapErr]
    rw [hp]
    refine ⟨_, _, _, hparse o ho, hjson o ho, by rw [follow_state, hs], follow_records _ _, ?_⟩
    rw [hrec]
    have hp : ∀ r ∈ rs, PlainValue r.value.value := by
      rw [← hrec]; exact decoded_plain cfg aes data _ o ho
    exact ⟨[], _, [], by simp [compactJson], blank_nil,
      text_reads (sound_array fun r hr => sound_record env.text henv r (hp r hr)) false 0, blank_nil⟩
  | err e =>
    obtain ⟨o, ho, hs⟩ := h2.1 ⟨e, hr⟩
    have he : e ≠ .emptyInput := by
      rintro rfl
      unfold decodeDataRecords at hr
      rw [if_neg hne] at hr
      split at hr <;> cases hr
    have hp : pyParseRecords cfg env (.bytes d) =
        .err (.parser (.rendering "application.records_invalid".toList)) := by
      cases e with
      | emptyInput => exact absurd rfl he
      | invalid a b => simp [pyParseRecords, pyBytes, hdne, pyRecordsJson, hr, Res.mapErr]
    rw [hp]
    exact ⟨rfl, _, _, hparse o ho, hjson o ho, by rw [follow_state, hs]⟩
  | panic =>
    have hp : pyParseRecords cfg env (.bytes d) = .panic := by
      simp [pyParseRecords, pyBytes, hdne, pyRecordsJson, hr, Res.mapErr]
    rw [hp]
    have := h3.1 hr
    simp [pyParse, pyBytes, hdata, hk, this, Res.mapErr]

/-- C132: a block of records can be given as bytes or as text in every spelling, to `parse_records` and to
the older function, with the same answer. -/
theorem C132_spellings (cfg : Cfg) (env : FrontEnv) (text : List Char) (d : List UInt8) (h : Spelled text d) :
    pyParseRecords cfg env (.text text) = pyParseRecords cfg env (.bytes d) ∧
      pyParseApplicationLayer cfg env text = pyParseRecords cfg env (.bytes d) := by
  have hb := (decode_iff text d).2 h
  have hdne : d.isEmpty = false := by
    have := h.1
    cases d <;> simp_all
  constructor <;> simp [pyParseRecords, pyParseApplicationLayer, pyBytes, hb, hdne, Res.mapErr]

/-- C132: the records of a text of hexadecimal digits are those of the bytes it spells.  Python's answer is
their JSON, and both fail alike.  A text that spells no bytes has no records. -/
theorem C132_hex (cfg : Cfg) (env : FrontEnv) (text : List Char) :
    (∀ rs, decodeDataRecordsHex cfg text = .ok rs ↔ ∃ d, Spelled text d ∧ decodeDataRecords cfg d = .ok rs) ∧
    (∀ rs, decodeDataRecordsHex cfg text = .ok rs →
      pyParseApplicationLayer cfg env text = .ok (compactJson (.arr (rs.map (RecordOutput.doc env.text))))) ∧
    (∀ e, decodeDataRecordsHex cfg text = .err e ↔ pyParseApplicationLayer cfg env text = .err (.parser e)) ∧
    ((∀ d, ¬ Spelled text d) → ∃ e : HexError, decodeDataRecordsHex cfg text = .err e.failure) := by
  unfold decodeDataRecordsHex pyParseApplicationLayer
  simp only [← decode_iff]
  cases hd : decodeHexBytes text with
  | err e => simp [Res.mapErr]
  | panic => exact absurd hd (C43_total text).1
  | ok bytes =>
    simp only [Res.mapErr, Res.bind_ok, pyRecordsJson]
    cases hr : decodeDataRecords cfg bytes with
    | err e => cases e <;> simp [hr, Res.mapErr]
    | panic => simp [hr, Res.mapErr]
    | ok rs => simp [hr, Res.mapErr]

example : ∃ rs, decodeDataRecordsHex ⟨false, false⟩ "01030F".toList = .ok rs ∧ rs.length = 1 :=
  ⟨_, by with_unfolding_all rfl, rfl⟩

/-- C132: nothing, and what is neither text nor bytes, is refused. -/
theorem C132_refused (cfg : Cfg) (env : FrontEnv) :
    pyParseRecords cfg env (.bytes []) = .err (.parser .emptyInput) ∧
      pyParseRecords cfg env .other = .err .type := ⟨rfl, rfl⟩

/-- A telegram without transport header that carries two records, an energy and a temperature. -/
example : ∃ link, Telegram [0x68, 0x0A, 0x0A, 0x68, 0x08, 0x01, 0x78, 0x01, 0x03, 0x0F, 0x02, 0x5B, 0x10, 0x00, 0x01, 0x16] link
      [0x78, 0x01, 0x03, 0x0F, 0x02, 0x5B, 0x10, 0x00] ∧
    ClearData [0x78, 0x01, 0x03, 0x0F, 0x02, 0x5B, 0x10, 0x00] [0x01, 0x03, 0x0F, 0x02, 0x5B, 0x10, 0x00] :=
  ⟨none, wired_telegram _ _ (.rspUd false false) (.primary 1) (by decide +kernel), .noTpl _⟩

/-- These records alone are answered. -/
example (env : FrontEnv) : ∃ text,
    pyParseRecords ⟨false, false⟩ env (.bytes [0x01, 0x03, 0x0F, 0x02, 0x5B, 0x10, 0x00]) = .ok text :=
  ⟨_, by with_unfolding_all rfl⟩

end MBus
