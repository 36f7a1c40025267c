import Verif.Lemmas.JsonSchema
/-!
# C161: The JSON keeps to its schema
-/
namespace MBus
open MBus.Spec

/-- C161: the JSON of every decoded telegram, indented or compact, is a document of version 3 of the schema, whoever reads
it. -/
theorem C161_telegram (cfg : Cfg) (env : TextEnv) (aes : AesBlock) (data : List UInt8) (options : DecodeOptions)
    (o : DecodedOutput) (d : Doc) (henv : ∀ bits, FiniteReal bits → NumberText (env.realText bits))
    (h : decodeBytes cfg aes data options = .ok o)
    (hd : JsonText (renderJson env o) d ∨ JsonText (compactJson (o.doc env)) d) : Conforms telegramShape d := by
  obtain ⟨h1, h2⟩ := telegram_fits henv h
  have hf : Conforms telegramShape (o.doc env) := by
    have := h2 none
    rwa [show ({ o with raw := { o.raw with input := none } } : DecodedOutput) = o by rw [← h1]] at this
  have hs := sound_telegram env henv o (decoded_plain cfg aes data options o h)
  have e : d = o.doc env := by
    rcases hd with hd | hd
    · exact json_eq hd ⟨[], _, [], by simp [renderJson], blank_nil, text_reads hs true 0, blank_nil⟩
    · exact json_eq hd ⟨[], _, [], by simp [compactJson], blank_nil, text_reads hs false 0, blank_nil⟩
  rwa [e]

/-- C161: so is the JSON of a telegram read from hexadecimal text, which names the text. -/
theorem C161_hex (cfg : Cfg) (env : TextEnv) (aes : AesBlock) (input : List Char) (options : DecodeOptions)
    (o : DecodedOutput) (d : Doc) (henv : ∀ bits, FiniteReal bits → NumberText (env.realText bits))
    (h : decodeHex cfg aes input options = .ok o)
    (hd : JsonText (renderJson env o) d ∨ JsonText (compactJson (o.doc env)) d) : Conforms telegramShape d := by
  unfold decodeHex at h
  split at h
  · cases h
  · cases h
  · split at h
    · cases h
    · cases h
    · rename_i o' h'
      cases h
      have hs := sound_telegram env henv { o' with raw := { o'.raw with input := some input } }
        (decoded_plain cfg aes _ options o' h')
      have hf := (telegram_fits henv h').2 (some input)
      have e : d = DecodedOutput.doc env { o' with raw := { o'.raw with input := some input } } := by
        rcases hd with hd | hd
        · exact json_eq hd ⟨[], _, [], by simp [renderJson], blank_nil, text_reads hs true 0, blank_nil⟩
        · exact json_eq hd ⟨[], _, [], by simp [compactJson], blank_nil, text_reads hs false 0, blank_nil⟩
      rwa [e]

/-- C161: the JSON of the records of a record area alone is a list of records of the schema. -/
theorem C161_records (cfg : Cfg) (env : TextEnv) (data : List UInt8) (rs : List RecordOutput) (d : Doc)
    (henv : ∀ bits, FiniteReal bits → NumberText (env.realText bits)) (h : decodeDataRecords cfg data = .ok rs)
    (hd : JsonText (compactJson (.arr (rs.map (RecordOutput.doc env)))) d) : Conforms (.list recordShape) d := by
  unfold decodeDataRecords at h
  split at h
  · cases h
  · split at h
    · cases h
    · cases h
    · rename_i outs hcol
      cases h
      have hs : Sound (.arr ((recordOutputs outs).map (RecordOutput.doc env))) :=
        sound_array fun r hr => sound_record env henv r (outputs_plain outs r hr)
      rw [json_eq hd ⟨[], _, [], by simp [compactJson], blank_nil, text_reads hs false 0, blank_nil⟩]
      exact collected_fits henv hcol

/-- A record area with a number, a date that recurs every year, a real and a text. -/
def variedData : List UInt8 :=
  [0x01, 0x03, 0x0F, 0x02, 0x6C, 0xFF, 0xFC, 0x05, 0x5B, 0x00, 0x00, 0xC0, 0x7F, 0x0D, 0x7A, 0x02, 0x61, 0x62]

/-- Its JSON. -/
example : ∃ rs, decodeDataRecords ⟨false, false⟩ variedData = .ok rs ∧ rs.map (fun r => compactJson (r.value.doc sampleEnv)) =
    ["{\"kind\":\"decimal\",\"value\":\"15\"}".toList,
     "{\"kind\":\"date\",\"value\":{\"day\":31,\"month\":\"December\",\"year\":\"every\"}}".toList,
     "{\"kind\":\"float\",\"value\":\"nan\"}".toList, "{\"kind\":\"text\",\"value\":\"ba\"}".toList] :=
  ⟨_, by with_unfolding_all rfl, by with_unfolding_all decide +kernel⟩

/-- A member that is not listed, a missing one and a word that is not listed are not accepted. -/
example : ¬Conforms (.object [("kind", true, .word ["none"])]) (.obj [("kind".toList, .str "none".toList), ("unit".toList, .null)]) ∧
    ¬Conforms (.object [("kind", true, .word ["none"])]) (.obj []) ∧
    ¬Conforms (.word ["complete", "partial"]) (.str "done".toList) := by
  refine ⟨fun h => ?_, fun h => ?_, fun h => ?_⟩
  · cases h with
    | object h => cases h with | present h1 h2 => cases h2
  · cases h with
    | object h => cases h
  · cases h with
    | text h => revert h; decide +kernel

end MBus
