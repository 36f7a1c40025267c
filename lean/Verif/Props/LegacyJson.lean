import Verif.Lemmas.LegacyJson
import Verif.Props.Serialize
/-!
# C137: the text of `json-legacy`
-/
namespace MBus
open Spec

/-- The whole document, given the frame and the user data it is made of. -/
theorem document_finds (cfg : Cfg) (literal : F64 → List Char) (bytes : List UInt8) (p : ParsedOutput)
    (frame : ShownFields) (hf : Finds frame (olderFrame cfg bytes).1) :
    ShowsOlder literal frame (olderFrame cfg bytes).2 p (olderDocument cfg literal bytes p) := by
  refine ⟨?_, ?_, ?_, ?_, ?_, ?_⟩
  · exact finds_below (by unfold olderDocument; seek) hf
  · exact finds_below (by unfold olderDocument; seek) (finds_option userData_finds _)
  · intro h
    unfold olderDocument
    rw [h]
    seek
    rfl
  · intro rs h
    refine finds_elements (g := DataRecord.olderDoc literal) ?_ (fun r _ => olderRecord_finds literal r)
    unfold olderDocument
    rw [h]
    seek
    rfl
  · exact finds_below (by unfold olderDocument; seek) (summary_finds literal _)
  · refine finds_elements (g := RecordSummary.doc literal) ?_ (fun r _ => summaryRecord_finds literal r)
    unfold olderDocument FrameSummary.doc
    seek

theorem document_sound (cfg : Cfg) {literal : F64 → List Char} (hl : PrintsLiterals literal) (bytes : List UInt8)
    (p : ParsedOutput) (hf : Sound (olderFrame cfg bytes).1) : Sound (olderDocument cfg literal bytes p) := by
  unfold olderDocument
  sounds
  · exact hf
  · exact userData_sound _
  · exact olderRecord_sound hl _
  · exact summary_sound hl _

/-- From the parsed frame to the text. -/
theorem older_reads (cfg : Cfg) (env : FrontEnv) (older : OlderEnv) (aes : AesBlock) (data : List Char)
    (key : Option (List UInt8)) (hl : PrintsLiterals older.literal) (p : ParsedOutput)
    (hp : parseFrameOutput cfg env.text.realDisplay aes (cleanAndConvert data) key = .ok p) (frame : ShownFields)
    (hf : Finds frame (olderFrame cfg (cleanAndConvert data)).1)
    (hs : Sound (olderFrame cfg (cleanAndConvert data)).1) :
    ∃ text, serializeMbusData cfg env older aes data "json-legacy".toList key = .ok text ∧
      (∃ d, JsonText text d) ∧ ∀ d, JsonText text d → UniqueNames d ∧
        ShowsOlder older.literal frame (olderFrame cfg (cleanAndConvert data)).2 p d := by
  rw [older_json]
  unfold parseToJson
  rw [hp]
  have hd := document_sound cfg hl (cleanAndConvert data) p hs
  refine ⟨_, rfl, ⟨_, sound_pretty hd⟩, fun d h => ?_⟩
  rw [json_eq h (sound_pretty hd)]
  exact ⟨hd.unique, document_finds cfg older.literal _ p frame hf⟩

/-- C137: for every wired telegram that the older outputs show, the text of `json-legacy` is JSON in which no name
occurs twice, and whoever reads it finds there the frame with its function and address, the application layer that
the payload carries, all records handed to the writer, and the summary that `csv-wide` shows.  `literal` is how the
library writes finite numbers. -/
theorem C137_wired (cfg : Cfg) (env : FrontEnv) (older : OlderEnv) (aes : AesBlock) (data : List Char)
    (key : Option (List UInt8)) (hl : PrintsLiterals older.literal) (p : ParsedOutput)
    (hp : parseFrameOutput cfg env.text.realDisplay aes (cleanAndConvert data) key = .ok p) (g : WiredFrame)
    (hg : WiredTelegram (cleanAndConvert data) g) (u : Option UserDataBlock)
    (hu : ∀ blk, u = some blk ↔ ∃ fn a payload, g = .longFrame fn a payload ∧ Block payload blk) :
    ∃ text, serializeMbusData cfg env older aes data "json-legacy".toList key = .ok text ∧
      (∃ d, JsonText text d) ∧ ∀ d, JsonText text d → UniqueNames d ∧
        ShowsOlder older.literal (wiredShown g) u p d := by
  have hx := (C01_wired_accepts_exactly_telegrams cfg _ g).2 hg
  obtain ⟨m, hm, rfl⟩ := (C37_frame_delivered_wired cfg _).2.2 g hx
  have e : olderFrame cfg (cleanAndConvert data) = (m.frame.olderDoc, m.userData) := by
    unfold olderFrame; rw [hm]
  have e2 : u = m.userData := by
    have h37 := C37_user_data_or_error_wired cfg _ m hm
    apply Option.ext
    intro blk
    rw [hu blk]
    constructor
    · rintro ⟨fn, a, payload, h1, h2⟩
      rw [h1] at h37
      have h3 := (C32_accepts_iff _ _).2 h2
      rcases h37 with ⟨b, h4, h5, -⟩ | ⟨e, h4, -⟩
      · rw [h3] at h4; cases h4; exact h5
      · rw [h3] at h4; cases h4
    · intro h
      cases hf : m.frame with
      | longFrame fn a payload =>
        rw [hf] at h37
        rcases h37 with ⟨b, h4, h5, -⟩ | ⟨e, h4, h5, -⟩
        · rw [h] at h5; cases h5; exact ⟨fn, a, payload, rfl, (C32_accepts_iff _ _).1 h4⟩
        · rw [h] at h5; cases h5
      | _ => rw [hf] at h37; rw [h37.1] at h; cases h
  rw [e2]
  have := older_reads cfg env older aes data key hl p hp (wiredShown m.frame)
    (by rw [e]; exact wired_finds _) (by rw [e]; exact wired_sound _)
  rw [e] at this
  exact this

/-- C137, wireless telegrams, with or without block CRCs. -/
theorem C137_wireless (cfg : Cfg) (env : FrontEnv) (older : OlderEnv) (aes : AesBlock) (data : List Char)
    (key : Option (List UInt8)) (hl : PrintsLiterals older.literal) (p : ParsedOutput)
    (hp : parseFrameOutput cfg env.text.realDisplay aes (cleanAndConvert data) key = .ok p)
    (hw : ∀ g, ¬ WiredTelegram (cleanAndConvert data) g) (frame : List UInt8) (f : WirelessFrame)
    (hn : Normalized (cleanAndConvert data) frame) (hf : WirelessTelegram frame f) (u : Option UserDataBlock)
    (hu : ∀ blk, u = some blk ↔ Block f.data blk) :
    ∃ text, serializeMbusData cfg env older aes data "json-legacy".toList key = .ok text ∧
      (∃ d, JsonText text d) ∧ ∀ d, JsonText text d → UniqueNames d ∧
        ShowsOlder older.literal (wirelessShown f) u p d := by
  have hx := (C12_wireless_accepts_exactly_telegrams frame f).2 hf
  obtain ⟨m, hm, rfl, h37⟩ := (C37_wireless frame).2 f hx
  have e : olderFrame cfg (cleanAndConvert data) = (m.frame.olderDoc, m.userData) := by
    unfold olderFrame
    have : ∀ r, MbusData.tryFromWired cfg (cleanAndConvert data) ≠ .ok r := by
      intro r hr
      unfold MbusData.tryFromWired at hr
      rw [Res.bind_eq_ok] at hr
      obtain ⟨g, hg, -⟩ := hr
      exact hw g ((C01_wired_accepts_exactly_telegrams cfg _ g).1 hg)
    split
    · rename_i r hr; exact absurd hr (this r)
    · rw [(withoutFormatA_iff _ _).2 hn]
      simp only [hm]
  have e2 : u = m.userData := by
    apply Option.ext
    intro blk
    rw [hu blk, ← C32_accepts_iff]
    rcases h37 with ⟨b, h4, h5, -⟩ | ⟨x, h4, h5, -⟩
    · rw [h4, h5]; simp
    · rw [h4, h5]; simp
  rw [e2]
  have := older_reads cfg env older aes data key hl p hp (wirelessShown m.frame)
    (by rw [e]; exact wireless_finds _) (by rw [e]; exact wireless_sound _)
  rw [e] at this
  exact this

/-! ## Every outcome -/

theorem olderFrame_sound (cfg : Cfg) (data : List UInt8) : Sound (olderFrame cfg data).1 := by
  unfold olderFrame
  repeat' split
  · exact wired_sound _
  · exact wireless_sound _
  all_goals sounds

/-- C137: whatever the input and the key, if `json-legacy` returns a text then the text is JSON in which no name
occurs twice; for an input that is no telegram it is the object without members. -/
theorem C137_json (cfg : Cfg) (env : FrontEnv) (older : OlderEnv) (aes : AesBlock) (data : List Char)
    (key : Option (List UInt8)) (hl : PrintsLiterals older.literal) (text : List Char)
    (h : serializeMbusData cfg env older aes data "json-legacy".toList key = .ok text) :
    ∃ d, (∀ d', JsonText text d' ↔ d' = d) ∧ UniqueNames d ∧
      (d = .obj [] ∧ parseFrameOutput cfg env.text.realDisplay aes (cleanAndConvert data) key = .err () ∨
        ∃ p, parseFrameOutput cfg env.text.realDisplay aes (cleanAndConvert data) key = .ok p ∧
          follow [.key "summary", .key "frame_type"] d = some (.str p.summary.frameType)) := by
  rw [older_json] at h
  unfold parseToJson at h
  cases hp : parseFrameOutput cfg env.text.realDisplay aes (cleanAndConvert data) key with
  | ok p =>
    rw [hp] at h
    cases h
    have hd := document_sound cfg hl (cleanAndConvert data) p (olderFrame_sound cfg _)
    refine ⟨_, fun d' => ⟨fun h => json_eq h (sound_pretty hd), fun h => by rw [h]; exact sound_pretty hd⟩, hd.unique,
      .inr ⟨p, rfl, ?_⟩⟩
    unfold olderDocument FrameSummary.doc
    seek
  | err e =>
    rw [hp] at h
    cases h
    have hd : Sound (.obj []) := .obj [] (by simp) (by simp)
    have e : (Doc.obj []).text true 0 = "{}".toList := by decide +kernel
    rw [← e]
    exact ⟨.obj [], fun d' => ⟨fun h => json_eq h (sound_pretty hd), fun h => by rw [h]; exact sound_pretty hd⟩, hd.unique,
      .inl ⟨rfl, rfl⟩⟩
  | panic => rw [hp] at h; cases h

/-! ## The same records as the structured output -/

/-- C137: whenever the structured output of a telegram is complete, the text of `json-legacy` has one element in
`data_records` and one in the summary for each of its records, in the same order, made of the same bytes. -/
theorem C137_records (cfg : Cfg) (env : FrontEnv) (older : OlderEnv) (aes : AesBlock) (haes : BlockSized aes)
    (data : List Char) (key : Option (List UInt8)) (hl : PrintsLiterals older.literal) (enrich : Bool)
    (o : DecodedOutput) (h : decodeBytes cfg aes (cleanAndConvert data) ⟨key, enrich⟩ = .ok o)
    (hs : o.security.decryptionState ≠ "key_missing".toList) (hc : o.decodeState = "complete".toList) :
    ∃ text, serializeMbusData cfg env older aes data "json-legacy".toList key = .ok text ∧
      (∃ d, JsonText text d) ∧ ∀ d, JsonText text d → ∀ i,
        (∀ r, o.records[i]? = some r →
          (∃ header payload, Tokens r.headerHex header ∧ Tokens r.dataHex payload ∧
            follow [.key "data_records", .at i, .key "raw_bytes"] d = some (.str (Spec.hexBytes (header ++ payload)))) ∧
          follow [.key "summary", .key "records", .at i, .key "header_hex"] d = some (.str r.headerHex) ∧
          follow [.key "summary", .key "records", .at i, .key "data_hex"] d = some (.str r.dataHex)) ∧
        (o.records[i]? = none → follow [.key "data_records", .at i] d = none ∧
          follow [.key "summary", .key "records", .at i] d = none) := by
  obtain ⟨p, hp, hsum, -, -, -, hj⟩ := C106_records_partial cfg env.text.realDisplay aes haes _ key enrich o h hs
  have hj := hj hc
  rw [older_json]
  unfold parseToJson
  rw [hp]
  have hd := document_sound cfg hl (cleanAndConvert data) p (olderFrame_sound cfg _)
  refine ⟨_, rfl, ⟨_, sound_pretty hd⟩, fun d h => ?_⟩
  rw [json_eq h (sound_pretty hd)]
  have hshow := document_finds cfg older.literal (cleanAndConvert data) p [] (fun f hf => by cases hf)
  have l1 := hsum.length_eq
  have l2 := hj.length_eq
  intro i
  constructor
  · intro r hr
    have hi : i < o.records.length := by
      rcases Nat.lt_or_ge i o.records.length with h | h
      · exact h
      · rw [List.getElem?_eq_none h] at hr; cases hr
    rw [List.getElem?_eq_getElem hi] at hr
    cases hr
    have s1 := hsum.get (by omega) hi
    simp only [List.get_eq_getElem] at s1
    refine ⟨?_, ?_, ?_⟩
    · cases hq : p.jsonRecords with
      | none => rw [hq] at l2; simp only [Option.getD_none, List.length_nil] at l2; omega
      | some rs =>
        rw [hq] at hj l2
        simp only [Option.getD_some] at hj l2
        obtain ⟨b1, b2, b3⟩ := hj.get (by omega) hi
        simp only [List.get_eq_getElem] at b1 b2 b3
        refine ⟨rs[i].headerBytes, rs[i].dataBytes, b1 ▸ hexSpaced_tokens _, b2 ▸ hexSpaced_tokens _, ?_⟩
        have := (hshow.records rs hq).each i (by simpa using by omega)
        simp only [List.getElem_map] at this
        rw [← b3]
        exact this ([.key "raw_bytes"], _) (by simp [olderRecordShown])
    · have := hshow.summaryRecords.each i (by simpa using by omega)
      simp only [List.getElem_map] at this
      rw [← s1.header]
      exact this ([.key "header_hex"], _) (by simp [summaryRecordShown])
    · have := hshow.summaryRecords.each i (by simpa using by omega)
      simp only [List.getElem_map] at this
      rw [← s1.data]
      exact this ([.key "data_hex"], _) (by simp [summaryRecordShown])
  · intro hr
    have hi : o.records.length ≤ i := by
      rcases Nat.lt_or_ge i o.records.length with h | h
      · rw [List.getElem?_eq_getElem h] at hr; cases hr
      · exact h
    refine ⟨?_, hshow.summaryRecords.ends i (by simpa using by omega)⟩
    cases hq : p.jsonRecords with
    | none =>
      have := hshow.noRecords hq
      rw [show [Step.key "data_records", .at i] = [.key "data_records"] ++ [.at i] from rfl, follow_append, this]
      rfl
    | some rs =>
      rw [hq] at l2
      exact (hshow.records rs hq).ends i (by simp only [Option.getD_some] at l2; simpa using by omega)

/-! ## Telegrams that meet the hypotheses -/

theorem zero_literal : PrintsLiterals (fun _ => ['0']) := fun _ _ =>
  ⟨[], ['0'], [], [], rfl, .inl rfl, .inl rfl, .inl rfl, .inl rfl⟩

/-- A wired and a wireless telegram with one record, as text. -/
def olderText : List Char := Spec.hexBytes (olderWired 0 [0x01, 0x13, 0x05])
def olderRadioText : List Char := Spec.hexBytes (olderWireless [0x7A, 0x2A, 0x00, 0x00, 0x00, 0x01, 0x13, 0x05])

theorem olderText_bytes : cleanAndConvert olderText = olderWired 0 [0x01, 0x13, 0x05] := by decide +kernel

theorem olderRadioText_bytes :
    cleanAndConvert olderRadioText = olderWireless [0x7A, 0x2A, 0x00, 0x00, 0x00, 0x01, 0x13, 0x05] := by
  decide +kernel

/-- The hypotheses of `C137_wired` are met by a telegram with user data and one record. -/
example (aes : AesBlock) : ∃ p g blk,
    parseFrameOutput cfgRelease (fun _ => []) aes (cleanAndConvert olderText) none = .ok p ∧
    WiredTelegram (cleanAndConvert olderText) g ∧
    (∀ b, some blk = some b ↔ ∃ fn a payload, g = .longFrame fn a payload ∧ Block payload b) ∧
    (p.jsonRecords.getD []).length = 1 := by
  rw [olderText_bytes]
  obtain ⟨p, h1, h2⟩ := checked (parseFrameOutput cfgRelease (fun _ => []) aes (olderWired 0 [0x01, 0x13, 0x05]) none)
    (fun p => (p.jsonRecords.getD []).length = 1) (by with_unfolding_all rfl)
  obtain ⟨g, hg, hg'⟩ := checked (WiredFrame.tryFrom cfgRelease (olderWired 0 [0x01, 0x13, 0x05]))
    (fun g => g = .longFrame (.rspUd false false) (.primary 5)
      [0x72, 0x78, 0x56, 0x34, 0x12, 0x93, 0x15, 0x33, 0x03, 0x2A, 0x00, 0x00, 0x00, 0x01, 0x13, 0x05])
    (by decide +kernel)
  obtain ⟨blk, hb, -⟩ := checked (UserDataBlock.tryFrom
      [0x72, 0x78, 0x56, 0x34, 0x12, 0x93, 0x15, 0x33, 0x03, 0x2A, 0x00, 0x00, 0x00, 0x01, 0x13, 0x05])
    (fun _ => True) (by decide +kernel)
  refine ⟨p, g, blk, h1, (C01_wired_accepts_exactly_telegrams cfgRelease _ _).1 hg, fun b => ?_, h2⟩
  rw [hg']
  constructor
  · intro h
    cases h
    exact ⟨_, _, _, rfl, (C32_accepts_iff _ _).1 hb⟩
  · rintro ⟨fn, a, payload, h3, h4⟩
    cases h3
    have h5 := (C32_accepts_iff _ _).2 h4
    rw [hb] at h5
    cases h5
    rfl

set_option maxRecDepth 20000 in
/-- The hypotheses of `C137_wireless` are met by a telegram with user data and one record. -/
example (aes : AesBlock) : ∃ p f blk,
    parseFrameOutput cfgRelease (fun _ => []) aes (cleanAndConvert olderRadioText) none = .ok p ∧
    (∀ g, ¬ WiredTelegram (cleanAndConvert olderRadioText) g) ∧
    Normalized (cleanAndConvert olderRadioText) (cleanAndConvert olderRadioText) ∧
    WirelessTelegram (cleanAndConvert olderRadioText) f ∧
    (∀ b, some blk = some b ↔ Block f.data b) ∧ (p.jsonRecords.getD []).length = 1 := by
  rw [olderRadioText_bytes]
  obtain ⟨p, h1, h2⟩ := checked (parseFrameOutput cfgRelease (fun _ => []) aes
      (olderWireless [0x7A, 0x2A, 0x00, 0x00, 0x00, 0x01, 0x13, 0x05]) none)
    (fun p => (p.jsonRecords.getD []).length = 1) (by with_unfolding_all rfl)
  obtain ⟨f, hf, hf'⟩ := checked (WirelessFrame.tryFrom
      (olderWireless [0x7A, 0x2A, 0x00, 0x00, 0x00, 0x01, 0x13, 0x05]))
    (fun f => f.data = [0x7A, 0x2A, 0x00, 0x00, 0x00, 0x01, 0x13, 0x05]) (by decide +kernel)
  obtain ⟨blk, hb, -⟩ := checked (UserDataBlock.tryFrom [0x7A, 0x2A, 0x00, 0x00, 0x00, 0x01, 0x13, 0x05])
    (fun _ => True) (by decide +kernel)
  refine ⟨p, f, blk, h1, fun g hg => ?_, ?_, (C12_wireless_accepts_exactly_telegrams _ _).1 hf, fun b => ?_, h2⟩
  · have := (C01_wired_accepts_exactly_telegrams cfgRelease _ g).2 hg
    have h3 : (WiredFrame.tryFrom cfgRelease
      (olderWireless [0x7A, 0x2A, 0x00, 0x00, 0x00, 0x01, 0x13, 0x05])).toOption = none := by decide +kernel
    rw [this] at h3
    cases h3
  · exact (withoutFormatA_iff _ _).1 (by decide +kernel)
  · rw [hf', ← C32_accepts_iff, hb]
    simp

/-- The hypotheses of `C137_records` are met by the same telegram. -/
example : ∃ o, decodeBytes cfgRelease (fun _ b => b) (cleanAndConvert olderText) ⟨none, true⟩ = .ok o ∧
    o.security.decryptionState = "not_applicable".toList ∧ o.records.length = 1 ∧
    o.decodeState = "complete".toList := by
  rw [olderText_bytes]
  exact checked _ (fun o : DecodedOutput => _ ∧ _) (by decide +kernel)

/-- The whole text of an acknowledgement. -/
example (env : FrontEnv) (older : OlderEnv) (aes : AesBlock) :
    serializeMbusData cfgRelease env older aes "E5".toList "json-legacy".toList none =
      .ok ("{\n  \"data_records\": null,\n  \"frame\": {\n    \"SingleCharacter\": {\n      \"character\": 229\n    }\n  },\n".toList ++
        "  \"summary\": {\n    \"decrypted\": false,\n    \"encrypted\": false,\n".toList ++
        "    \"frame_type\": \"SingleCharacter\",\n    \"records\": []\n  },\n  \"user_data\": null\n}".toList) := by
  rw [older_json]
  have h : ∀ (literal : F64 → List Char) (rt : UInt32 → List Char),
      (match parseFrameOutput cfgRelease rt aes (cleanAndConvert "E5".toList) none with
        | .ok o => some (olderDocument cfgRelease literal (cleanAndConvert "E5".toList) o) | _ => none) =
      some (.obj [("data_records".toList, .null),
        ("frame".toList, .obj [("SingleCharacter".toList, .obj [("character".toList, .num "229".toList)])]),
        ("summary".toList, .obj [("decrypted".toList, .bool false), ("encrypted".toList, .bool false),
          ("frame_type".toList, .str "SingleCharacter".toList), ("records".toList, .arr [])]),
        ("user_data".toList, .null)]) := by
    intro literal rt
    with_unfolding_all rfl
  have h := h older.literal env.text.realDisplay
  unfold parseToJson
  split at h <;> try cases h
  rename_i hp
  rw [hp]
  simp only [Option.some.injEq] at h
  simp only [h]
  exact congrArg Res.ok (by decide +kernel)

end MBus
