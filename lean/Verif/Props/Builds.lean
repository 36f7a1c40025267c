import Verif.Lemmas.Builds
/-!
# C162: A build with overflow checks gives the same answers as one without, unless it crashes

`⟨true, p⟩` is the library built with overflow checks, `⟨false, p⟩` without, both with the feature
`plaintext-before-extension` on if `p` says so.
-/
namespace MBus

/-- C162: a wired frame is read as the same frame, or refused with the same error. -/
theorem C162_frame (p : Bool) (data : List UInt8) (h : WiredFrame.tryFrom ⟨true, p⟩ data ≠ .panic) :
    WiredFrame.tryFrom ⟨true, p⟩ data = WiredFrame.tryFrom ⟨false, p⟩ data :=
  (builds_wired data).resolve_left h

/-- C162: so is a single record. -/
theorem C162_record (p lsb : Bool) (data : List UInt8) (h : DataRecord.parse ⟨true, p⟩ lsb data ≠ .panic) :
    DataRecord.parse ⟨true, p⟩ lsb data = DataRecord.parse ⟨false, p⟩ lsb data :=
  (builds_record lsb data).resolve_left h

/-- C162: the iterator over records returns the same, call by call, up to the call that crashes. -/
theorem C162_iterator (p : Bool) (s : DataRecords) (n : Nat) :
    s.calls ⟨true, p⟩ n = s.calls ⟨false, p⟩ n
      ∨ ∃ k < n, s.calls ⟨true, p⟩ n = (s.calls ⟨false, p⟩ n).take k ++ [some .panic] :=
  builds_iterator n s

/-- C162: a telegram is decoded to the same output, or refused with the same error. -/
theorem C162_decode (p : Bool) (aes : AesBlock) (data : List UInt8) (options : DecodeOptions)
    (h : decodeBytes ⟨true, p⟩ aes data options ≠ .panic) :
    decodeBytes ⟨true, p⟩ aes data options = decodeBytes ⟨false, p⟩ aes data options :=
  (builds_decode aes data options).resolve_left h

/-- C162: so is a telegram given as hexadecimal text. -/
theorem C162_hex (p : Bool) (aes : AesBlock) (input : List Char) (options : DecodeOptions)
    (h : decodeHex ⟨true, p⟩ aes input options ≠ .panic) :
    decodeHex ⟨true, p⟩ aes input options = decodeHex ⟨false, p⟩ aes input options :=
  (builds_hex aes input options).resolve_left h

/-- C162: so are records without a telegram around them. -/
theorem C162_records (p : Bool) (data : List UInt8) (h : decodeDataRecords ⟨true, p⟩ data ≠ .panic) :
    decodeDataRecords ⟨true, p⟩ data = decodeDataRecords ⟨false, p⟩ data :=
  (builds_data data).resolve_left h

/-- C162: every format of the output is the same text. -/
theorem C162_render (p : Bool) (env : FrontEnv) (aes : AesBlock) (data : List UInt8) (format : OutputFormat)
    (options : RenderOptions) (h : renderBytes ⟨true, p⟩ env aes data format options ≠ .panic) :
    renderBytes ⟨true, p⟩ env aes data format options = renderBytes ⟨false, p⟩ env aes data format options :=
  (builds_render env aes data format options).resolve_left h

/-- C162: so is every older format. -/
theorem C162_older (p : Bool) (env : FrontEnv) (older : OlderEnv) (aes : AesBlock) (data format : List Char)
    (key : Option (List UInt8)) (h : serializeMbusData ⟨true, p⟩ env older aes data format key ≠ .panic) :
    serializeMbusData ⟨true, p⟩ env older aes data format key
      = serializeMbusData ⟨false, p⟩ env older aes data format key :=
  (builds_serialize env older aes data format key).resolve_left h

/-- C162: so is the older diagram. -/
theorem C162_diagram (p : Bool) (r : UInt32 → List Char) (input : List Char) (key : Option (List UInt8))
    (h : parseToMermaid ⟨true, p⟩ r input key ≠ .panic) :
    parseToMermaid ⟨true, p⟩ r input key = parseToMermaid ⟨false, p⟩ r input key :=
  (builds_diagram r input key).resolve_left h

/-- C162: the command line program writes the same texts and ends with the same status, unless it crashes. -/
theorem C162_cli (p : Bool) (env : CliEnv) (aes : AesBlock) (file data : Option (List Char)) (options : CliOptions)
    (h : (cliMain ⟨true, p⟩ env aes file data options).status ≠ 101) :
    cliMain ⟨true, p⟩ env aes file data options = cliMain ⟨false, p⟩ env aes file data options := by
  have run : ∀ input, SameOrCrash (cliRun ⟨true, p⟩ env.front aes input options)
      (cliRun ⟨false, p⟩ env.front aes input options) := by
    intro input
    unfold cliRun
    refine builds_after fun format => ?_
    split
    · exact builds_renderHex _ _ _ _ _
    · exact builds_after fun key => builds_renderHex _ _ _ _ _
  have done : ∀ input, (cliRendered ⟨true, p⟩ env aes input options).status ≠ 101 →
      cliRendered ⟨true, p⟩ env aes input options = cliRendered ⟨false, p⟩ env aes input options := by
    intro input hs
    unfold cliRendered at hs ⊢
    rcases run input with e | e
    · rw [e] at hs
      exact absurd rfl hs
    · rw [e]
  unfold cliMain at h ⊢
  cases file with
  | none =>
    cases data with
    | none => rfl
    | some input => exact done input h
  | some path =>
    cases data with
    | some input => rfl
    | none =>
      simp only at h ⊢
      cases hf : env.readFile path with
      | error m => rfl
      | ok input =>
        rw [hf] at h
        exact done input h

/-- C162: the functions of the JavaScript package return the same, or throw the same error. -/
theorem C162_javascript (p : Bool) (env : FrontEnv) (aes : AesBlock) (data format : List Char)
    (key : Option (List Char)) (width : Option Nat) (enrichment : Option Bool) :
    (jsRender ⟨true, p⟩ env aes data format key width enrichment ≠ .panic →
      jsRender ⟨true, p⟩ env aes data format key width enrichment
        = jsRender ⟨false, p⟩ env aes data format key width enrichment)
    ∧ (jsDecode ⟨true, p⟩ aes data key enrichment ≠ .panic →
      jsDecode ⟨true, p⟩ aes data key enrichment = jsDecode ⟨false, p⟩ aes data key enrichment)
    ∧ (jsParse ⟨true, p⟩ env aes data format key ≠ .panic →
      jsParse ⟨true, p⟩ env aes data format key = jsParse ⟨false, p⟩ env aes data format key) := by
  have r : ∀ width enrichment, SameOrCrash (jsRender ⟨true, p⟩ env aes data format key width enrichment)
      (jsRender ⟨false, p⟩ env aes data format key width enrichment) := by
    intro width enrichment
    exact builds_after fun _ => builds_after fun _ => builds_renderHex _ _ _ _ _
  refine ⟨(r _ _).resolve_left, ?_, ?_⟩
  · exact (show SameOrCrash (jsDecode ⟨true, p⟩ aes data key enrichment) (jsDecode ⟨false, p⟩ aes data key enrichment) from
      builds_after fun _ => builds_mapErr (builds_hex _ _ _)).resolve_left
  · intro h
    unfold jsParse at h ⊢
    rcases r none none with e | e
    · rw [e] at h
      exact absurd rfl h
    · rw [e]

/-- C162: the functions of the Python package return the same, or raise the same exception. -/
theorem C162_python (p : Bool) (env : FrontEnv) (aes : AesBlock) (data : PyValue) (text format : List Char)
    (key : Option PyValue) (textKey : Option (List Char)) (width : Option Nat) (enrichment : Bool) :
    (pyRender ⟨true, p⟩ env aes data format key width enrichment ≠ .panic →
      pyRender ⟨true, p⟩ env aes data format key width enrichment
        = pyRender ⟨false, p⟩ env aes data format key width enrichment)
    ∧ (pyParse ⟨true, p⟩ env aes data key enrichment ≠ .panic →
      pyParse ⟨true, p⟩ env aes data key enrichment = pyParse ⟨false, p⟩ env aes data key enrichment)
    ∧ (pyMbusParse ⟨true, p⟩ env aes text format textKey ≠ .panic →
      pyMbusParse ⟨true, p⟩ env aes text format textKey = pyMbusParse ⟨false, p⟩ env aes text format textKey)
    ∧ (pyParseRecords ⟨true, p⟩ env data ≠ .panic → pyParseRecords ⟨true, p⟩ env data = pyParseRecords ⟨false, p⟩ env data)
    ∧ (pyParseApplicationLayer ⟨true, p⟩ env text ≠ .panic →
      pyParseApplicationLayer ⟨true, p⟩ env text = pyParseApplicationLayer ⟨false, p⟩ env text) := by
  have records : ∀ d, SameOrCrash (pyRecordsJson ⟨true, p⟩ env d) (pyRecordsJson ⟨false, p⟩ env d) :=
    fun d => builds_then (builds_mapErr (builds_data d))
  refine ⟨?_, ?_, ?_, ?_, ?_⟩
  · exact (show SameOrCrash (pyRender ⟨true, p⟩ env aes data format key width enrichment)
      (pyRender ⟨false, p⟩ env aes data format key width enrichment) from
      builds_after fun _ => builds_after fun _ => builds_after fun _ =>
        builds_mapErr (builds_render _ _ _ _ _)).resolve_left
  · exact (show SameOrCrash (pyParse ⟨true, p⟩ env aes data key enrichment)
      (pyParse ⟨false, p⟩ env aes data key enrichment) from
      builds_after fun _ => builds_after fun _ => builds_then (builds_mapErr (builds_decode _ _ _))).resolve_left
  · exact (show SameOrCrash (pyMbusParse ⟨true, p⟩ env aes text format textKey)
      (pyMbusParse ⟨false, p⟩ env aes text format textKey) from
      builds_after fun _ => builds_after fun _ => builds_mapErr (builds_renderHex _ _ _ _ _)).resolve_left
  · exact (show SameOrCrash (pyParseRecords ⟨true, p⟩ env data) (pyParseRecords ⟨false, p⟩ env data) from
      builds_after fun _ => records _).resolve_left
  · exact (show SameOrCrash (pyParseApplicationLayer ⟨true, p⟩ env text) (pyParseApplicationLayer ⟨false, p⟩ env text) from
      builds_after fun _ => records _).resolve_left

/-- Two records, the second of a negative number, that a build with overflow checks decodes. -/
example (p : Bool) : ∃ a b, decodeDataRecords ⟨true, p⟩ [0x0B, 0x13, 0x56, 0x34, 0x12, 0x02, 0x65, 0xF0, 0xFF] = .ok [a, b]
    := by
  obtain ⟨a, b, h⟩ : ∃ a b, decodeDataRecords ⟨true, true⟩ [0x0B, 0x13, 0x56, 0x34, 0x12, 0x02, 0x65, 0xF0, 0xFF]
    = .ok [a, b] := ⟨_, _, by with_unfolding_all rfl⟩
  cases p
  · exact ⟨_, _, by with_unfolding_all rfl⟩
  · exact ⟨a, b, h⟩

/-- A telegram that a build with overflow checks decodes, with one record. -/
example (p : Bool) (aes : AesBlock) : ∃ o, decodeBytes ⟨true, p⟩ aes
    [0x68, 6, 6, 0x68, 0x08, 0x01, 0x78, 0x01, 0x13, 0x05, 0x9A, 0x16] ⟨none, true⟩ = .ok o ∧ o.records.length = 1 := by
  cases p <;> exact ⟨_, by with_unfolding_all rfl, by with_unfolding_all rfl⟩

set_option maxRecDepth 20000 in
/-- An integer of no bytes, behind a record, crashes the build with overflow checks only: the iterator returns the
first record in both. -/
example (p : Bool) : ∃ r s, (DataRecords.new [0x01, 0x13, 0x05, 0x0D, 0x13, 0xE0] false).calls ⟨true, p⟩ 3
      = [some (.ok r), some .panic]
    ∧ (DataRecords.new [0x01, 0x13, 0x05, 0x0D, 0x13, 0xE0] false).calls ⟨false, p⟩ 3
      = [some (.ok r), some (.ok s), none] := by
  cases p <;> exact ⟨_, _, by with_unfolding_all rfl, by with_unfolding_all rfl⟩

/-- A frame of five bytes: refused without overflow checks, a crash with them. -/
example (p : Bool) (aes : AesBlock) (options : DecodeOptions) :
    decodeBytes ⟨true, p⟩ aes [0x68, 0, 0, 0x68, 0x16] options = .panic
    ∧ ∃ a b, decodeBytes ⟨false, p⟩ aes [0x68, 0, 0, 0x68, 0x16] options = .err (.invalidFrame a b) := by
  refine ⟨by cases p <;> rfl, ?_⟩
  cases p <;> exact ⟨_, _, by with_unfolding_all rfl⟩

end MBus
