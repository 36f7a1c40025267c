import Verif.Props.SentReset
/-!
# C168: a telegram without data shows nothing but its frame
-/
namespace MBus
open MBus.Spec MBus.Xml MBus.Spec.Xml

theorem bare_parsed (cfg : Cfg) (data : List UInt8) (hs : BareSent data) :
    ∃ g, WiredTelegram data g ∧ MbusData.tryFromWired cfg data = .ok ⟨g, none, none, none⟩ ∧
      ∀ fn a payload, g ≠ .longFrame fn a payload := by
  have key : ∀ g, WiredTelegram data g → (∀ fn a payload, g ≠ .longFrame fn a payload) →
      MbusData.tryFromWired cfg data = .ok ⟨g, none, none, none⟩ := by
    intro g hg hn
    unfold MbusData.tryFromWired
    rw [(C01_wired_accepts_exactly_telegrams cfg data g).2 hg, Res.bind_ok]
    cases g with
    | longFrame fn a payload => exact absurd rfl (hn fn a payload)
    | _ => rfl
  cases hs with
  | single c h => exact ⟨_, h, key _ h (by simp), by simp⟩
  | short fn a h => exact ⟨_, h, key _ h (by simp), by simp⟩
  | control fn a payload h => exact ⟨_, h, key _ h (by simp), by simp⟩

theorem bare_decoded (cfg : Cfg) (aes : AesBlock) (data : List UInt8) (options : DecodeOptions) (hs : BareSent data) :
    ∃ o, decodeBytes cfg aes data options = .ok o ∧ Bare none true options.key.isSome o := by
  obtain ⟨g, hg, hp, -⟩ := bare_parsed cfg data hs
  have hne : data ≠ [] := by rintro rfl; cases hg
  unfold decodeBytes
  rw [if_neg hne, hp]
  obtain ⟨key, enrichment⟩ := options
  refine ⟨_, rfl, ?_, ?_, ?_, ?_, ?_, ?_, ?_, ?_⟩
  · rfl
  · show String.toList (ite _ _ _) = _
    rw [if_neg (by simp)]
  · show [] ++ (if key.isSome then _ else []) ++ [] = _
    rw [List.append_nil, List.nil_append]
  · rfl
  · rfl
  · rfl
  · rfl
  · intro; rfl

/-- C168: the JSON texts of the command line program, JavaScript and Python. -/
theorem C168_json (cfg : Cfg) (env : CliEnv) (aes : AesBlock) (text : List Char) (data : List UInt8)
    (keyText : Option (List Char)) (key : Option (List UInt8)) (enrichment : Bool)
    (henv : ∀ bits, FiniteReal bits → NumberText (env.front.text.realText bits))
    (hx : Spelled text data) (hk : KeyGiven keyText key) (hs : BareSent data) :
    AnsweredWell cfg env aes text keyText enrichment "json" (JsonBare none true keyText.isSome) :=
  bare_json cfg env aes text data keyText key enrichment _ true henv hx hk (bare_decoded cfg aes data _ hs)

/-- C168 for the CSV texts. -/
theorem C168_csv (cfg : Cfg) (env : CliEnv) (aes : AesBlock) (text : List Char) (data : List UInt8)
    (keyText : Option (List Char)) (key : Option (List UInt8)) (enrichment : Bool)
    (hx : Spelled text data) (hk : KeyGiven keyText key) (hs : BareSent data) :
    AnsweredWell cfg env aes text keyText enrichment "csv" (CsvBare true keyText.isSome) :=
  bare_csv cfg env aes text data keyText key enrichment none true hx hk (bare_decoded cfg aes data _ hs)

/-- C168 for the older JSON: neither an application layer nor records nor a meter. -/
theorem C168_older (cfg : Cfg) (env : FrontEnv) (older : OlderEnv) (aes : AesBlock) (input : List Char)
    (key : Option (List UInt8)) (hl : PrintsLiterals older.literal) (hs : BareSent (cleanAndConvert input)) :
    ∃ text d, serializeMbusData cfg env older aes input "json-legacy".toList key = .ok text ∧
      (∀ d', JsonText text d' ↔ d' = d) ∧ follow [.key "user_data"] d = some .null ∧
      follow [.key "data_records"] d = some .null ∧ follow [.key "summary", .key "records", .at 0] d = none ∧
      follow [.key "summary", .key "identification_number"] d = none ∧
      follow [.key "summary", .key "access_number"] d = none := by
  obtain ⟨g, hg, hx, hn⟩ := bare_parsed cfg _ hs
  have hp : ∃ p, parseFrameOutput cfg env.text.realDisplay aes (cleanAndConvert input) key = .ok p ∧
      p.jsonRecords = none ∧ p.summary.records = [] ∧ p.summary.identificationNumber = none ∧
      p.summary.accessNumber = none := by
    unfold parseFrameOutput
    rw [hx]
    cases key <;> cases g <;> exact ⟨_, rfl, rfl, rfl, rfl, rfl⟩
  obtain ⟨p, hp, p1, p2, p3, p4⟩ := hp
  obtain ⟨text, t1, -, t3⟩ := C137_wired cfg env older aes input key hl p hp _ hg none (by
      intro blk
      constructor
      · intro h; cases h
      · rintro ⟨_, _, _, e, -⟩
        exact absurd e (hn _ _ _))
  obtain ⟨d, d1, -, -⟩ := C137_json cfg env older aes input key hl text t1
  obtain ⟨-, s⟩ := t3 d ((d1 d).2 rfl)
  refine ⟨text, d, t1, d1, ?_, s.noRecords p1, ?_, ?_, ?_⟩
  · exact s.userData ([.key "user_data"], some .null) (by simp [below, nullable])
  · exact s.summaryRecords.2 0 (by rw [p2]; exact Nat.le_refl 0)
  · have := s.summary ([.key "summary", .key "identification_number"], p.summary.identificationNumber.map Doc.str)
      (by simp [below, summaryShown])
    rw [p3] at this
    exact this
  · have := s.summary ([.key "summary", .key "access_number"], p.summary.accessNumber.map (number ·.toNat))
      (by simp [below, summaryShown])
    rw [p4] at this
    exact this

/-- C168 for the XML reports, which are reports of meters: there is none. -/
theorem C168_xml (cfg : Cfg) (env : XmlEnv) (aes : AesBlock) (data : List UInt8) (key : Option (List UInt8))
    (hs : BareSent data) : ∃ e, renderFromBytes cfg env aes data key = .err e := by
  obtain ⟨g, -, hp, -⟩ := bare_parsed cfg data hs
  unfold renderFromBytes
  rw [hp]
  exact ⟨_, rfl⟩

/-! ## The hypotheses are met -/

/-- The acknowledgement, a request for data and a command. -/
example : BareSent [0xE5] ∧ BareSent [0x10, 0x7B, 0x05, 0x80, 0x16] ∧
    BareSent (longFrameBytes 0x68 0x53 0xFE [0x51, 0x01, 0x7A, 0x08]) :=
  ⟨.single 0xE5 ((C01_wired_accepts_exactly_telegrams cfgRelease _ _).1 (by decide +kernel)),
    .short (.reqUd2 true) (.primary 5) ((C01_wired_accepts_exactly_telegrams cfgRelease _ _).1 (by decide +kernel)),
    .control (.sndUd false) (.broadcast true) [0x51, 0x01, 0x7A, 0x08]
      ((C01_wired_accepts_exactly_telegrams cfgRelease _ _).1 (by decide +kernel))⟩

/-- The acknowledgement, typed. -/
example (cfg : Cfg) (front : FrontEnv) (hf : front.text = sampleEnv) (aes : AesBlock) (enrichment : Bool) :
    AnsweredWell cfg (oneFile front "t.hex".toList []) aes "e5".toList none enrichment "json" (JsonBare none true false) :=
  C168_json cfg _ aes _ [0xE5] none none enrichment
    (by intro bits h; show NumberText (front.text.realText bits); rw [hf]; exact sampleEnv_numbers bits h)
    ((decode_iff _ _).1 (by decide +kernel)) .none
    (.single 0xE5 ((C01_wired_accepts_exactly_telegrams cfgRelease _ _).1 (by decide +kernel)))

end MBus
