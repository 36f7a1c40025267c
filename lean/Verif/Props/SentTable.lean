import Verif.Lemmas.SentTable
import Verif.Props.SentCsv
import Verif.Props.SentIdentity
import Verif.Props.Serialize
/-!
# C141: what a meter sends is in the table
-/
namespace MBus
open MBus.Spec

theorem recordHex_raw (r : RecordOutput) : recordHex r = [' '].intercalate ([r.headerHex, r.dataHex].filter (· ≠ [])) := by
  unfold recordHex
  by_cases h1 : r.headerHex = [] <;> by_cases h2 : r.dataHex = [] <;> simp [h1, h2, List.intercalate]

theorem reading_texts (env : TextEnv) (r : RecordOutput) : reading env r = (recordTexts env r).reading := by
  unfold reading recordTexts
  cases r.unit <;> rfl

theorem stu_texts (env : TextEnv) (r : RecordOutput) : stuText r = (recordTexts env r).place := by
  simp only [stuText, recordTexts, natText_toString]

theorem line_drawn (w : Char → Nat) (text : List Char) (h1 : '\n' ∉ text) (h2 : '┌' ∉ text) : Drawn w (.line text) [text] := by
  refine .line text h1 ?_
  cases text with
  | nil => simp
  | cons c t =>
    intro h
    simp only [List.head?_cons, Option.some.injEq] at h
    exact h2 (h ▸ by simp)

theorem natText_only (n : Nat) (c : Char) (hc : ¬ ('0' ≤ c ∧ c ≤ '9')) : c ∉ natText n := by
  intro h
  rw [natText, toDigits_eq] at h
  exact hc (decimal_digits n _ h)

theorem records_drawn (env : TextEnv) (hs : SaneWidths env) (records : List RecordOutput) (width : Nat) (hw : 32 ≤ width) :
    ∃ drawn, List.Forall₂ (Drawn (charW env)) (recordParts width (records.map (recordTexts env))) drawn ∧
      drawn.flatten = recordSection env records width := by
  unfold recordParts recordSection
  by_cases hr : records = []
  · simp only [hr, List.map_nil, if_true]
    exact ⟨[], .nil, rfl⟩
  rw [if_neg (by simpa using hr), if_neg hr]
  by_cases h1 : 100 ≤ width
  · rw [if_pos h1, if_pos h1]
    refine ⟨[_], .cons (box_drawn env hs _ _ [3, max ((width - 19) * 34 / 100) 18, 12, 11, 13,
        width - 19 - (3 + max ((width - 19) * 34 / 100) 18 + 12 + 11 + 13)] ?_ (by simp) (by simpa using hr) ?_) .nil, ?_⟩
    · intro w hw
      simp only [List.mem_cons, List.not_mem_nil, or_false] at hw
      omega
    · intro r hr'
      rcases List.mem_cons.1 hr' with rfl | hr'
      · rfl
      · obtain ⟨p, _, rfl⟩ := List.mem_map.1 hr'
        rfl
    · simp only [List.flatten_cons, List.flatten_nil, List.append_nil, List.map_map]
      simp only [Function.comp_def, ← reading_texts, ← stu_texts]
      simp only [recordTexts, ← recordHex_raw, ← natText_toString]
      rfl
  rw [if_neg h1, if_neg h1]
  by_cases h2 : 72 ≤ width
  · rw [if_pos h2, if_pos h2]
    refine ⟨[_], .cons (box_drawn env hs _ _ [3, max ((width - 13) * 52 / 100) 24, 12,
        width - 13 - (3 + max ((width - 13) * 52 / 100) 24 + 12)] ?_ (by simp) (by simpa using hr) ?_) .nil, ?_⟩
    · intro w hw
      simp only [List.mem_cons, List.not_mem_nil, or_false] at hw
      omega
    · intro r hr'
      rcases List.mem_cons.1 hr' with rfl | hr'
      · rfl
      · obtain ⟨p, _, rfl⟩ := List.mem_map.1 hr'
        rfl
    · simp only [List.flatten_cons, List.flatten_nil, List.append_nil, List.map_map]
      simp only [Function.comp_def, ← reading_texts, ← stu_texts]
      simp only [recordTexts, ← recordHex_raw, ← natText_toString]
      rfl
  rw [if_neg h2, if_neg h2]
  clear hr
  induction records with
  | nil => exact ⟨[], .nil, rfl⟩
  | cons r records ih =>
    obtain ⟨drawn, d1, d2⟩ := ih
    refine ⟨_ :: _ :: drawn, .cons (line_drawn _ _ ?_ ?_) (.cons (facts_drawn env hs _ (by simp) width hw) d1), ?_⟩
    · show '\n' ∉ "Record ".toList ++ (toString r.index).toList
      rw [← natText_toString, List.mem_append]
      exact fun h => h.elim (by decide) (natText_only _ _ (by decide))
    · show '┌' ∉ "Record ".toList ++ (toString r.index).toList
      rw [← natText_toString, List.mem_append]
      exact fun h => h.elim (by decide) (natText_only _ _ (by decide))
    · rw [List.flatten_cons, List.flatten_cons, d2, List.flatMap_cons, ← reading_texts, ← stu_texts]
      simp only [recordTexts, ← recordHex_raw, ← natText_toString]
      simp

/-- The words of the title. -/
theorem title_words {cfg : Cfg} {aes : AesBlock} {data : List UInt8} {options : DecodeOptions} {o : DecodedOutput}
    (h : decodeBytes cfg aes data options = .ok o) :
    o.protocol ∈ ["wired".toList, "wireless".toList] ∧
    o.frame.kind ∈ ["long".toList, "control".toList, "short".toList, "single_character".toList, "wireless".toList] ∧
    o.decodeState ∈ ["partial".toList, "complete".toList] := by
  have hd := decoding cfg aes data options
  generalize decodeBytes cfg aes data options = r at hd h
  have hi : ∀ b : Bool, (if b then "partial" else "complete").toList ∈ ["partial".toList, "complete".toList] := by
    intro b
    cases b
    · exact List.mem_cons_of_mem _ List.mem_cons_self
    · exact List.mem_cons_self
  cases hd with
  | empty => cases h
  | crash => cases h
  | neither => cases h
  | wired g m =>
    obtain ⟨_, _, _, _, _, hp, hf, _, _, _, _, hs, _⟩ := finish_ok _ _ _ _ _ _ _ _ _ _ _ _ h
    rw [hp, hf, hs]
    refine ⟨List.mem_cons_self, ?_, hi _⟩
    cases g with
    | longFrame => exact List.mem_cons_self
    | controlFrame => exact List.mem_cons_of_mem _ List.mem_cons_self
    | shortFrame => exact List.mem_cons_of_mem _ (List.mem_cons_of_mem _ List.mem_cons_self)
    | singleCharacter => exact List.mem_cons_of_mem _ (List.mem_cons_of_mem _ (List.mem_cons_of_mem _ List.mem_cons_self))
  | wireless f m frame =>
    obtain ⟨_, _, _, _, _, hp, hf, _, _, _, _, hs, _⟩ := finish_ok _ _ _ _ _ _ _ _ _ _ _ _ h
    rw [hp, hf, hs]
    exact ⟨List.mem_cons_of_mem _ List.mem_cons_self, List.mem_cons_of_mem _ (List.mem_cons_of_mem _
      (List.mem_cons_of_mem _ (List.mem_cons_of_mem _ List.mem_cons_self))), hi _⟩

theorem lines_table (env : TextEnv) (hs : SaneWidths env) (title : List Char) (hplain : '┌' ∉ title)
    (facts : List (List Char × List Char)) (hf : facts ≠ []) (records : List RecordOutput)
    (diagnostics : List (List Char × List Char)) (width : Nat) (hw : 32 ≤ width) :
    IsTable (charW env) width title facts (records.map (recordTexts env)) diagnostics
      (unlines (wrapDisplay env title width ++ keyValueBox env facts width ++ recordSection env records width ++
        if diagnostics = [] then [] else ["Diagnostics".toList] ++ keyValueBox env diagnostics width)) := by
  have hwrap := C51_wrap env title width (by omega) (fun c => (hs.narrow c).trans (by omega))
  have htitle : List.Forall₂ (Drawn (charW env)) ((wrapDisplay env title width).map .line)
      ((wrapDisplay env title width).map (fun l => [l])) := by
    rw [List.forall₂_map_left_iff, List.forall₂_map_right_iff, List.forall₂_same]
    intro l hl
    refine line_drawn _ _ (wrapped_no_newline hwrap l hl) (fun hc => ?_)
    have hb : '┌' ∈ bare (wrapDisplay env title width).flatten := by
      unfold bare
      rw [List.mem_filter]
      exact ⟨List.mem_flatten.2 ⟨l, hl, hc⟩, by decide⟩
    rw [wrapped_bare hwrap] at hb
    exact hplain (List.mem_filter.1 hb).1
  obtain ⟨drawn, d1, d2⟩ := records_drawn env hs records width hw
  have hdiag : ∃ ds, List.Forall₂ (Drawn (charW env))
      (if diagnostics = [] then [] else [.line "Diagnostics".toList, factsBox diagnostics]) ds ∧
      ds.flatten = if diagnostics = [] then [] else ["Diagnostics".toList] ++ keyValueBox env diagnostics width := by
    by_cases hd : diagnostics = []
    · rw [if_pos hd, if_pos hd]
      exact ⟨[], .nil, rfl⟩
    · rw [if_neg hd, if_neg hd]
      refine ⟨[["Diagnostics".toList], keyValueBox env diagnostics width],
        .cons (line_drawn _ _ (by decide +kernel) (by decide +kernel))
        (.cons (facts_drawn env hs _ hd width hw) .nil), ?_⟩
      rw [List.flatten_cons, List.flatten_cons, List.flatten_nil, List.append_nil]
  obtain ⟨ds, e1, e2⟩ := hdiag
  refine ⟨wrapDisplay env title width, hwrap, _, List.rel_append (List.rel_append (List.rel_append htitle
    (.cons (facts_drawn env hs facts hf width hw) .nil)) d1) e1, ?_⟩
  unfold unlines
  rw [List.flatten_append, List.flatten_append, List.flatten_append, d2, e2]
  have : ((wrapDisplay env title width).map (fun l => [l])).flatten = wrapDisplay env title width := by
    induction wrapDisplay env title width with
    | nil => rfl
    | cons a l ih => simp [ih]
  rw [this, List.flatten_cons, List.flatten_nil, List.append_nil]

/-- C141: a table is a title, a box with the facts about the telegram, the records, each with all its texts and in order,
and the diagnostics, and nothing else. -/
theorem C141_layout (cfg : Cfg) (env : TextEnv) (hs : SaneWidths env) (aes : AesBlock) (data : List UInt8)
    (options : DecodeOptions) (o : DecodedOutput) (h : decodeBytes cfg aes data options = .ok o) (width : Nat)
    (hw : 32 ≤ width) :
    ∃ text, renderTable env o width = some text ∧
      IsTable (charW env) width (o.protocol ++ [' '] ++ o.frame.kind ++ " frame · ".toList ++ o.decodeState ++
        " decode".toList) (telegramFacts o) (o.records.map (recordTexts env))
        (o.diagnostics.map (fun d => (d.code, d.severity ++ ": ".toList ++ d.message))) text := by
  have hw' : ¬ width < 32 := by omega
  have hplain : '┌' ∉ o.protocol ++ [' '] ++ o.frame.kind ++ " frame · ".toList ++ o.decodeState ++ " decode".toList := by
    obtain ⟨h1, h2, h3⟩ := title_words h
    simp only [List.mem_append, not_or]
    have k1 : ∀ t ∈ ["wired".toList, "wireless".toList], '┌' ∉ t := by decide +kernel
    have k2 : ∀ t ∈ ["long".toList, "control".toList, "short".toList, "single_character".toList, "wireless".toList],
      '┌' ∉ t := by decide +kernel
    have k3 : ∀ t ∈ ["partial".toList, "complete".toList], '┌' ∉ t := by decide +kernel
    exact ⟨⟨⟨⟨⟨k1 _ h1, by decide⟩, k2 _ h2⟩, by decide +kernel⟩, k3 _ h3⟩, by decide +kernel⟩
  have hfacts : summaryRows o = telegramFacts o := by
    unfold summaryRows telegramFacts
    cases o.enrichment <;> rfl
  have hne : telegramFacts o ≠ [] := by unfold telegramFacts; exact List.cons_ne_nil _ _
  have := lines_table env hs _ hplain (telegramFacts o) hne o.records
    (o.diagnostics.map (fun d => (d.code, d.severity ++ ": ".toList ++ d.message))) width hw
  rw [← hfacts] at this ⊢
  simp only [renderTable, tableLines, if_neg hw', Option.map_some]
  refine ⟨_, rfl, ?_⟩
  simpa only [List.map_eq_nil_iff] using this

/-- The telegram with `sentReadings` at 80 columns. -/
example (cfg : Cfg) (aes : AesBlock) (enrichment : Bool) : ∃ o text,
    decodeBytes cfg aes (olderWired 0 sentData) ⟨none, enrichment⟩ = .ok o ∧ renderTable plainEnv o 80 = some text ∧
    ∃ title diagnostics, IsTable (charW plainEnv) 80 title (telegramFacts o) (o.records.map (recordTexts plainEnv))
      diagnostics text := by
  have ht := wired_telegram (olderWired 0 sentData)
    ([0x72, 0x78, 0x56, 0x34, 0x12, 0x93, 0x15, 0x33, 0x03, 0x2A, 0x00, 0x00, 0] ++ sentData)
    (.rspUd false false) (.primary 5) (by decide +kernel)
  obtain ⟨o, ho, -⟩ := C123_clear_partial cfg aes _ none _ sentData ⟨none, enrichment⟩ sentReadings ht
    (.long false 0x78 0x56 0x34 0x12 0x93 0x15 0x33 0x03 0x2A 0x00 0x00 0 _ (by decide +kernel) (by decide))
    sent_example (by decide +kernel)
  obtain ⟨text, h1, h2⟩ := C141_layout cfg plainEnv plainEnv_sane aes _ _ o ho 80 (by omega)
  exact ⟨o, text, ho, h1, _, _, h2⟩

/-- C141: a table can be read back: two lists of lines and boxes drawn as the same text are the same, up to blanks and line
breaks inside the cells. -/
theorem C141_read (w : Char → Nat) (hw : w ' ' = 1) (parts parts' : List TablePart) (text : List Char)
    (h : TableDocument w parts text) (h' : TableDocument w parts' text) :
    parts.map TablePart.bare = parts'.map TablePart.bare := by
  obtain ⟨ds, h1, rfl⟩ := h
  obtain ⟨ds', h1', e⟩ := h'
  have hs : ∀ (ps : List TablePart) (ds : List (List (List Char))), List.Forall₂ (Drawn w) ps ds → ∀ l ∈ ds.flatten, '\n' ∉ l := by
    intro ps ds h
    induction h with
    | nil => simp
    | cons h1 _ ih =>
      intro l hl
      rw [List.flatten_cons, List.mem_append] at hl
      exact hl.elim (drawn_single h1 l) (ih l)
  exact parts_unique w hw _ _ _ _ h1 h1' (lines_unique _ _ (hs _ _ h1) (hs _ _ h1') e)

/-- Boxes with different numbers are different texts. -/
example (text : List Char) : ¬ (TableDocument (charW plainEnv) [.box ["Value".toList] [["12".toList], ["7 kWh".toList]]] text ∧
    TableDocument (charW plainEnv) [.box ["Value".toList] [["12".toList], ["8 kWh".toList]]] text) :=
  fun h => absurd (C141_read _ rfl _ _ text h.1 h.2) (by decide +kernel)

example (title : List Char) (h : '┌' ∉ title) : IsTable (charW plainEnv) 80 title
    [("Value".toList, "12".toList)] [] [] (unlines (wrapDisplay plainEnv title 80 ++
      keyValueBox plainEnv [("Value".toList, "12".toList)] 80 ++ [] ++ [])) :=
  lines_table plainEnv plainEnv_sane title h [("Value".toList, "12".toList)] (by simp) [] [] 80 (by omega)

theorem shown_texts (env : TextEnv) (r : MeterReading) (o : RecordOutput) (h : Shown r o) :
    RecordShows env.realText r o.index (recordTexts env o) := by
  have hc := shown_csv env r o (fun n => ((recordColumns env o).find? (·.1 = n)).map (·.2)) h (by
    intro f hf
    simp only [recordColumns, List.mem_cons, List.not_mem_nil, or_false] at hf
    rcases hf with rfl | rfl | rfl | rfl | rfl | rfl | rfl | rfl | rfl | rfl | rfl <;> simp [recordColumns])
  obtain ⟨h1, h2, h3, h4, es, h5, h6, h7, h8, h9⟩ := h
  obtain ⟨-, -, -, -, es', c5, c6, -⟩ := hc
  rw [h5] at c5
  cases c5
  refine ⟨rfl, ⟨es, o.value.kind, valueDisplay env o, (match o.unit with
    | some u => ' ' :: u
    | none => []), h5, ?_, ?_, ?_, ?_⟩, h1, ?_⟩
  · simpa [recordColumns] using c6
  · simp only [recordTexts, h7, List.map_eq_nil_iff]
    cases o.unit <;> rfl
  · intro hu
    rw [h8 hu]
  · intro hu
    obtain ⟨u, e, h⟩ := h9 hu
    exact ⟨u, by rw [e], h⟩
  · simp only [recordTexts, h2, h3, h4]

theorem decoded_table (cfg : Cfg) (env : TextEnv) (hs : SaneWidths env) (aes : AesBlock) (data : List UInt8)
    (options : DecodeOptions) (readings : List MeterReading) (o : DecodedOutput)
    (h : decodeBytes cfg aes data options = .ok o) (hc : o.decodeState = "complete".toList)
    (hr : List.Forall₂ Shown readings o.records) (width : Nat) (hw : 32 ≤ width) :
    ∃ text, renderTable env o width = some text ∧ TableReadings (charW env) env.realText width readings text := by
  obtain ⟨text, h1, h2⟩ := C141_layout cfg env hs aes data options o h width hw
  refine ⟨text, h1, o.protocol, o.frame.kind, telegramFacts o, o.records.map (recordTexts env),
    o.diagnostics.map (fun d => (d.code, d.severity ++ ": ".toList ++ d.message)), ?_,
    by rw [List.length_map, hr.length_eq], ?_⟩
  · have : o.protocol ++ [' '] ++ o.frame.kind ++ " frame · ".toList ++ o.decodeState ++ " decode".toList =
        o.protocol ++ [' '] ++ o.frame.kind ++ " frame · complete decode".toList := by
      rw [hc]
      simp only [List.append_assoc]
      rfl
    rw [← this]
    exact h2
  · intro i r t hi ht
    have hidx := C89_indices cfg aes data options o h
    rw [List.getElem?_map, Option.map_eq_some_iff] at ht
    obtain ⟨x, hx, rfl⟩ := ht
    obtain ⟨k1, rfl⟩ := List.getElem?_eq_some_iff.1 hi
    obtain ⟨k2, rfl⟩ := List.getElem?_eq_some_iff.1 hx
    have hxi : o.records[i].index = i := by
      have := congrArg (fun l => l[i]?) hidx
      simp [k2] at this
      exact this
    have := shown_texts env _ _ (List.Forall₂.get hr k1 k2)
    simp only [List.get_eq_getElem] at this
    rw [hxi] at this
    exact this

theorem table_answered (cfg : Cfg) (env : CliEnv) (aes : AesBlock) (text : List Char) (data : List UInt8)
    (keyText : Option (List Char)) (key : Option (List UInt8)) (enrichment : Bool) (Good : Nat → List Char → Prop)
    (ht : Spelled text data) (hk : KeyGiven keyText key)
    (h : ∀ width, 32 ≤ Option.getD width 100 → ∃ out,
      renderBytes cfg env.front aes data .table ⟨⟨key, enrichment⟩, width⟩ = .ok out ∧ Good (width.getD 100) out) :
    TableAnswered cfg env aes text keyText enrichment Good := by
  have hf : OutputFormat.fromStr "table".toList = some .table := by decide +kernel
  have hd := (decode_iff text data).2 ht
  have hr : ∀ width, 32 ≤ Option.getD width 100 → ∃ out,
      renderHex cfg env.front aes text .table ⟨⟨key, enrichment⟩, width⟩ = .ok out ∧ Good (width.getD 100) out := by
    intro width hw
    simp only [renderHex, hd, Res.mapErr]
    exact h width hw
  have hk' : (keyText = none ∧ key = none) ∨ ∃ t k, keyText = some t ∧ key = some k ∧ KeyText t k := by
    cases hk with
    | none => exact .inl ⟨rfl, rfl⟩
    | key t k hkt => exact .inr ⟨t, k, rfl, rfl, hkt⟩
  have hsame := fun width => C115_same cfg env.front aes text _ .table hf keyText key hk' width none enrichment
  refine ⟨?_, ?_, ?_⟩
  · intro file data' width detected hboth hi hw
    obtain ⟨out, h1, h2⟩ := hr (width.or detected) hw
    refine ⟨out, (C128_success cfg env aes file data' hboth _ _ _).2 ⟨rfl, text, .table, key, hi, hf, hk, ?_⟩, h2⟩
    unfold cliRenderOptions
    simp only [Bool.not_not]
    cases width <;> exact h1
  · intro width hw
    obtain ⟨out, h1, h2⟩ := hr width hw
    refine ⟨out, ?_, h2⟩
    have := (hsame width).2.1
    rw [Option.or_none] at this
    rw [this, h1]
  · intro width hw
    obtain ⟨out, h1, h2⟩ := hr width hw
    refine ⟨out, ?_, h2⟩
    have := (hsame width).2.2
    rw [Option.or_none] at this
    rw [this, h1]
    rfl

theorem table_everywhere (cfg : Cfg) (env : CliEnv) (hs : SaneWidths env.front.text) (aes : AesBlock) (text : List Char)
    (data : List UInt8) (keyText : Option (List Char)) (key : Option (List UInt8)) (enrichment : Bool)
    (readings : List MeterReading) (ht : Spelled text data) (hk : KeyGiven keyText key)
    (h : ∃ o, decodeBytes cfg aes data ⟨key, enrichment⟩ = .ok o ∧ o.decodeState = "complete".toList ∧
      List.Forall₂ Shown readings o.records) :
    TableAnswered cfg env aes text keyText enrichment
      (fun width => TableReadings (charW env.front.text) env.front.text.realText width readings) := by
  obtain ⟨o, h1, h2, h3⟩ := h
  refine table_answered cfg env aes text data keyText key enrichment _ ht hk (fun width hw => ?_)
  obtain ⟨out, j1, j2⟩ := decoded_table cfg env.front.text hs aes data ⟨key, enrichment⟩ readings o h1 h2 h3 _ hw
  exact ⟨out, by simp [renderBytes, h1, renderDecoded, Res.mapErr, j1], j2⟩

/-- C141: for a telegram with unencrypted data, given as text in any spelling, the command line program, JavaScript and
Python give a table with exactly the readings the meter sent, at every width from 32 columns.  Missing are the readings
that are shown wrong (`C123_fails`). -/
theorem C141_clear_partial (cfg : Cfg) (env : CliEnv) (hs : SaneWidths env.front.text) (aes : AesBlock) (text : List Char)
    (data : List UInt8) (link : Option ManufacturerId) (payload d : List UInt8) (keyText : Option (List Char))
    (key : Option (List UInt8)) (enrichment : Bool) (readings : List MeterReading) (hx : Spelled text data)
    (hk : KeyGiven keyText key) (ht : Telegram data link payload) (hd : ClearData payload d) (hm : Message 7 readings d)
    (hr : ∀ r ∈ readings, Readable r) :
    TableAnswered cfg env aes text keyText enrichment
      (fun width => TableReadings (charW env.front.text) env.front.text.realText width readings) :=
  table_everywhere cfg env hs aes text data keyText key enrichment readings hx hk
    (C123_clear_partial cfg aes data link payload d ⟨key, enrichment⟩ readings ht hd hm hr)

/-- The readings of `sentReadings` in a telegram typed as pairs of digits, without a key. -/
example (cfg : Cfg) (front : FrontEnv) (hf : front.text = plainEnv) (aes : AesBlock) (enrichment : Bool) :
    TableAnswered cfg (oneFile front "t.hex".toList []) aes (hexString (olderWired 0 sentData)) none enrichment
      (fun width => TableReadings (charW front.text) front.text.realText width sentReadings) :=
  C141_clear_partial cfg _ (by show SaneWidths front.text; rw [hf]; exact plainEnv_sane) aes _ (olderWired 0 sentData) none
    _ sentData none none enrichment sentReadings
    ((decode_iff _ _).1 (by decide +kernel)) .none
    (wired_telegram _ ([0x72, 0x78, 0x56, 0x34, 0x12, 0x93, 0x15, 0x33, 0x03, 0x2A, 0x00, 0x00, 0] ++ sentData)
      (.rspUd false false) (.primary 5) (by decide +kernel))
    (.long false 0x78 0x56 0x34 0x12 0x93 0x15 0x33 0x03 0x2A 0x00 0x00 0 _ (by decide +kernel) (by decide))
    sent_example (by decide +kernel)

/-- C141 for telegrams with a long header whose data the meter encrypted with AES-128 in mode 5 or 7. -/
theorem C141_aes_partial (cfg : Cfg) (env : CliEnv) (hs : SaneWidths env.front.text) (text keyText : List Char)
    (key : List UInt8) (hkey : KeyText keyText key)
    (i0 i1 i2 i3 m0 m1 version device acc st c0 c1 : UInt8) (hb : AllBcd [i0, i1, i2, i3])
    (code : ManufacturerCode) (hcode : ManufacturerCode.fromId (le16 m0 m1) = .ok code)
    (iv : List UInt8) (hiv : CbcIv (c1.toNat % 32) m0 m1 [i0, i1, i2, i3] version device acc iv)
    (blocks : List (List UInt8)) (hbl : ∀ b ∈ blocks, b.length = 16) (hne : blocks ≠ [])
    (tail : List UInt8) (ht : tail.length < 16) (data : List UInt8) (link : Option ManufacturerId)
    (hx : Spelled text data)
    (hs' : Telegram data link ([0x72, i0, i1, i2, i3, m0, m1, version, device, acc, st, c0, c1] ++
        (cbcEncrypt Aes.encrypt key iv blocks ++ tail)))
    (readings : List MeterReading) (hm : Message 7 readings (blocks.flatten ++ tail))
    (hr : ∀ r ∈ readings, Readable r) (enrich : Bool) :
    TableAnswered cfg env Aes.aes128 text (some keyText) enrich
      (fun width => TableReadings (charW env.front.text) env.front.text.realText width readings) :=
  table_everywhere cfg env hs _ text data _ (some key) enrich readings hx (.key keyText key hkey)
    (C123_aes_partial cfg key hkey.1 i0 i1 i2 i3 m0 m1 version device acc st c0 c1 hb code hcode iv hiv blocks hbl hne tail
      ht data link hs' readings hm hr enrich)

set_option maxRecDepth 20000 in
/-- The same readings encrypted with the key of the project's tests, typed with blanks between the bytes. -/
example (cfg : Cfg) (front : FrontEnv) (hf : front.text = plainEnv) :
    TableAnswered cfg (oneFile front "t.hex".toList []) Aes.aes128
      (hexSpaced (olderWired 5 (cbcEncrypt Aes.encrypt exampleKey (headerIv 0x93 0x15 [0x78, 0x56, 0x34, 0x12] 0x33 0x03 0x2A)
        [sentData.take 16, (sentData.drop 16).take 16] ++ sentData.drop 32)))
      (some "0102030405060708090a0B0c0D0E0F11".toList) true
      (fun width => TableReadings (charW front.text) front.text.realText width sentReadings) :=
  C141_aes_partial cfg _ (by show SaneWidths front.text; rw [hf]; exact plainEnv_sane) _ _ exampleKey
    (((C115_cli_key _).1 _).1 (by decide +kernel))
    0x78 0x56 0x34 0x12 0x93 0x15 0x33 0x03 0x2A 0 0 5 (by decide +kernel) ⟨69, 76, 83⟩ (by decide +kernel) _ (.address rfl)
    [sentData.take 16, (sentData.drop 16).take 16] (by decide) (by simp) (sentData.drop 32) (by decide)
    (olderWired 5 (cbcEncrypt Aes.encrypt exampleKey (headerIv 0x93 0x15 [0x78, 0x56, 0x34, 0x12] 0x33 0x03 0x2A)
        [sentData.take 16, (sentData.drop 16).take 16] ++ sentData.drop 32)) none
    ((decode_iff _ _).1 (by decide +kernel))
    (wired_telegram _ _ (.rspUd false false) (.primary 5) (by decide +kernel))
    sentReadings (by simpa [sentData] using sent_example) (by decide +kernel) true

/-- C141 for encrypted wireless telegrams with a short header. -/
theorem C141_aes_short_partial (cfg : Cfg) (env : CliEnv) (hs : SaneWidths env.front.text) (text keyText : List Char)
    (key : List UInt8)
    (hkey : KeyText keyText key) (ci acc st c0 c1 : UInt8) (hci : isShortCi ci)
    (link : ManufacturerId) (m0 m1 d0 d1 d2 d3 device : UInt8) (hb : AllBcd [d0, d1, d2, d3])
    (hcode : ManufacturerCode.fromId (le16 m0 m1) = .ok link.manufacturerCode)
    (hid : link.identificationNumber = bcdValue [d0, d1, d2, d3])
    (hdev : link.deviceType = DeviceType.fromByte device)
    (iv : List UInt8) (hiv : CbcIv (c1.toNat % 32) m0 m1 [d0, d1, d2, d3] link.version device acc iv)
    (blocks : List (List UInt8)) (hbl : ∀ b ∈ blocks, b.length = 16) (hne : blocks ≠ [])
    (tail : List UInt8) (ht : tail.length < 16) (data : List UInt8) (hx : Spelled text data)
    (hs' : Telegram data (some link)
      ([ci, acc, st, c0, c1] ++ (cbcEncrypt Aes.encrypt key iv blocks ++ tail)))
    (readings : List MeterReading) (hm : Message 7 readings (blocks.flatten ++ tail))
    (hr : ∀ r ∈ readings, Readable r) (enrich : Bool) :
    TableAnswered cfg env Aes.aes128 text (some keyText) enrich
      (fun width => TableReadings (charW env.front.text) env.front.text.realText width readings) :=
  table_everywhere cfg env hs _ text data _ (some key) enrich readings hx (.key keyText key hkey)
    (C123_aes_short_partial cfg key hkey.1 ci acc st c0 c1 hci link m0 m1 d0 d1 d2 d3 device hb hcode hid hdev iv hiv
      blocks hbl hne tail ht data hs' readings hm hr enrich)

set_option maxRecDepth 20000 in
example (cfg : Cfg) (front : FrontEnv) (hf : front.text = plainEnv) :
    TableAnswered cfg (oneFile front "t.hex".toList []) Aes.aes128 (hexString sealedWireless)
      (some "0102030405060708090a0B0c0D0E0F11".toList) true
      (fun width => TableReadings (charW front.text) front.text.realText width sentReadings) :=
  C141_aes_short_partial cfg _ (by show SaneWidths front.text; rw [hf]; exact plainEnv_sane) _ _ exampleKey
    (((C115_cli_key _).1 _).1 (by decide +kernel))
    0x7A 0x2A 0 0x20 0x05 (Or.inl rfl)
    ⟨⟨71, 87, 70⟩, 12345678, .waterMeter, 0x3C, false⟩ 0xE6 0x1E 0x78 0x56 0x34 0x12 0x07
    (by decide +kernel) (by decide +kernel) (by decide +kernel) (by decide +kernel) _ (.address rfl)
    [sentData.take 16, (sentData.drop 16).take 16] (by decide) (by simp) (sentData.drop 32) (by decide) sealedWireless
    ((decode_iff _ _).1 (by decide +kernel)) (isWireless_telegram _ _ _ (by decide +kernel))
    sentReadings (by simpa [sentData] using sent_example) (by decide +kernel) true

/-- C141: for a telegram from a meter that is decoded, with or without a key, the tables of all front ends name the
meter. -/
theorem C141_meter (cfg : Cfg) (env : CliEnv) (hs : SaneWidths env.front.text) (aes : AesBlock) (text : List Char)
    (data : List UInt8) (keyText : Option (List Char)) (key : Option (List UInt8)) (enrichment : Bool) (m : SentMeter)
    (source : String) (hx : Spelled text data) (hk : KeyGiven keyText key) (hm : m.Valid) (hsent : SentBy m source data)
    (h : ∃ o, decodeBytes cfg aes data ⟨key, enrichment⟩ = .ok o) :
    TableAnswered cfg env aes text keyText enrichment (fun width => TableMeter (charW env.front.text) width m) := by
  obtain ⟨o, ho⟩ := h
  obtain ⟨i, hi, hn⟩ := C139_decoded cfg aes data _ o ho m hm source hsent
  refine table_answered cfg env aes text data keyText key enrichment _ hx hk (fun width hw => ?_)
  obtain ⟨out, j1, j2⟩ := C141_layout cfg env.front.text hs aes data ⟨key, enrichment⟩ o ho _ hw
  refine ⟨out, by simp [renderBytes, ho, renderDecoded, Res.mapErr, j1],
    o.protocol ++ [' '] ++ o.frame.kind ++ " frame · ".toList ++ o.decodeState ++ " decode".toList,
    o.frame.function.getD ['—'], (telegramFacts o).drop 4, o.records.map (recordTexts env.front.text),
    o.diagnostics.map (fun d => (d.code, d.severity ++ ": ".toList ++ d.message)), ?_⟩
  · have : telegramFacts o = [("Function".toList, o.frame.function.getD ['—']), ("Meter".toList, eightDigits m.number),
        ("Manufacturer".toList, threeLetters m), ("Device".toList, deviceName m.device)] ++ (telegramFacts o).drop 4 := by
      simp [telegramFacts, hi, hn.id, hn.maker, hn.name]
    rw [← this]
    exact j2

example (cfg : Cfg) (front : FrontEnv) (hf : front.text = plainEnv) (aes : AesBlock) (enrichment : Bool) :
    TableAnswered cfg (oneFile front "t.hex".toList []) aes (hexString (olderWired 0 sentData)) none enrichment
      (fun width => TableMeter (charW front.text) width ⟨12345678, 5, 12, 19, 0x33, 0x03⟩) := by
  have ht := wired_telegram (olderWired 0 sentData)
    ([0x72, 0x78, 0x56, 0x34, 0x12, 0x93, 0x15, 0x33, 0x03, 0x2A, 0x00, 0x00, 0] ++ sentData)
    (.rspUd false false) (.primary 5) (by decide +kernel)
  obtain ⟨o, ho, -⟩ := C123_clear_partial cfg aes _ none _ sentData ⟨none, enrichment⟩ sentReadings ht
    (.long false 0x78 0x56 0x34 0x12 0x93 0x15 0x33 0x03 0x2A 0x00 0x00 0 _ (by decide +kernel) (by decide))
    sent_example (by decide +kernel)
  exact C141_meter cfg _ (by show SaneWidths front.text; rw [hf]; exact plainEnv_sane) aes _ (olderWired 0 sentData) none
    none enrichment ⟨12345678, 5, 12, 19, 0x33, 0x03⟩ "tpl.long" ((decode_iff _ _).1 (by decide +kernel)) .none
    ⟨by norm_num, by constructor <;> norm_num, by constructor <;> norm_num, by constructor <;> norm_num⟩
    (.long _ none 0x2A 0 0 0 sentData ht) ⟨o, ho⟩

end MBus
