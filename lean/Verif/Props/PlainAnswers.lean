import Verif.Spec.PlainAnswers
import Verif.Props.Checksums
import Verif.Props.SentTable
import Verif.Props.OutputFields
/-!
# C153: switching off the details of the manufacturer changes nothing else
-/
namespace MBus
open MBus.Spec

/-- C153 for the library: without the details the decoded telegram is the same but for them. -/
theorem C153_decoded (cfg : Cfg) (aes : AesBlock) (data : List UInt8) (key : Option (List UInt8)) :
    Alike (fun o o' : DecodedOutput => o' = { o with enrichment := none }) (decodeBytes cfg aes data ⟨key, true⟩)
      (decodeBytes cfg aes data ⟨key, false⟩) := by
  unfold decodeBytes
  by_cases h : data = []
  · simp only [h, if_true]; exact rfl
  rw [if_neg h, if_neg h]
  cases MbusData.tryFromWired cfg data with
  | panic => exact trivial
  | ok parsed =>
    simp only
    cases prepareSecurity aes parsed.userData none key (List.replicate 512 0) with
    | panic => exact trivial
    | err e => exact rfl
    | ok c =>
      simp only [buildOutput]
      cases collectRecords cfg (recordsToShow parsed c) with
      | none => exact trivial
      | some x => exact rfl
  | err e =>
    simp only
    cases stripFormatACrcs data (List.replicate 512 0) with
    | panic => exact trivial
    | err e => exact trivial
    | ok r =>
      simp only
      cases MbusData.tryFromWireless (r.1.getD data) with
      | panic => exact trivial
      | err e => exact rfl
      | ok parsed =>
        simp only
        cases prepareSecurity aes parsed.userData (some parsed.frame.manufacturerId) key (List.replicate 512 0) with
        | panic => exact trivial
        | err e => exact rfl
        | ok c =>
          simp only [buildOutput]
          cases collectRecords cfg (recordsToShow parsed c) with
          | none => exact trivial
          | some x => exact rfl

/-- What holds for bytes holds for all front ends. -/
theorem details_switched (cfg : Cfg) (env : CliEnv) (aes : AesBlock) (format : String) (fmt : OutputFormat)
    (hf : OutputFormat.fromStr format.toList = some fmt) (R : Nat → List Char → List Char → Prop)
    (h : ∀ data key width, Alike (R (Option.getD width 100)) (renderBytes cfg env.front aes data fmt ⟨⟨key, true⟩, width⟩)
      (renderBytes cfg env.front aes data fmt ⟨⟨key, false⟩, width⟩)) :
    DetailsSwitched cfg env aes format R := by
  have hfmt : formatNamed format.toList = .ok fmt := by simp [formatNamed, hf]
  have hr : ∀ text key width, Alike (R (Option.getD width 100)) (renderHex cfg env.front aes text fmt ⟨⟨key, true⟩, width⟩)
      (renderHex cfg env.front aes text fmt ⟨⟨key, false⟩, width⟩) :=
    fun text key width => alike_bind _ _ _ (fun bytes => h bytes key width)
  refine ⟨?_, ?_, fun _ _ _ => rfl, ?_⟩
  · intro file data text key width detected hi
    simp only
    rw [cliMain_input hi, cliMain_input hi]
    have hc : Alike (R ((width.or detected).getD 100)) (cliRun cfg env.front aes text ⟨format.toList, key, width, false, detected⟩)
        (cliRun cfg env.front aes text ⟨format.toList, key, width, true, detected⟩) := by
      simp only [cliRun, hfmt]
      cases key with
      | none => exact hr _ _ _
      | some k => exact alike_bind (cliKey k) _ _ (fun key => hr _ _ _)
    unfold cliRendered
    revert hc
    cases cliRun cfg env.front aes text ⟨format.toList, key, width, false, detected⟩ <;>
      cases cliRun cfg env.front aes text ⟨format.toList, key, width, true, detected⟩ <;>
      simp +contextual [Alike, cliFailed]
  · intro text key width
    simp only [jsRender, hfmt]
    exact alike_bind (jsKey key) _ _ (fun key => hr _ _ _)
  · intro value key width
    simp only [pyRender, hfmt]
    exact alike_bind (pyBytes value) _ _ (fun bytes => alike_bind (pyKey key) _ _ (fun key => alike_mapErr _ _ _ (h _ _ _)))

/-- What holds for decoded telegrams holds for bytes. -/
theorem switched_bytes (cfg : Cfg) (env : FrontEnv) (aes : AesBlock) (fmt : OutputFormat)
    (hfmt : fmt ∈ [.table, .json, .yaml, .csv, .mermaid]) (width : Option Nat) (R : List Char → List Char → Prop)
    (data : List UInt8) (key : Option (List UInt8))
    (h : ∀ o o', decodeBytes cfg aes data ⟨key, true⟩ = .ok o → decodeBytes cfg aes data ⟨key, false⟩ = .ok o' →
      o' = { o with enrichment := none } → Alike R (renderDecoded env fmt width o) (renderDecoded env fmt width o')) :
    Alike R (renderBytes cfg env aes data fmt ⟨⟨key, true⟩, width⟩) (renderBytes cfg env aes data fmt ⟨⟨key, false⟩, width⟩) := by
  have hb : ∀ options : RenderOptions, renderBytes cfg env aes data fmt options =
      ((decodeBytes cfg aes data options.decode).mapErr OutputError.failure >>= renderDecoded env fmt options.tableWidth) := by
    intro options
    simp only [List.mem_cons, List.not_mem_nil, or_false] at hfmt
    rcases hfmt with rfl | rfl | rfl | rfl | rfl <;> rfl
  rw [hb, hb]
  have hd := C153_decoded cfg aes data key
  cases h1 : decodeBytes cfg aes data ⟨key, true⟩ <;> cases h2 : decodeBytes cfg aes data ⟨key, false⟩ <;>
    rw [h1, h2] at hd <;> simp only [Alike] at hd
  · exact h _ _ h1 h2 hd
  · subst hd; exact rfl
  · exact trivial

/-- C153: in the formats that never have details there is no difference. -/
theorem C153_free (cfg : Cfg) (env : CliEnv) (aes : AesBlock) (format : String) (hf : format ∈ detailFree) :
    DetailsSwitched cfg env aes format (fun _ out out' => out = out') := by
  simp only [detailFree, List.mem_cons, List.not_mem_nil, or_false] at hf
  rcases hf with rfl | rfl | rfl | rfl
  · refine details_switched cfg env aes _ .mermaid (by decide +kernel) _ (fun data key width => ?_)
    refine switched_bytes cfg env.front aes .mermaid (by simp) width _ data key (fun o o' _ _ h => ?_)
    rw [h]
    exact rfl
  · exact details_switched cfg env aes _ .xml (by decide +kernel) _ (fun data key width => alike_refl (fun _ => rfl) _)
  · exact details_switched cfg env aes _ .annotated (by decide +kernel) _ (fun data key width => alike_refl (fun _ => rfl) _)
  · exact details_switched cfg env aes _ .annotatedText (by decide +kernel) _ (fun data key width => alike_refl (fun _ => rfl) _)

/-- C153 for the JSON texts: they say the same but for the member with the details. -/
theorem C153_json (cfg : Cfg) (env : CliEnv) (aes : AesBlock)
    (henv : ∀ bits, FiniteReal bits → NumberText (env.front.text.realText bits)) :
    DetailsSwitched cfg env aes "json" (fun _ => WithoutMember) := by
  refine details_switched cfg env aes _ .json (by decide +kernel) _ (fun data key width => ?_)
  refine switched_bytes cfg env.front aes .json (by simp) width _ data key (fun o o' h1 h2 h => ?_)
  show WithoutMember (renderJson env.front.text o) (renderJson env.front.text o')
  have j1 := (sound_telegram env.front.text henv o (decoded_plain cfg aes data _ o h1))
  have j2 := (sound_telegram env.front.text henv o' (decoded_plain cfg aes data _ o' h2))
  have t1 : JsonText (renderJson env.front.text o) (o.doc env.front.text) :=
    ⟨[], _, [], by simp [renderJson], blank_nil, text_reads j1 true 0, blank_nil⟩
  have t2 : JsonText (renderJson env.front.text o') (o'.doc env.front.text) :=
    ⟨[], _, [], by simp [renderJson], blank_nil, text_reads j2 true 0, blank_nil⟩
  refine ⟨_, _, fun x => ⟨fun h => json_eq h t1, fun h => h ▸ t1⟩, fun x => ⟨fun h => json_eq h t2, fun h => h ▸ t2⟩, ?_, ?_⟩
  · intro name path hne
    rw [h]
    have hraw : ("enrichment".toList = name.toList) ↔ False := by
      simp only [iff_false]; intro h; exact hne (String.toList_inj.1 h).symm
    cases he : o.enrichment <;>
    simp only [DecodedOutput.doc, follow, List.find?_append, field, fieldOpt, List.find?_cons, List.find?_nil, hraw, decide_false, he]
  · rw [h]
    rfl

/-- C153 for the CSV texts: they say the same but for the two columns with details. -/
theorem C153_csv (cfg : Cfg) (env : CliEnv) (aes : AesBlock) :
    DetailsSwitched cfg env aes "csv" (fun _ => WithoutColumns) := by
  refine details_switched cfg env aes _ .csv (by decide +kernel) _ (fun data key width => ?_)
  refine switched_bytes cfg env.front aes .csv (by simp) width _ data key (fun o o' _ _ h => ?_)
  obtain ⟨t, h1, h2⟩ := C113_csv env.front.text o
  obtain ⟨t', h1', h2'⟩ := C113_csv env.front.text o'
  simp only [renderDecoded, h1, h1']
  have hnames : (csvRows env.front.text o').1 = (csvRows env.front.text o).1 := by rw [h]; rfl
  rw [hnames] at h2'
  have l1 := C92_rows env.front.text o
  have l2 := C92_rows env.front.text o'
  refine ⟨_, _, _, h2, h2', by omega, by rw [← hnames]; omega, fun i name hi => ?_⟩
  rw [h]
  by_cases hlt : i < 18
  · interval_cases i <;> cases hi <;>
      first
        | rw [if_pos (by decide +kernel)]; rfl
        | rw [if_neg (by decide +kernel)]; rfl
  · have hm : name ∈ o.records.flatMap (fun r =>
        csvRecordFields.map (fun f => "record_".toList ++ natText r.index ++ ['_'] ++ f.toList)) := by
      have e : (csvRows env.front.text o).1[i]? = _ := List.getElem?_append_right (by simp [csvFrameFields]; omega)
      rw [e] at hi
      exact List.mem_of_getElem? hi
    have hne : ¬ (name = "manufacturer_name".toList ∨ name = "manufacturer_website".toList) := by
      simp only [List.mem_flatMap, List.mem_map] at hm
      obtain ⟨r, -, f, -, rfl⟩ := hm
      have : ∀ t : List Char, "record_".toList ++ natText r.index ++ ['_'] ++ f.toList = t → t.head? = some 'r' := by
        rintro t rfl; rfl
      rintro (h | h) <;> exact absurd (this _ h) (by decide +kernel)
    rw [if_neg hne]
    have hr : ∀ x : DecodedOutput, (csvRows env.front.text x).2[i]? =
        (x.records.flatMap (csvRecordValues env.front.text))[i - 18]? := by
      intro x
      exact List.getElem?_append_right (by simp [csvFrameRow]; omega)
    rw [hr, hr]

/-- C153 for the tables: they are the same but for the rows with details. -/
theorem C153_table (cfg : Cfg) (env : CliEnv) (hs : SaneWidths env.front.text) (aes : AesBlock) :
    DetailsSwitched cfg env aes "table" (fun width => WithoutRows (charW env.front.text) width) := by
  refine details_switched cfg env aes _ .table (by decide +kernel) _ (fun data key width => ?_)
  refine switched_bytes cfg env.front aes .table (by simp) width _ data key (fun o o' h1 h2 h => ?_)
  by_cases hw : 32 ≤ width.getD 100
  · obtain ⟨t, r, l⟩ := C141_layout cfg env.front.text hs aes data _ o h1 _ hw
    obtain ⟨t', r', l'⟩ := C141_layout cfg env.front.text hs aes data _ o' h2 _ hw
    simp only [renderDecoded, r, r']
    have hf : telegramFacts o = telegramFacts o' ++ o.enrichment.toList.flatMap (fun e =>
        [("Manufacturer name".toList, e.info.name.toList), ("Website".toList, e.info.website.toList),
          ("Description".toList, e.info.description.toList)]) := by
      rw [h]
      simp only [telegramFacts, Option.toList_none, List.flatMap_nil, List.append_nil]
    rw [hf] at l
    have e1 : o'.protocol = o.protocol := by rw [h]
    have e2 : o'.frame = o.frame := by rw [h]
    have e3 : o'.decodeState = o.decodeState := by rw [h]
    have e4 : o'.records = o.records := by rw [h]
    have e5 : o'.diagnostics = o.diagnostics := by rw [h]
    rw [e1, e2, e3, e4, e5] at l'
    refine ⟨_, _, _, _, _, l, l', ?_, ?_⟩
    · cases o.enrichment with
      | none => exact .inl rfl
      | some e => exact .inr rfl
    · have : o'.enrichment = none := by rw [h]
      simp only [telegramFacts, this, Option.toList_none, List.flatMap_nil, List.append_nil, List.mem_cons, List.not_mem_nil,
        or_false]
      rintro row (rfl | rfl | rfl | rfl | rfl) <;> (simp only; decide +kernel)
  · have hn : ∀ x, renderTable env.front.text x (width.getD 100) = none := by
      intro x
      simp only [renderTable, tableLines, if_pos (show width.getD 100 < 32 by omega), Option.map_none]
    simp only [renderDecoded, hn]
    exact rfl

/-- A telegram of a meter of a manufacturer in the registry: there are details to be switched off. -/
example (cfg : Cfg) (env : CliEnv) (aes : AesBlock) :
    let data := wirelessFrame ([0x7A, 0x2A, 0, 0x10, 0x05] ++ List.replicate 16 0x5A)
    (∃ o e, decodeBytes cfg aes data ⟨none, true⟩ = .ok o ∧ o.enrichment = some e ∧
      e.info.name = "GWF MessSysteme AG") ∧
    ∃ out out', jsRender cfg env.front aes (hexString data) "csv".toList none none none = .ok out ∧
      jsRender cfg env.front aes (hexString data) "csv".toList none none (some false) = .ok out' ∧
      WithoutColumns out out' := by
  intro data
  have key : (match decodeBytes cfg (fun _ b => b) data ⟨none, true⟩ with
    | .ok o => (o.enrichment.map (·.info.name))
    | _ => none) = some "GWF MessSysteme AG" := by
    obtain ⟨oc, tf⟩ := cfg
    cases oc <;> cases tf <;> decide +kernel
  split at key
  · rename_i o ho
    rw [← decode_any_aes cfg aes (fun _ b => b)] at ho
    obtain ⟨e, he, hn⟩ := Option.map_eq_some_iff.1 key
    refine ⟨⟨o, e, ho, he, hn⟩, ?_⟩
    have hs := C153_csv cfg env aes
    have h1 := hs.javaScript (hexString data) none none
    rw [← hs.javaScriptDefault] at h1
    have hd : decodeHexBytes (hexString data) = .ok data := by decide +kernel
    obtain ⟨t, ht, -⟩ := C113_csv env.front.text o
    have h2 : jsRender cfg env.front aes (hexString data) "csv".toList none none none = .ok t := by
      have hf : formatNamed "csv".toList = .ok .csv := by decide +kernel
      simp only [jsRender, hf, jsKey, Res.bind_ok, renderHex, hd, Res.mapErr, renderBytes, Option.getD_none, ho, renderDecoded, ht]
    rw [h2] at h1 ⊢
    cases h3 : jsRender cfg env.front aes (hexString data) "csv".toList none none (some false) with
    | ok t' => rw [h3] at h1; exact ⟨t, t', rfl, rfl, h1⟩
    | err e => rw [h3] at h1; exact h1.elim
    | panic => rw [h3] at h1; exact h1.elim
  · cases key

end MBus
