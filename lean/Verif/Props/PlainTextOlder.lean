import Verif.Props.PlainText
import Verif.Props.KeyUnused
/-!
# C163: XML and the older outputs
-/
namespace MBus
open MBus.Spec

variable {c p q : Bool}

/-- The records are the same in both builds. -/
def SameCollected (c p q : Bool) (records : Option DataRecords) : Prop :=
  ∀ s, records = some s → s.collect ⟨c, q⟩ = s.collect ⟨c, p⟩

theorem feature_built {protocol : List Char} {frame : FrameOutput} {data normalized : List UInt8}
    {stripped : Bool} {payload : Option (List UInt8)} {userData : Option UserDataBlock} {records : Option DataRecords}
    {err : Option AppError} {link : Option ManufacturerId} {sc : SecurityContext} {enrich : Bool} {o : DecodedOutput}
    (q : Bool)
    (h : buildOutput ⟨c, p⟩ protocol frame data normalized stripped payload userData records err link sc enrich = some o)
    (hc : ∀ d ∈ o.diagnostics, d.code ≠ "application.record_partial".toList)
    (hp : ∀ r ∈ o.records, ¬ ShowsPlainText r) : SameCollected c p q records := by
  rintro s rfl
  unfold buildOutput at h
  cases hr : collectRecords ⟨c, p⟩ (some s) with
  | none => rw [hr] at h; cases h
  | some x =>
    obtain ⟨outs, e⟩ := x
    rw [hr] at h
    cases e with
    | some e =>
      simp only [Option.some.injEq] at h
      subst h
      exact absurd rfl (hc (recordDiagnostic e) (by simp))
    | none =>
      simp only [Option.some.injEq] at h
      subst h
      have ho := shown_plain outs hp
      unfold collectRecords at hr
      simp only at hr
      obtain ⟨l, hl, hx⟩ := collect_complete _ _ _ _ hr
      simp only [List.nil_append] at hx
      subst hx
      refine feature_collect s fun x hx => ?_
      rw [hl] at hx
      obtain ⟨r, hr, rfl⟩ := List.mem_map.1 hx
      exact ⟨r, rfl, ho r hr⟩

theorem answered_collected {F : Type} {parsed : MbusData F} {build : SecurityContext → Option DecodedOutput}
    {aes : AesBlock} {link : Option ManufacturerId} {output : List UInt8} {o : DecodedOutput}
    (hb : ∀ sc o, build sc = some o → o.security.payloadProtection ≠ "encrypted".toList → sc.encrypted = false)
    (hs : ∀ sc, build sc = some o → SameCollected c p q (recordsToShow parsed sc))
    (h : answered build (prepareSecurity aes parsed.userData link none output) = .ok o)
    (hc : o.security.payloadProtection ≠ "encrypted".toList) : SameCollected c p q parsed.dataRecords := by
  cases hp : prepareSecurity aes parsed.userData link none output with
  | err e => rw [hp] at h; cases h
  | panic => rw [hp] at h; cases h
  | ok sc =>
    rw [hp] at h
    unfold answered at h
    dsimp only at h
    cases hx : build sc with
    | none => rw [hx] at h; cases h
    | some o' =>
      rw [hx] at h
      cases h
      have he := hb sc o hx hc
      have hs := hs sc hx
      have hd : sc.decryptedPayload = none := by
        cases hu : parsed.userData with
        | none => rw [hu] at hp; cases hp; rfl
        | some b => rw [hu, prepareSecurity_no_key] at hp; cases hp; rfl
      simpa [recordsToShow, hd, he] using hs

theorem wired_collected {aes : AesBlock} {data : List UInt8} {enrichment : Bool} {o : DecodedOutput}
    {m : MbusData WiredFrame} (h : decodeBytes ⟨c, p⟩ aes data ⟨none, enrichment⟩ = .ok o) (ho : ClearAnswer o)
    (hw : MbusData.tryFromWired ⟨c, p⟩ data = .ok m) : SameCollected c p q m.dataRecords := by
  have hd : data ≠ [] := by rintro rfl; cases h
  rw [wired_answered hd hw] at h
  exact answered_collected (fun sc o hb hc => build_protection hb hc)
    (fun sc hb => feature_built q hb ho.complete ho.units) h ho.clear

theorem wireless_collected {aes : AesBlock} {data frame : List UInt8} {enrichment : Bool} {o : DecodedOutput}
    {m : MbusData WirelessFrame} {e : FrameError} (h : decodeBytes ⟨c, p⟩ aes data ⟨none, enrichment⟩ = .ok o)
    (ho : ClearAnswer o) (hw : MbusData.tryFromWired ⟨c, p⟩ data = .err e) (hn : Normalized data frame)
    (hm : MbusData.tryFromWireless frame = .ok m) : SameCollected c p q m.dataRecords := by
  have hd : data ≠ [] := by rintro rfl; cases h
  rw [wireless_answered hd hw hn hm] at h
  exact answered_collected (fun sc o hb hc => build_protection hb hc)
    (fun sc hb => feature_built q hb ho.complete ho.units) h ho.clear

theorem collected_records {env : Xml.XmlEnv} {records : Option DataRecords} (h : SameCollected c p q records) :
    Xml.renderRecords ⟨c, q⟩ env records = Xml.renderRecords ⟨c, p⟩ env records := by
  cases records with
  | none => rfl
  | some s => simp only [Xml.renderRecords, h s rfl]

theorem collected_rendered {records : Option DataRecords} (h : SameCollected c p q records) (text : List Char) :
    Xml.rendered ⟨c, q⟩ records text = Xml.rendered ⟨c, p⟩ records text := by
  cases records with
  | none => rfl
  | some s => simp only [Xml.rendered, Option.any_some, h s rfl]

theorem collected_nothing : SameCollected c p q none := by rintro s hs; cases hs

theorem collected_variable {env : Xml.XmlEnv} {header : LongTplHeader} {records : Option DataRecords}
    (h : SameCollected c p q records) :
    Xml.rendered ⟨c, q⟩ records (Xml.renderVariable ⟨c, q⟩ env header records) =
      Xml.rendered ⟨c, p⟩ records (Xml.renderVariable ⟨c, p⟩ env header records) := by
  rw [collected_rendered h]
  simp only [Xml.renderVariable, collected_records h]

theorem collected_wireless {env : Xml.XmlEnv} {id : ManufacturerId} {a s : Option UInt8} {r : Option UInt16}
    {records : Option DataRecords} (h : SameCollected c p q records) :
    Xml.rendered ⟨c, q⟩ records (Xml.renderWirelessVariable ⟨c, q⟩ env id a s r records) =
      Xml.rendered ⟨c, p⟩ records (Xml.renderWirelessVariable ⟨c, p⟩ env id a s r records) := by
  rw [collected_rendered h]
  simp only [Xml.renderWirelessVariable, collected_records h]

theorem feature_wired (data : List UInt8) : MbusData.tryFromWired ⟨c, q⟩ data = MbusData.tryFromWired ⟨c, p⟩ data := rfl

theorem feature_xml {env : Xml.XmlEnv} {aes : AesBlock} {data : List UInt8} {enrichment : Bool} {o : DecodedOutput}
    (h : decodeBytes ⟨c, p⟩ aes data ⟨none, enrichment⟩ = .ok o) (ho : ClearAnswer o) :
    Xml.renderFromBytes ⟨c, q⟩ env aes data none = Xml.renderFromBytes ⟨c, p⟩ env aes data none := by
  unfold Xml.renderFromBytes
  rw [feature_wired (p := p) (q := q)]
  cases hw : MbusData.tryFromWired ⟨c, p⟩ data with
  | panic => rfl
  | ok m =>
    have hs : SameCollected c p q m.dataRecords := wired_collected h ho hw
    dsimp only
    cases hu : m.userData with
    | none => rfl
    | some b =>
      cases b with
      | long ell header block => exact collected_variable hs
      | _ => rfl
  | err e =>
    dsimp only
    cases hst : stripFormatACrcs data (List.replicate 512 0) with
    | panic => rfl
    | err e => rfl
    | ok r =>
      obtain ⟨r, b⟩ := r
      dsimp only
      cases hp : MbusData.tryFromWireless (r.getD data) with
      | panic => rfl
      | err e => rfl
      | ok m =>
        have hn : Normalized data (r.getD data) := by
          refine (withoutFormatA_iff _ _).1 ?_
          unfold withoutFormatA
          rw [hst]
          cases r <;> rfl
        have hs : SameCollected c p q m.dataRecords := wireless_collected h ho hw hn hp
        dsimp only
        unfold Xml.renderWireless
        cases hu : m.userData with
        | none => rfl
        | some b =>
          cases b with
          | long ell header block =>
            simp only [Xml.renderWithOptionalDecryption, collected_variable hs]
            split
            · rfl
            · exact collected_variable collected_nothing
          | short ell header block =>
            simp only [collected_wireless hs, collected_wireless (c := c) (p := p) (q := q) collected_nothing]
          | noTpl ell block => exact collected_wireless hs
          | _ => rfl

/-- C163: the same for the XML document of a telegram in the clear, whatever key is given. -/
theorem C163_xml (c p q : Bool) (env : FrontEnv) (aes : AesBlock) (data : List UInt8) (enrichment : Bool)
    (options : RenderOptions) (o : DecodedOutput) (h : decodeBytes ⟨c, p⟩ aes data ⟨none, enrichment⟩ = .ok o)
    (ho : ClearAnswer o) :
    renderBytes ⟨c, q⟩ env aes data .xml options = renderBytes ⟨c, p⟩ env aes data .xml options := by
  have h' := C163_decode c p q aes data ⟨none, enrichment⟩ o h ho.complete ho.units
  rw [C164_xml ⟨c, q⟩ env aes data options ⟨⟨none, enrichment⟩, none⟩ ⟨enrichment, o, h', ho.clear⟩,
    C164_xml ⟨c, p⟩ env aes data options ⟨⟨none, enrichment⟩, none⟩ ⟨enrichment, o, h, ho.clear⟩]
  unfold renderBytes
  dsimp only
  rw [feature_xml h ho]

theorem feature_summary {realText : UInt32 → List Char} {s : FrameSummary} {records : Option DataRecords}
    (h : SameCollected c p q records) (u : Option UserDataBlock) (e d : Bool) :
    finalizeSummary ⟨c, q⟩ realText s records u e d = finalizeSummary ⟨c, p⟩ realText s records u e d := by
  unfold finalizeSummary
  cases records with
  | none => rfl
  | some s => simp only [recordSummaries, h s rfl]

theorem feature_parsed {F : Type} {m : MbusData F} (h : SameCollected c p q m.dataRecords) (s : FrameSummary) :
    buildParsed ⟨c, q⟩ m s = buildParsed ⟨c, p⟩ m s := by
  unfold buildParsed
  cases hr : m.dataRecords with
  | none => rfl
  | some s => simp only [DataRecords.toVec, h s hr]

theorem feature_older {realText : UInt32 → List Char} {aes : AesBlock} {data : List UInt8} {enrichment : Bool}
    {o : DecodedOutput} (h : decodeBytes ⟨c, p⟩ aes data ⟨none, enrichment⟩ = .ok o) (ho : ClearAnswer o) :
    parseFrameOutput ⟨c, q⟩ realText aes data none = parseFrameOutput ⟨c, p⟩ realText aes data none := by
  have hb := clear_blocks ⟨enrichment, o, h, ho.clear⟩
  unfold parseFrameOutput
  rw [feature_wired (p := p) (q := q)]
  cases hw : MbusData.tryFromWired ⟨c, p⟩ data with
  | panic => rfl
  | ok m =>
    have hs : SameCollected c p q m.dataRecords := wired_collected h ho hw
    simp only [legacyWired, wired_unused (clear_older (hb.wired m hw)), Res.bind_ok, summarizeWired, feature_summary hs,
      feature_parsed hs]
  | err e =>
    dsimp only
    cases hn : withoutFormatA data with
    | panic => rfl
    | err e => rfl
    | ok frame =>
      rw [Res.bind_ok, Res.bind_ok]
      have hn := (withoutFormatA_iff _ _).1 hn
      cases hp : MbusData.tryFromWireless frame with
      | panic => rfl
      | err e => rfl
      | ok m =>
        have hs : SameCollected c p q m.dataRecords := wireless_collected h ho hw hn hp
        simp only [legacyWireless, wireless_unused (clear_older (hb.wireless e _ m hw hn hp)), Res.bind_ok,
          summarizeWireless, feature_summary hs, feature_parsed hs]

/-- C163: the same for the older JSON, YAML and wide CSV. -/
theorem C163_older (c p q : Bool) (env : FrontEnv) (older : OlderEnv) (aes : AesBlock) (text format : List Char)
    (key : Option (List UInt8)) (enrichment : Bool) (o : DecodedOutput)
    (h : decodeBytes ⟨c, p⟩ aes (cleanAndConvert text) ⟨none, enrichment⟩ = .ok o) (ho : ClearAnswer o)
    (hf : format ∈ ["json-legacy".toList, "yaml-legacy".toList, "csv-wide".toList]) :
    serializeMbusData ⟨c, q⟩ env older aes text format key = serializeMbusData ⟨c, p⟩ env older aes text format key := by
  have h' := C163_decode c p q aes _ ⟨none, enrichment⟩ o h ho.complete ho.units
  have e1 := older_unused (realText := env.text.realDisplay) (aes := aes)
    (clear_blocks ⟨enrichment, o, h, ho.clear⟩) key
  have e2 := older_unused (realText := env.text.realDisplay) (aes := aes)
    (clear_blocks ⟨enrichment, o, h', ho.clear⟩) key
  have e : parseFrameOutput ⟨c, q⟩ env.text.realDisplay aes (cleanAndConvert text) key =
      parseFrameOutput ⟨c, p⟩ env.text.realDisplay aes (cleanAndConvert text) key := by
    rw [e1, e2, feature_older h ho]
  have ed : ∀ x, olderDocument ⟨c, q⟩ older.literal (cleanAndConvert text) x =
      olderDocument ⟨c, p⟩ older.literal (cleanAndConvert text) x := fun x => by
    simp only [olderDocument, olderFrame, feature_wired (c := c) (p := p) (q := q)]
  simp only [List.mem_cons, List.not_mem_nil, or_false] at hf
  rcases hf with rfl | rfl | rfl <;>
    simp (decide := true) only [serializeMbusData, ↓reduceIte, parseToJson, parseToYaml, wideCsv, parseToCsv, e, ed]

theorem volume_answer (c p : Bool) (aes : AesBlock) :
    ∃ o, decodeBytes ⟨c, p⟩ aes clearVolume ⟨none, true⟩ = .ok o ∧ o.records.length = 1 ∧ ClearAnswer o := by
  have key : (match decodeBytes ⟨c, p⟩ (fun _ b => b) clearVolume ⟨none, true⟩ with
    | .ok o => decide (o.security.payloadProtection = "cleartext".toList ∧
        o.records.map (·.headerHex) = [hexSpaced [0x0C, 0x13]] ∧ o.diagnostics = [])
    | _ => false) = true := by cases c <;> cases p <;> decide +kernel
  split at key
  · rename_i o ho
    obtain ⟨h1, h2, h3⟩ := of_decide_eq_true key
    refine ⟨o, by rw [decode_any_aes _ aes (fun _ b => b)]; exact ho, by simpa using congrArg List.length h2,
      by rw [h1]; decide, by simp [h3], ?_⟩
    rintro r hr ⟨header, ht, dif, difes, vif, rest, he, -, hd, hv⟩
    have : r.headerHex ∈ o.records.map (·.headerHex) := List.mem_map.2 ⟨r, hr, rfl⟩
    rw [h2, List.mem_singleton] at this
    rw [this] at ht
    have e := tokens_unique _ _ (Nat.le_refl _) _ _ ht (hexSpaced_tokens [0x0C, 0x13])
    rw [e] at he
    cases difes with
    | nil =>
      simp only [List.nil_append, List.cons.injEq] at he
      rw [← he.2.1] at hv
      revert hv; decide
    | cons x difes =>
      have := congrArg List.length he
      simp at this
  · cases key

/-- The hypotheses are met: a telegram with a volume, in XML and in the wide CSV. -/
example (c : Bool) (env : FrontEnv) (older : OlderEnv) (aes : AesBlock) (options : RenderOptions)
    (key : Option (List UInt8)) :
    renderBytes ⟨c, true⟩ env aes clearVolume .xml options = renderBytes ⟨c, false⟩ env aes clearVolume .xml options ∧
      serializeMbusData ⟨c, true⟩ env older aes (hexString clearVolume) "csv-wide".toList key =
        serializeMbusData ⟨c, false⟩ env older aes (hexString clearVolume) "csv-wide".toList key := by
  obtain ⟨o, h, -, ho⟩ := volume_answer c false aes
  have hc : cleanAndConvert (hexString clearVolume) = clearVolume := by decide +kernel
  exact ⟨C163_xml c false true env aes _ true options o h ho,
    C163_older c false true env older aes _ _ key true o (by rw [hc]; exact h) ho (by simp)⟩

end MBus
