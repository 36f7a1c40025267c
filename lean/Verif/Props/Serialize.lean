import Verif.Props.Formats
import Verif.Props.AnnotatedJson
import Verif.Props.Legacy
import Verif.Model.Serialize
import Verif.Spec.Serialize
/-!
# C119: `serialize_mbus_data`, and C120: the older annotated outputs
-/
namespace MBus
open MBus.Spec MBus.Xml

/-! ## The first character of every output -/

theorem not_error {text : List Char} (h : text.head? ≠ some 'E') : ¬ AnnouncesError text := by
  rintro ⟨rest, rfl⟩
  exact h rfl

theorem xml_pi : processingInstruction = '<' :: processingInstruction.tail := by decide +kernel

theorem head_variable (cfg : Cfg) (env : XmlEnv) (header : LongTplHeader) (records : Option DataRecords) :
    (renderVariable cfg env header records).head? = some '<' := by
  unfold renderVariable
  rw [xml_pi]
  rfl

theorem head_wireless (cfg : Cfg) (env : XmlEnv) (id : ManufacturerId) (a s : Option UInt8) (g : Option UInt16)
    (records : Option DataRecords) :
    (renderWirelessVariable cfg env id a s g records).head? = some '<' := by
  unfold renderWirelessVariable
  rw [xml_pi]
  rfl

theorem head_fixed (id : Nat) (a s : UInt8) (d : UInt16) (c1 c2 : Nat) :
    (renderFixed id a s d c1 c2).head? = some '<' := by
  unfold renderFixed
  rw [xml_pi]
  rfl

theorem head_rendered {cfg : Cfg} {records : Option DataRecords} {text out : List Char}
    (ht : text.head? = some '<') (h : rendered cfg records text = .ok out) : out.head? = some '<' := by
  unfold rendered at h
  split at h
  · cases h
  · cases h; exact ht

theorem head_decrypted {aes : AesBlock} {blk : UserDataBlock} {id : Option ManufacturerId} {key : List UInt8}
    {render : List UInt8 → Res XmlError (List Char)} {out : List Char}
    (ht : ∀ d out, render d = .ok out → out.head? = some '<')
    (h : withDecrypted aes blk id key render = .ok out) : out.head? = some '<' := by
  unfold withDecrypted at h
  split at h
  · split at h
    · exact ht _ _ h
    · cases h
  · cases h
  · cases h

theorem head_optional {cfg : Cfg} {env : XmlEnv} {aes : AesBlock} {header : LongTplHeader} {blk : UserDataBlock}
    {records : Option DataRecords} {id : Option ManufacturerId} {key : Option (List UInt8)} {out : List Char}
    (h : renderWithOptionalDecryption cfg env aes header blk records id key = .ok out) :
    out.head? = some '<' := by
  unfold renderWithOptionalDecryption at h
  simp only at h
  split at h
  · exact head_rendered (head_variable ..) h
  · split at h
    · exact head_rendered (head_variable ..) h
    · exact head_decrypted (fun d out h => head_rendered (head_variable ..) h) h

theorem xml_head (cfg : Cfg) (env : XmlEnv) (aes : AesBlock) (data : List UInt8) (key : Option (List UInt8))
    (out : List Char) (h : renderFromBytes cfg env aes data key = .ok out) : out.head? = some '<' := by
  unfold renderFromBytes at h
  split at h
  · cases h
  · split at h
    · split at h
      · exact head_rendered (head_variable ..) h
      · exact head_optional h
    · cases h; exact head_fixed ..
    · cases h
  · split at h
    · cases h
    · cases h
    · split at h
      · cases h
      · cases h
      · unfold renderWireless at h
        simp only at h
        split at h
        · exact head_optional h
        · split at h
          · exact head_rendered (head_wireless ..) h
          · split at h
            · exact head_rendered (head_wireless ..) h
            · exact head_decrypted (fun d out h => head_rendered (head_wireless ..) h) h
        · exact head_rendered (head_wireless ..) h
        · cases h; exact head_fixed ..
        · cases h; exact head_wireless ..

theorem head_obj (p : Bool) (n : Nat) (ms : List (List Char × Doc)) :
    ((Doc.obj ms).text p n).head? = some '{' := by
  cases ms <;> rfl

theorem head_arr (p : Bool) (n : Nat) (xs : List Doc) : ((Doc.arr xs).text p n).head? = some '[' := by
  cases xs <;> rfl

theorem protocol_of {cfg : Cfg} {aes : AesBlock} {data : List UInt8} {options : DecodeOptions} {o : DecodedOutput}
    (h : decodeBytes cfg aes data options = .ok o) : o.protocol.head? = some 'w' := by
  have hd := decoding cfg aes data options
  generalize decodeBytes cfg aes data options = r at hd h
  cases hd with
  | empty => cases h
  | crash => cases h
  | neither => cases h
  | wired g m =>
    obtain ⟨_, _, _, _, _, hp, _⟩ := finish_ok _ _ _ _ _ _ _ _ _ _ _ _ h
    rw [hp]; decide +kernel
  | wireless f m frame =>
    obtain ⟨_, _, _, _, _, hp, _⟩ := finish_ok _ _ _ _ _ _ _ _ _ _ _ _ h
    rw [hp]; decide +kernel

theorem wrap_head (env : TextEnv) (width : Nat) (c : Char) (cs line : List Char) (n : Nat) :
    ∃ l ls, wrapChars env width cs (c :: line) n = (c :: l) :: ls := by
  induction cs generalizing line n with
  | nil => exact ⟨_, _, rfl⟩
  | cons x cs ih =>
    unfold wrapChars
    simp only
    split
    · exact ⟨_, _, rfl⟩
    · rw [List.cons_append]; exact ih _ _

theorem split_head (c : Char) (cs : List Char) (hc : c ≠ '\n') :
    ∃ l ls, splitLines (c :: cs) = (c :: l) :: ls := by
  unfold splitLines
  rw [if_neg hc]
  split
  · exact ⟨_, _, rfl⟩
  · exact ⟨_, _, rfl⟩

theorem table_head {env : TextEnv} {o : DecodedOutput} {width : Nat} {out : List Char}
    (hp : o.protocol.head? = some 'w') (h : renderTable env o width = some out) : out.head? = some 'w' := by
  unfold renderTable tableLines at h
  split at h
  · cases h
  rename_i hw
  simp only [Option.map_some, Option.some.injEq] at h
  subst h
  obtain ⟨p, hp⟩ : ∃ p, o.protocol = 'w' :: p := by
    cases hq : o.protocol with
    | nil => rw [hq] at hp; cases hp
    | cons a p => rw [hq] at hp; cases hp; exact ⟨p, rfl⟩
  rw [hp]
  simp only [List.cons_append]
  unfold wrapDisplay
  rw [if_neg (by omega)]
  obtain ⟨l, ls, e⟩ := split_head 'w' (p ++ ([' '] ++ (o.frame.kind ++ (" frame · ".toList ++ (o.decodeState
      ++ " decode".toList))))) (by decide)
  simp only [← List.append_assoc] at e
  simp only [List.append_assoc, List.nil_append, List.cons_append] at e ⊢
  rw [e]
  simp only [List.flatMap_cons]
  rw [if_neg (by simp)]
  unfold wrapChars
  simp only [ne_eq, not_true_eq_false, false_and, ite_false, List.nil_append]
  obtain ⟨l', ls', e'⟩ := wrap_head env width 'w' l [] (0 + (env.charWidth 'w').getD 0)
  rw [e']
  rfl

theorem record_head (c : Char) (f : List Char) (fs : List (List Char)) (hq : csvNeedsQuotes (c :: f) = false) :
    (csvRecord ((c :: f) :: fs)).head? = some c := by
  unfold csvRecord
  simp only [List.map_cons]
  have : csvField (c :: f) = c :: f := by unfold csvField; rw [hq]; rfl
  rw [this]
  cases fs <;> rfl

theorem write_head {c : Char} {f : List Char} {fs : List (List Char)} {rows : List (List (List Char))}
    {out : List Char} (hq : csvNeedsQuotes (c :: f) = false) (h : csvWrite (((c :: f) :: fs) :: rows) = some out) :
    out.head? = some c := by
  simp only [csvWrite] at h
  split at h
  · cases h
    rw [List.flatMap_cons, List.head?_append, record_head c f fs hq]
    rfl
  · cases h

theorem csv_head {env : TextEnv} {o : DecodedOutput} {out : List Char} (h : renderCsv env o = some out) :
    out.head? = some 's' := by
  have e : csvRows env o = ("schema_version".toList :: (csvHeaders o).tail, (csvRows env o).2) := rfl
  unfold renderCsv at h
  rw [e] at h
  exact write_head (f := "chema_version".toList) (by decide +kernel) h

theorem annotated_text_head {cfg : Cfg} {dt : Data → List Char} {data : List UInt8} {out : List Char}
    (h : annotateAndRender cfg dt data = .ok out) : out.head? = some 'H' := by
  unfold annotateAndRender at h
  obtain ⟨segs, -, h⟩ := Res.bind_eq_ok.1 h
  unfold renderAnnotations annotationLines at h
  cases hl : segmentLines cfg data none none segs with
  | ok ls => rw [hl] at h; cases h; rfl
  | err e => rw [hl] at h; cases h
  | panic => rw [hl] at h; cases h

theorem mermaid_head (env : TextEnv) (o : DecodedOutput) : (renderMermaid env o).head? = some 'f' := by
  have h : ∃ ls, mermaidLines env o = "flowchart TD".toList :: ls := by
    simp only [mermaidLines, List.append_assoc, List.cons_append, List.nil_append]
    exact ⟨_, rfl⟩
  obtain ⟨ls, h⟩ := h
  unfold renderMermaid unlines
  rw [h, List.flatMap_cons, List.append_assoc, List.head?_append]
  have : "flowchart TD".toList.head? = some 'f' := by decide +kernel
  rw [this]
  rfl

/-- No text of a format announces an error, given that those of the YAML library do not. -/
theorem rendered_not_error {cfg : Cfg} {env : FrontEnv} {aes : AesBlock} {input : List Char} {format : OutputFormat}
    {options : RenderOptions} {text : List Char} (hy : ∀ o t, env.yaml o = some t → ¬ AnnouncesError t)
    (h : renderHex cfg env aes input format options = .ok text) : ¬ AnnouncesError text := by
  unfold renderHex at h
  obtain ⟨bytes, -, h⟩ := Res.bind_eq_ok.1 h
  have decoded : ∀ f, f ≠ .xml → f ≠ .annotated → f ≠ .annotatedText →
      ((decodeBytes cfg aes bytes options.decode).mapErr OutputError.failure >>=
        renderDecoded env f options.tableWidth) = .ok text → ¬ AnnouncesError text := by
    intro f h1 h2 h3 h
    obtain ⟨o, ho, h⟩ := Res.bind_eq_ok.1 h
    have hp : o.protocol.head? = some 'w' := by
      cases hd : decodeBytes cfg aes bytes options.decode with
      | ok o' => rw [hd] at ho; cases ho; exact protocol_of hd
      | err e => rw [hd] at ho; cases ho
      | panic => rw [hd] at ho; cases ho
    cases f with
    | json =>
      cases h
      exact not_error (by unfold renderJson DecodedOutput.doc; rw [head_obj]; decide)
    | yaml =>
      simp only [renderDecoded] at h
      split at h
      · rename_i t ht; cases h; exact hy o _ ht
      · cases h
    | csv =>
      simp only [renderDecoded] at h
      split at h
      · rename_i t ht; cases h; exact not_error (by rw [csv_head ht]; decide)
      · cases h
    | table =>
      simp only [renderDecoded] at h
      split at h
      · rename_i t ht; cases h; exact not_error (by rw [table_head hp ht]; decide)
      · cases h
    | mermaid =>
      simp only [renderDecoded, Res.ok.injEq] at h
      subst h
      exact not_error (by rw [mermaid_head]; decide)
    | xml => exact absurd rfl h1
    | annotated => exact absurd rfl h2
    | annotatedText => exact absurd rfl h3
  cases format with
  | xml =>
    simp only [renderBytes] at h
    cases hx : renderFromBytes cfg env.xml aes bytes options.decode.key with
    | ok t => rw [hx] at h; cases h; exact not_error (by rw [xml_head _ _ _ _ _ _ hx]; decide)
    | err e => rw [hx] at h; cases h
    | panic => rw [hx] at h; cases h
  | annotated =>
    simp only [renderBytes] at h
    obtain ⟨v, -, h⟩ := Res.bind_eq_ok.1 h
    cases h
    exact not_error (by unfold AnnotatedView.text AnnotatedView.doc; rw [head_obj]; decide)
  | annotatedText =>
    simp only [renderBytes] at h
    cases hx : annotateAndRender cfg env.dataText bytes with
    | ok t => rw [hx] at h; cases h; exact not_error (by rw [annotated_text_head hx]; decide)
    | err e => rw [hx] at h; cases h
    | panic => rw [hx] at h; cases h
  | json => exact decoded .json (by decide) (by decide) (by decide) h
  | yaml => exact decoded .yaml (by decide) (by decide) (by decide) h
  | csv => exact decoded .csv (by decide) (by decide) (by decide) h
  | table => exact decoded .table (by decide) (by decide) (by decide) h
  | mermaid => exact decoded .mermaid (by decide) (by decide) (by decide) h

/-! ## C119 -/

theorem structured_of {cfg : Cfg} {env : FrontEnv} {older : OlderEnv} {aes : AesBlock} {data name : List Char}
    {key : Option (List UInt8)} (hn : name ∉ olderNames) :
    serializeMbusData cfg env older aes data name key = serializeStructured cfg env older aes data name key := by
  simp only [olderNames, List.mem_cons, List.not_mem_nil, or_false, not_or] at hn
  obtain ⟨h1, h2, h3, h4, h5⟩ := hn
  unfold serializeMbusData
  rw [if_neg h1, if_neg h2, if_neg h3, if_neg h4, if_neg h5]

/-- C119: for every name but those of the older formats, `serialize_mbus_data` returns the text of the rendering
with the key, the manufacturer's data and 100 columns, or else the code and the message of its error; a name that
is none is such an error; it crashes exactly if the rendering does. -/
theorem C119_text (cfg : Cfg) (env : FrontEnv) (older : OlderEnv) (aes : AesBlock) (data name : List Char)
    (key : Option (List UInt8)) (hn : name ∉ olderNames) :
    (∀ f, OutputFormat.fromStr name = some f →
      (∀ text, renderHex cfg env aes data f ⟨⟨key, true⟩, some 100⟩ = .ok text →
        serializeMbusData cfg env older aes data name key = .ok text) ∧
      (∀ e, renderHex cfg env aes data f ⟨⟨key, true⟩, some 100⟩ = .err e →
        serializeMbusData cfg env older aes data name key =
          .ok ("Error [".toList ++ e.code ++ "]: ".toList ++ older.message e)) ∧
      (serializeMbusData cfg env older aes data name key = .panic ↔
        renderHex cfg env aes data f ⟨⟨key, true⟩, some 100⟩ = .panic)) ∧
    (OutputFormat.fromStr name = none →
      serializeMbusData cfg env older aes data name key =
        .ok ("Error [".toList ++ "format.unsupported".toList ++ "]: ".toList
          ++ older.message (.unsupportedFormat name))) := by
  rw [structured_of hn]
  unfold serializeStructured formatNamed
  refine ⟨fun f hf => ?_, fun h => ?_⟩
  · rw [hf]
    simp only
    cases renderHex cfg env aes data f ⟨⟨key, true⟩, some 100⟩ with
    | ok t => exact ⟨fun _ h => by cases h; rfl, fun _ h => (by cases h), ⟨fun h => (by cases h), fun h => (by cases h)⟩⟩
    | err e => exact ⟨fun _ h => (by cases h), fun _ h => by cases h; rfl, ⟨fun h => (by cases h), fun h => (by cases h)⟩⟩
    | panic => exact ⟨fun _ h => (by cases h), fun _ h => (by cases h), ⟨fun _ => rfl, fun _ => rfl⟩⟩
  · rw [h]; rfl

example : "JSON ".toList ∉ olderNames ∧ OutputFormat.fromStr "JSON ".toList = some .json ∧
    "CSV-wide".toList ∉ olderNames ∧ OutputFormat.fromStr "CSV-wide".toList = none := by decide +kernel

/-- C119: so a caller can tell a rendering from an error by how the text begins: exactly the texts that begin with
`Error [` are errors. -/
theorem C119_announced (cfg : Cfg) (env : FrontEnv) (older : OlderEnv) (aes : AesBlock) (data name : List Char)
    (key : Option (List UInt8)) (hn : name ∉ olderNames)
    (hy : ∀ o t, env.yaml o = some t → ¬ AnnouncesError t) (text : List Char)
    (h : serializeMbusData cfg env older aes data name key = .ok text) :
    AnnouncesError text ↔ OutputFormat.fromStr name = none ∨
      ∃ f e, OutputFormat.fromStr name = some f ∧
        renderHex cfg env aes data f ⟨⟨key, true⟩, some 100⟩ = .err e := by
  obtain ⟨h1, h2⟩ := C119_text cfg env older aes data name key hn
  cases hf : OutputFormat.fromStr name with
  | none =>
    rw [h2 hf] at h
    cases h
    exact ⟨fun _ => .inl rfl, fun _ => ⟨_, by simp only [List.append_assoc]; rfl⟩⟩
  | some f =>
    obtain ⟨h3, h4, h5⟩ := h1 f hf
    cases hr : renderHex cfg env aes data f ⟨⟨key, true⟩, some 100⟩ with
    | ok t =>
      rw [h3 t hr] at h
      cases h
      constructor
      · intro ha; exact absurd ha (rendered_not_error hy hr)
      · rintro (h | ⟨f', e, hf', h⟩)
        · cases h
        · cases hf'; rw [hr] at h; cases h
    | err e =>
      rw [h4 e hr] at h
      cases h
      exact ⟨fun _ => .inr ⟨f, e, rfl, hr⟩, fun _ => ⟨_, by simp only [List.append_assoc]; rfl⟩⟩
    | panic => rw [h5.2 hr] at h; cases h

/-- Both happen: the single character has a diagram, and half a byte has none. -/
example (env : FrontEnv) (aes : AesBlock) : "mermaid".toList ∉ olderNames ∧
    (∃ text, renderHex cfgRelease env aes "E5".toList .mermaid ⟨⟨none, true⟩, some 100⟩ = .ok text) ∧
    ∃ e, renderHex cfgRelease env aes "E".toList .mermaid ⟨⟨none, true⟩, some 100⟩ = .err e := by
  refine ⟨by decide +kernel, ⟨_, by with_unfolding_all rfl⟩, ⟨_, by with_unfolding_all rfl⟩⟩

/-! ## The older formats -/

theorem older_json (cfg : Cfg) (env : FrontEnv) (older : OlderEnv) (aes : AesBlock) (data : List Char)
    (key : Option (List UInt8)) :
    serializeMbusData cfg env older aes data "json-legacy".toList key = parseToJson cfg env older aes data key := by
  unfold serializeMbusData; rw [if_pos rfl]

theorem older_yaml (cfg : Cfg) (env : FrontEnv) (older : OlderEnv) (aes : AesBlock) (data : List Char)
    (key : Option (List UInt8)) :
    serializeMbusData cfg env older aes data "yaml-legacy".toList key = parseToYaml cfg env older aes data key := by
  unfold serializeMbusData; rw [if_neg (by decide +kernel), if_pos rfl]

theorem older_csv (cfg : Cfg) (env : FrontEnv) (older : OlderEnv) (aes : AesBlock) (data : List Char)
    (key : Option (List UInt8)) :
    serializeMbusData cfg env older aes data "csv-wide".toList key =
      match wideCsv cfg env.text.realDisplay aes data key with
      | .ok text => .ok (text.getD [])
      | .err e => .err e
      | .panic => .panic := by
  unfold serializeMbusData; rw [if_neg (by decide +kernel), if_neg (by decide +kernel), if_pos rfl]
  rfl

theorem older_annotated (cfg : Cfg) (env : FrontEnv) (older : OlderEnv) (aes : AesBlock) (data : List Char)
    (key : Option (List UInt8)) :
    serializeMbusData cfg env older aes data "annotated-legacy".toList key =
      annotatedSegmentsToJson cfg env.dataText (cleanAndConvert data) := by
  unfold serializeMbusData
  rw [if_neg (by decide +kernel), if_neg (by decide +kernel), if_neg (by decide +kernel), if_pos rfl]
  rfl

theorem older_hexview (cfg : Cfg) (env : FrontEnv) (older : OlderEnv) (aes : AesBlock) (data : List Char)
    (key : Option (List UInt8)) :
    serializeMbusData cfg env older aes data "hexview-legacy".toList key =
      parseToHexview cfg env.dataText aes data key := by
  unfold serializeMbusData
  rw [if_neg (by decide +kernel), if_neg (by decide +kernel), if_neg (by decide +kernel), if_neg (by decide +kernel),
    if_pos rfl]

/-- C119: the older formats have texts of their own for what is not a telegram. -/
theorem C119_older (cfg : Cfg) (env : FrontEnv) (older : OlderEnv) (aes : AesBlock) (data : List Char)
    (key : Option (List UInt8)) (hp : WiredFrame.tryFrom cfg (cleanAndConvert data) ≠ .panic)
    (hw : ∀ g, ¬ WiredTelegram (cleanAndConvert data) g)
    (hl : ∀ frame f, Normalized (cleanAndConvert data) frame → ¬ WirelessTelegram frame f) :
    serializeMbusData cfg env older aes data "json-legacy".toList key = .ok "{}".toList ∧
    serializeMbusData cfg env older aes data "yaml-legacy".toList key =
      .ok "---\nerror: Could not parse data\n".toList ∧
    serializeMbusData cfg env older aes data "csv-wide".toList key =
      .ok "Error\nError parsing data as wired or wireless M-Bus\n".toList := by
  have h := (C106_refused cfg env.text.realDisplay aes (cleanAndConvert data) key hp).2 ⟨hw, hl⟩
  refine ⟨?_, ?_, ?_⟩
  · rw [older_json]; unfold parseToJson; rw [h]
  · rw [older_yaml]; unfold parseToYaml; rw [h]
  · rw [older_csv]; unfold wideCsv parseToCsv; rw [h]
    exact congrArg Res.ok (by decide +kernel)

example : WiredFrame.tryFrom cfgRelease (cleanAndConvert "FF".toList) ≠ .panic ∧
    (∀ g, ¬ WiredTelegram (cleanAndConvert "FF".toList) g) ∧
    ∀ frame f, Normalized (cleanAndConvert "FF".toList) frame → ¬ WirelessTelegram frame f := by
  have e : cleanAndConvert "FF".toList = [0xFF] := by decide +kernel
  rw [e]
  have h : parseFrameOutput cfgRelease (fun _ => []) (fun _ b => b) [0xFF] none = .err () := by
    with_unfolding_all rfl
  have hp : WiredFrame.tryFrom cfgRelease [0xFF] ≠ .panic := by decide +kernel
  exact ⟨hp, (C106_refused cfgRelease _ _ [0xFF] none hp).1 h⟩

/-- C119 fails for the older formats: none of their texts begins with `Error [`, whatever the input, so that an
input that is not a telegram is not announced as an error. -/
theorem C119_older_fails (cfg : Cfg) (env : FrontEnv) (older : OlderEnv) (aes : AesBlock) (data name : List Char)
    (key : Option (List UInt8)) (hn : name ∈ olderNames)
    (hy : ∀ bytes o, ¬ AnnouncesError (older.yaml bytes o))
    (text : List Char) (h : serializeMbusData cfg env older aes data name key = .ok text) :
    ¬ AnnouncesError text := by
  have segs : ∀ bytes text, annotatedSegmentsToJson cfg env.dataText bytes = .ok text → ¬ AnnouncesError text := by
    intro bytes text h
    unfold annotatedSegmentsToJson at h
    split at h
    · cases h; exact not_error (by rw [head_arr]; decide)
    · cases h; exact not_error (by decide +kernel)
    · cases h
  simp only [olderNames, List.mem_cons, List.not_mem_nil, or_false] at hn
  rcases hn with rfl | rfl | rfl | rfl | rfl
  · rw [older_json] at h
    unfold parseToJson at h
    split at h
    · cases h; exact not_error (by unfold olderDocument valueObj; rw [head_obj]; decide)
    · cases h; exact not_error (by decide +kernel)
    · cases h
  · rw [older_yaml] at h
    unfold parseToYaml at h
    split at h
    · cases h; exact hy _ _
    · cases h; exact not_error (by decide +kernel)
    · cases h
  · rw [older_csv] at h
    unfold wideCsv parseToCsv at h
    cases hp : parseFrameOutput cfg env.text.realDisplay aes (cleanAndConvert data) key with
    | panic => rw [hp] at h; cases h
    | err e =>
      rw [hp] at h
      have h1 : csvWrite [["Error".toList], ["Error parsing data as wired or wireless M-Bus".toList]] =
        some "Error\nError parsing data as wired or wireless M-Bus\n".toList := by decide +kernel
      simp only [h1, Option.getD_some, Res.ok.injEq] at h
      rintro ⟨rest, e⟩
      rw [e] at h
      have := congrArg (List.take 7) h
      revert this
      have h3 : List.take 7 ("Error [".toList ++ rest) = "Error [".toList := by
        rw [List.take_append_of_le_length (by decide +kernel)]; decide +kernel
      rw [h3]
      decide +kernel
    | ok p =>
      rw [hp] at h
      simp only at h
      cases hc : csvWrite [wideHeaders p.summary, wideRow p.summary] with
      | none => rw [hc] at h; cases h; exact not_error (by decide)
      | some t =>
        rw [hc] at h
        cases h
        have e : wideHeaders p.summary = "FrameType".toList :: (wideHeaders p.summary).tail := rfl
        rw [e] at hc
        exact not_error (by rw [Option.getD_some, write_head (c := 'F') (f := "rameType".toList) (by decide +kernel) hc]; decide)
  · rw [older_annotated] at h
    exact segs _ _ h
  · rw [older_hexview] at h
    unfold parseToHexview at h
    simp only at h
    split at h
    · exact segs _ _ h
    · split at h
      · unfold olderDecrypted at h
        split at h
        · obtain ⟨ss, -, h⟩ := Res.bind_eq_ok.1 h
          cases h
          exact not_error (by unfold hexviewDoc; rw [head_obj]; decide)
        · cases h; exact not_error (by decide +kernel)
        · cases h
      · exact segs _ _ h
      · cases h

/-! ## C120 -/

theorem older_segment_shown (s : ByteSegment) : ∀ f ∈ segmentFields s, follow f.1 s.olderDoc = f.2 := by
  obtain ⟨a, b, k, d, g, l⟩ := s
  simp only [segmentFields, List.forall_mem_cons, ByteSegment.olderDoc, follow_key, member_append, member_field,
    follow_nil, doc_nat]
  cases g <;> simp

theorem older_sound_segment (s : ByteSegment) : Sound s.olderDoc := by
  have hg : Sound (match s.group with | some g => Doc.nat g | none => .null) := by
    cases s.group with
    | none => exact .null
    | some g => exact sound_nat g
  exact sm_obj (sm_append (sm_append (sm_append (sm_append (sm_append (sm_field (sound_nat _)) (sm_field (sound_nat _)))
    (sm_field (.str _))) (sm_field (.str _))) (sm_field hg)) (sm_field (.str _))) (by decide +kernel)

theorem older_list_shown (segs : List ByteSegment) : ShowsList segs (.arr (segs.map ByteSegment.olderDoc)) := by
  refine ⟨fun i hi f hf => ?_, fun i hi => ?_⟩
  · rw [follow_at, List.getElem?_map, List.getElem?_eq_getElem hi]
    exact older_segment_shown _ f hf
  · rw [follow_at, List.getElem?_map, List.getElem?_eq_none hi]; rfl

theorem sound_pretty {d : Doc} (h : Sound d) : JsonText (d.text true 0) d :=
  ⟨[], _, [], by simp, blank_nil, text_reads h true 0, blank_nil⟩

/-- The text of the error is an object with the message. -/
theorem older_error_json :
    JsonText olderError (.obj [("error".toList, .str "Invalid start byte".toList)]) := by
  have h1 : StringText "error".toList "error".toList := by
    have := string_reads "error".toList
    rwa [show "error".toList.flatMap jsonEscape = "error".toList by decide +kernel] at this
  have h2 : StringText "Invalid start byte".toList "Invalid start byte".toList := by
    have := string_reads "Invalid start byte".toList
    rwa [show "Invalid start byte".toList.flatMap jsonEscape = "Invalid start byte".toList by decide +kernel] at this
  have hb : JsonBlank [' '] := by intro c hc; simp at hc; subst hc; decide
  have := ValueText.members (MembersText.last blank_nil h1 blank_nil hb (.str h2) blank_nil)
  exact ⟨[], _, [], by decide +kernel, blank_nil, this, blank_nil⟩

/-- C120: the text of `annotated-legacy` is JSON, and whoever reads it finds the fields of every segment of the
telegram and no more segments; for an input that cannot be annotated it is an object with the message. -/
theorem C120_annotated (cfg : Cfg) (env : FrontEnv) (older : OlderEnv) (aes : AesBlock) (data : List Char)
    (key : Option (List UInt8)) :
    (∀ segs, annotateFrame cfg env.dataText (cleanAndConvert data) = .ok segs →
      ∃ text, serializeMbusData cfg env older aes data "annotated-legacy".toList key = .ok text ∧
        (∃ d, JsonText text d) ∧ ∀ d, JsonText text d → UniqueNames d ∧ ShowsList segs d) ∧
    (∀ e, annotateFrame cfg env.dataText (cleanAndConvert data) = .err e →
      ∃ text, serializeMbusData cfg env older aes data "annotated-legacy".toList key = .ok text ∧
        ∀ d, JsonText text d ↔ d = .obj [("error".toList, .str "Invalid start byte".toList)]) ∧
    (serializeMbusData cfg env older aes data "annotated-legacy".toList key = .panic ↔
      annotateFrame cfg env.dataText (cleanAndConvert data) = .panic) := by
  rw [older_annotated]
  unfold annotatedSegmentsToJson
  refine ⟨fun segs h => ?_, fun e h => ?_, ?_⟩
  · rw [h]
    have hs : Sound (.arr (segs.map ByteSegment.olderDoc)) := sound_array fun s _ => older_sound_segment s
    refine ⟨_, rfl, ⟨_, sound_pretty hs⟩, fun d hd => ?_⟩
    rw [json_eq hd (sound_pretty hs)]
    exact ⟨hs.unique, older_list_shown segs⟩
  · rw [h]
    exact ⟨_, rfl, fun d => ⟨fun hd => json_eq hd older_error_json, fun hd => hd ▸ older_error_json⟩⟩
  · cases annotateFrame cfg env.dataText (cleanAndConvert data) <;> simp

example (dt : Data → List Char) :
    (∃ segs, annotateFrame cfgRelease dt (cleanAndConvert "10 40 01 41 16".toList) = .ok segs ∧ segs.length = 5) ∧
    annotateFrame cfgRelease dt (cleanAndConvert "01 02".toList) = .err .invalidStartByte := by
  have e : cleanAndConvert "10 40 01 41 16".toList = [0x10, 0x40, 0x01, 0x41, 0x16] := by decide +kernel
  have e' : cleanAndConvert "01 02".toList = [0x01, 0x02] := by decide +kernel
  rw [e, e']
  exact ⟨⟨_, by with_unfolding_all rfl, by with_unfolding_all rfl⟩, by with_unfolding_all rfl⟩

/-- What cannot be annotated is not decrypted. -/
theorem refused_not_decrypted {cfg : Cfg} {dt : Data → List Char} {data : List UInt8} {e : FrameError}
    (h : annotateFrame cfg dt data = .err e) (aes : AesBlock) (key : List UInt8) :
    ∃ e', decryptedHexview cfg aes key data = .err e' := by
  obtain ⟨-, ⟨e1, h1⟩, ⟨e2, h2⟩, h3⟩ := (C98_rejects_iff cfg dt data e).1 h
  have hw : decryptedWired cfg aes key data = .err () := by
    unfold decryptedWired
    rw [((C37_frame_delivered_wired cfg data).1 e1).2 h1]
    rfl
  have hs : ∀ frame e', WirelessFrame.tryFrom frame = .err e' → withoutFormatA data = .ok frame →
      decryptedWireless aes key data = .err () := by
    intro frame e' hf hn
    unfold decryptedWireless
    rw [hn, Res.bind_ok, ((C37_wireless frame).1 e').2 hf]
    rfl
  refine ⟨(), ?_⟩
  unfold decryptedHexview
  rw [hw]
  simp only
  obtain ⟨frame, hf⟩ := normalized_exists data
  obtain ⟨r, b, hr, he⟩ := normalized_strip data frame hf
  cases r with
  | none => exact hs data e2 h2 (by unfold withoutFormatA; rw [hr])
  | some frame' =>
    obtain ⟨e4, h4⟩ := h3 _ _ hr
    exact hs frame' e4 h4 (by unfold withoutFormatA; rw [hr])

theorem hexview_sound (bytes : List UInt8) (segs : List ByteSegment) : Sound (hexviewDoc bytes segs) :=
  sm_obj (sm_append (sm_append (sm_field (sound_bytes _)) (sm_field (.bool _)))
    (sm_field (sound_array fun s _ => sound_segment s))) (by decide +kernel)

theorem hexview_shown (bytes : List UInt8) (segs : List ByteSegment) :
    follow [.key "decrypted"] (hexviewDoc bytes segs) = some (.bool true) ∧
      ShowsSegments [] bytes segs (hexviewDoc bytes segs) := by
  have top : ∀ p, follow (.key "bytes" :: p) (hexviewDoc bytes segs) = follow p (bytesDoc bytes) ∧
      follow (.key "segments" :: p) (hexviewDoc bytes segs) = follow p (.arr (segs.map ByteSegment.doc)) ∧
      follow (.key "decrypted" :: p) (hexviewDoc bytes segs) = follow p (.bool true) := by
    intro p; unfold hexviewDoc; look
  refine ⟨by rw [(top _).2.2, follow_nil], ?_, ?_, ?_⟩
  · intro i; rw [List.nil_append, (top _).1, bytes_shown]
  · intro i hi f hf
    rw [List.nil_append, (top _).2.1, segments_shown, List.getElem?_eq_getElem hi]
    exact segment_shown _ f hf
  · intro i hi
    rw [List.nil_append, (top _).2.1, segments_shown, List.getElem?_eq_none hi]; rfl

/-- C120: the text of `hexview-legacy` is JSON and shows the annotated view of the telegram: its bytes and segments
if it was decrypted, else only its segments, as a list; if there is no view, the message. -/
theorem C120_hexview (cfg : Cfg) (env : FrontEnv) (older : OlderEnv) (aes : AesBlock) (haes : BlockSized aes)
    (data : List Char) (key : Option (List UInt8)) :
    (∀ v, annotatedView cfg env.dataText aes (cleanAndConvert data) key = .ok v →
      ∃ text, serializeMbusData cfg env older aes data "hexview-legacy".toList key = .ok text ∧
        (∃ d, JsonText text d) ∧ ∀ d, JsonText text d → UniqueNames d ∧
          (v.decrypted = true → follow [.key "decrypted"] d = some (.bool true) ∧
            ShowsSegments [] v.bytes v.segments d) ∧
          (v.decrypted = false → ShowsList v.segments d)) ∧
    (∀ e, annotatedView cfg env.dataText aes (cleanAndConvert data) key = .err e →
      ∃ text, serializeMbusData cfg env older aes data "hexview-legacy".toList key = .ok text ∧
        ∀ d, JsonText text d ↔ d = .obj [("error".toList, .str "Invalid start byte".toList)]) := by
  rw [older_hexview]
  obtain ⟨a1, a2, -⟩ := C120_annotated cfg env older aes data key
  rw [older_annotated] at a1 a2
  constructor
  · intro v hv
    obtain ⟨segs, hs, ⟨rfl, hk⟩ | ⟨k, display, inner, out, rfl, hd, hi, hr, rfl⟩⟩ := view_cases hv
    · have e : parseToHexview cfg env.dataText aes data key =
          annotatedSegmentsToJson cfg env.dataText (cleanAndConvert data) := by
        unfold parseToHexview
        cases key with
        | none => rfl
        | some k => obtain ⟨e, he⟩ := hk k rfl; simp only [he]
      rw [e]
      obtain ⟨text, h1, h2, h3⟩ := a1 segs hs
      exact ⟨text, h1, h2, fun d hd => ⟨(h3 d hd).1, fun h => (by cases h), fun _ => (h3 d hd).2⟩⟩
    · have e : parseToHexview cfg env.dataText aes data (some k) =
          .ok ((hexviewDoc display out).text true 0) := by
        unfold parseToHexview
        simp only [hd, olderDecrypted, hi, hr, Res.bind_ok]
      rw [e]
      have hs := hexview_sound display out
      refine ⟨_, rfl, ⟨_, sound_pretty hs⟩, fun d hd => ?_⟩
      rw [json_eq hd (sound_pretty hs)]
      exact ⟨hs.unique, fun _ => hexview_shown display out, fun h => (by cases h)⟩
  · intro e hv
    have ha := (C101_rejects_iff cfg env.dataText aes haes _ key e).1 hv
    have e : parseToHexview cfg env.dataText aes data key =
        annotatedSegmentsToJson cfg env.dataText (cleanAndConvert data) := by
      unfold parseToHexview
      cases key with
      | none => rfl
      | some k => obtain ⟨e, he⟩ := refused_not_decrypted ha aes k; simp only [he]
    rw [e]
    exact a2 _ ha

/-- Both happen: a telegram is shown as it is, and one with a payload the key opens as a decrypted one. -/
example (dt : Data → List Char) :
    ∃ v, annotatedView cfgRelease dt (fun _ b => b) (cleanAndConvert "E5".toList) none = .ok v ∧
      v.decrypted = false := by
  have e : cleanAndConvert "E5".toList = [0xE5] := by decide +kernel
  rw [e]
  exact ⟨_, by with_unfolding_all rfl, rfl⟩

example : (match annotatedView cfgRelease (fun _ => []) (fun _ b => b.map (~~~ ·))
      (cleanAndConvert (hexString sealedPlain)) (some (List.replicate 16 1)) with
    | .ok v => v.decrypted && v.bytes.length == 31 | _ => false) = true := by decide +kernel

end MBus
