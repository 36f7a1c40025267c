import Verif.Spec.Api
import Verif.Props.Serialize
import Verif.Props.Errors
import Verif.Props.Csv
import Verif.Props.Messages
import Verif.Props.RecordOutput
/-!
# C128: the process of the command line program, C129: errors as text in the JavaScript package,
C130: the iterator over DIF extensions, C131: the comparison of texts
-/
namespace MBus
open MBus.Spec MBus.Xml

/-! ## The first characters of every output -/

/-- Every text of a format is that of the YAML library, or begins as no error does. -/
theorem rendered_start {cfg : Cfg} {env : FrontEnv} {aes : AesBlock} {input : List Char} {format : OutputFormat}
    {options : RenderOptions} {text : List Char} (h : renderHex cfg env aes input format options = .ok text) :
    (∃ o, env.yaml o = some text) ∨ (∃ c ∈ ['<', 's', 'w', 'f', 'H'], text.head? = some c) ∨
      ∃ rest, text = '{' :: '\n' :: rest := by
  unfold renderHex at h
  obtain ⟨bytes, -, h⟩ := Res.bind_eq_ok.1 h
  have decoded : ∀ f, f ≠ .xml → f ≠ .annotated → f ≠ .annotatedText →
      ((decodeBytes cfg aes bytes options.decode).mapErr OutputError.failure >>=
        renderDecoded env f options.tableWidth) = .ok text → (∃ o, env.yaml o = some text) ∨
          (∃ c ∈ ['<', 's', 'w', 'f', 'H'], text.head? = some c) ∨ ∃ rest, text = '{' :: '\n' :: rest := by
    intro f h1 h2 h3 h
    obtain ⟨o, ho, h⟩ := Res.bind_eq_ok.1 h
    have hp : o.protocol.head? = some 'w' := by
      cases hd : decodeBytes cfg aes bytes options.decode with
      | ok o' => rw [hd] at ho; cases ho; exact protocol_of hd
      | err e => rw [hd] at ho; cases ho
      | panic => rw [hd] at ho; cases ho
    cases f with
    | json =>
      cases h
      exact .inr (.inr ⟨_, rfl⟩)
    | yaml =>
      simp only [renderDecoded] at h
      split at h
      · rename_i t ht; cases h; exact .inl ⟨o, ht⟩
      · cases h
    | csv =>
      simp only [renderDecoded] at h
      split at h
      · rename_i t ht; cases h; exact .inr (.inl ⟨_, by decide, csv_head ht⟩)
      · cases h
    | table =>
      simp only [renderDecoded] at h
      split at h
      · rename_i t ht; cases h; exact .inr (.inl ⟨_, by decide, table_head hp ht⟩)
      · cases h
    | mermaid =>
      simp only [renderDecoded, Res.ok.injEq] at h
      subst h
      exact .inr (.inl ⟨_, by decide, mermaid_head _ _⟩)
    | xml => exact absurd rfl h1
    | annotated => exact absurd rfl h2
    | annotatedText => exact absurd rfl h3
  cases format with
  | xml =>
    simp only [renderBytes] at h
    cases hx : renderFromBytes cfg env.xml aes bytes options.decode.key with
    | ok t => rw [hx] at h; cases h; exact .inr (.inl ⟨_, by decide, xml_head _ _ _ _ _ _ hx⟩)
    | err e => rw [hx] at h; cases h
    | panic => rw [hx] at h; cases h
  | annotated =>
    simp only [renderBytes] at h
    obtain ⟨v, -, h⟩ := Res.bind_eq_ok.1 h
    cases h
    exact .inr (.inr ⟨_, rfl⟩)
  | annotatedText =>
    simp only [renderBytes] at h
    cases hx : annotateAndRender cfg env.dataText bytes with
    | ok t => rw [hx] at h; cases h; exact .inr (.inl ⟨_, by decide, annotated_text_head hx⟩)
    | err e => rw [hx] at h; cases h
    | panic => rw [hx] at h; cases h
  | json => exact decoded .json (by decide) (by decide) (by decide) h
  | yaml => exact decoded .yaml (by decide) (by decide) (by decide) h
  | csv => exact decoded .csv (by decide) (by decide) (by decide) h
  | table => exact decoded .table (by decide) (by decide) (by decide) h
  | mermaid => exact decoded .mermaid (by decide) (by decide) (by decide) h

/-- The codes and layers of refusals. -/
theorem render_codes {cfg : Cfg} {env : FrontEnv} {aes : AesBlock} (haes : BlockSized aes) {input : List Char}
    {format : OutputFormat} {options : RenderOptions} {e : Failure}
    (hkey : ∀ k, options.decode.key = some k → k.length = 16)
    (h : renderHex cfg env aes input format options = .err e) :
    (∃ c ∈ renderCodes, e.code = c.toList) ∧ ∃ l ∈ renderLayers, e.layer = l.toList := by
  have fixed : ∀ e : Failure, (e = .emptyInput ∨ (∃ i, e = .invalidHex i) ∨ (∃ a b, e = .invalidFrame a b) ∨
      e = .rendering "xml.unsupported".toList ∨ e = .rendering "annotation.failed".toList ∨
      (∃ o, e = .invalidOption o) ∨ ∃ f, e = .serialization f) →
      (∃ c ∈ renderCodes, e.code = c.toList) ∧ ∃ l ∈ renderLayers, e.layer = l.toList := by
    rintro e (rfl | ⟨i, rfl⟩ | ⟨a, b, rfl⟩ | rfl | rfl | ⟨o, rfl⟩ | ⟨f, rfl⟩)
    · exact ⟨⟨"input.empty", by decide +kernel, rfl⟩, "input", by decide +kernel, rfl⟩
    · exact ⟨⟨"input.invalid_hex", by decide +kernel, rfl⟩, "input", by decide +kernel, rfl⟩
    · exact ⟨⟨"frame.invalid", by decide +kernel, rfl⟩, "link", by decide +kernel, rfl⟩
    · exact ⟨⟨"xml.unsupported", by decide +kernel, rfl⟩, "application", by decide +kernel, rfl⟩
    · exact ⟨⟨"annotation.failed", by decide +kernel, rfl⟩, "application", by decide +kernel, rfl⟩
    · exact ⟨⟨"option.invalid", by decide +kernel, rfl⟩, "render", by decide +kernel, rfl⟩
    · exact ⟨⟨"render.serialization", by decide +kernel, rfl⟩, "render", by decide +kernel, rfl⟩
  unfold renderHex at h
  rw [Res.bind_eq_err] at h
  rcases h with h | ⟨bytes, hb, h⟩
  · cases hd : decodeHexBytes input with
    | ok b => rw [hd] at h; cases h
    | panic => rw [hd] at h; cases h
    | err e' =>
      rw [hd] at h
      cases h
      cases e' with
      | emptyInput => exact fixed _ (.inl rfl)
      | invalidHex i => exact fixed _ (.inr (.inl ⟨i, rfl⟩))
  have decoded : ∀ f, f ≠ .xml → f ≠ .annotated → f ≠ .annotatedText →
      ((decodeBytes cfg aes bytes options.decode).mapErr OutputError.failure >>=
        renderDecoded env f options.tableWidth) = .err e →
      (∃ c ∈ renderCodes, e.code = c.toList) ∧ ∃ l ∈ renderLayers, e.layer = l.toList := by
    intro f h1 h2 h3 h
    cases hd : decodeBytes cfg aes bytes options.decode with
    | panic => rw [hd] at h; cases h
    | err e' =>
      rw [hd] at h
      cases h
      cases e' with
      | emptyInput => exact fixed _ (.inl rfl)
      | invalidFrame a b => exact fixed _ (.inr (.inr (.inl ⟨a, b, rfl⟩)))
      | security s =>
        have hne : bytes ≠ [] := by rintro rfl; simp [decodeBytes] at hd
        have hj : renderBytes cfg env aes bytes .json options = .err (OutputError.security s).failure := by
          simp only [renderBytes, hd]; rfl
        have hl : (OutputError.security s).failure.layer = "security".toList := by cases s <;> rfl
        refine ⟨?_, "security", by decide +kernel, hl⟩
        rcases C118_cause cfg env aes haes bytes hne .json (.inl rfl) options hkey _ hj with
          ⟨-, h, -⟩ | ⟨-, link, payload, blk, k, -, -, -, -, -, h⟩ | ⟨-, h, -⟩
        · rw [hl] at h; exact absurd h (by decide +kernel)
        · rcases h with ⟨h, -⟩ | h
          · exact ⟨_, by decide +kernel, h⟩
          · exact ⟨_, by decide +kernel, h⟩
        · rw [hl] at h; exact absurd h (by decide +kernel)
    | ok o =>
      rw [hd] at h
      replace h : renderDecoded env f options.tableWidth o = .err e := h
      apply fixed
      cases f with
      | json => cases h
      | mermaid => cases h
      | yaml =>
        simp only [renderDecoded] at h
        split at h
        · cases h
        · cases h; exact .inr (.inr (.inr (.inr (.inr (.inr ⟨_, rfl⟩)))))
      | csv =>
        simp only [renderDecoded] at h
        split at h
        · cases h
        · cases h; exact .inr (.inr (.inr (.inr (.inr (.inr ⟨_, rfl⟩)))))
      | table =>
        simp only [renderDecoded] at h
        split at h
        · cases h
        · cases h; exact .inr (.inr (.inr (.inr (.inr (.inl ⟨_, rfl⟩)))))
      | xml => exact absurd rfl h1
      | annotated => exact absurd rfl h2
      | annotatedText => exact absurd rfl h3
  cases format with
  | xml =>
    simp only [renderBytes] at h
    cases hx : renderFromBytes cfg env.xml aes bytes options.decode.key with
    | ok t => rw [hx] at h; cases h
    | err e' => rw [hx] at h; cases h; exact fixed _ (.inr (.inr (.inr (.inl rfl))))
    | panic => rw [hx] at h; cases h
  | annotated =>
    simp only [renderBytes] at h
    cases hx : annotatedView cfg env.dataText aes bytes options.decode.key with
    | ok t => rw [hx] at h; cases h
    | err e' => rw [hx] at h; cases h; exact fixed _ (.inr (.inr (.inr (.inr (.inl rfl)))))
    | panic => rw [hx] at h; cases h
  | annotatedText =>
    simp only [renderBytes] at h
    cases hx : annotateAndRender cfg env.dataText bytes with
    | ok t => rw [hx] at h; cases h
    | err e' => rw [hx] at h; cases h; exact fixed _ (.inr (.inr (.inr (.inr (.inl rfl)))))
    | panic => rw [hx] at h; cases h
  | json => exact decoded .json (by decide) (by decide) (by decide) h
  | yaml => exact decoded .yaml (by decide) (by decide) (by decide) h
  | csv => exact decoded .csv (by decide) (by decide) (by decide) h
  | table => exact decoded .table (by decide) (by decide) (by decide) h
  | mermaid => exact decoded .mermaid (by decide) (by decide) (by decide) h

/-! ## C128 -/

theorem keyGiven_length {text : Option (List Char)} {key : Option (List UInt8)} (h : KeyGiven text key) :
    ∀ k, key = some k → k.length = 16 := by
  cases h with
  | none => intro k h; cases h
  | key t k h => intro k' e; cases e; exact h.1

/-- What the command line makes of its options. -/
theorem cliRun_cases (cfg : Cfg) (env : FrontEnv) (aes : AesBlock) (input : List Char) (o : CliOptions) :
    (OutputFormat.fromStr o.format = none ∧ cliRun cfg env aes input o = .err (.unsupportedFormat o.format)) ∨
    (∃ f, OutputFormat.fromStr o.format = some f ∧ (∀ key, ¬ KeyGiven o.key key) ∧
      cliRun cfg env aes input o = .err (.invalidOption "key")) ∨
    ∃ f key, OutputFormat.fromStr o.format = some f ∧ KeyGiven o.key key ∧
      cliRun cfg env aes input o = renderHex cfg env aes input f (cliRenderOptions o key) := by
  obtain ⟨format, keyText, width, noEnrichment, detected⟩ := o
  have hw : width.or detected = match width with | some w => some w | none => detected := by
    cases width <;> rfl
  cases hf : OutputFormat.fromStr format with
  | none => exact .inl ⟨rfl, by simp [cliRun, formatNamed, hf]⟩
  | some f =>
    refine .inr ?_
    cases keyText with
    | none => exact .inr ⟨f, none, rfl, .none, by
      simp only [cliRun, formatNamed, hf, cliRenderOptions, hw]; rfl⟩
    | some t =>
      by_cases hk : ∃ k, KeyText t k
      · obtain ⟨k, hk⟩ := hk
        have hc := ((C115_cli_key t).1 k).2 hk
        exact .inr ⟨f, some k, rfl, .key t k hk, by
          simp only [cliRun, formatNamed, hf, hc, cliRenderOptions, hw]; rfl⟩
      · have hk' : ∀ k, ¬ KeyText t k := fun k h => hk ⟨k, h⟩
        have hc := (C115_cli_key t).2 hk'
        refine .inl ⟨f, rfl, ?_, by simp [cliRun, formatNamed, hf, hc]⟩
        intro key h
        cases h with
        | key _ k h => exact hk' k h

theorem keyGiven_unique {text : Option (List Char)} {a b : Option (List UInt8)} (ha : KeyGiven text a)
    (hb : KeyGiven text b) : a = b := by
  cases ha with
  | none => cases hb; rfl
  | key t k h =>
    cases hb with
    | key _ k' h' =>
      have h1 := ((C115_cli_key t).1 k).2 h
      rw [((C115_cli_key t).1 k').2 h'] at h1
      cases h1
      rfl

/-- With an input, the process is that of the rendering. -/
theorem cliMain_input {env : CliEnv} {file data : Option (List Char)} {input : List Char}
    (h : InputGiven env file data input) (cfg : Cfg) (aes : AesBlock) (o : CliOptions) :
    cliMain cfg env aes file data o = cliRendered cfg env aes input o := by
  rcases h with ⟨rfl, rfl⟩ | ⟨path, rfl, rfl, h⟩
  · rfl
  · simp [cliMain, h]

theorem input_cases (env : CliEnv) (file data : Option (List Char))
    (hboth : ¬ (file.isSome = true ∧ data.isSome = true)) :
    (∃ path m, file = some path ∧ data = none ∧ env.readFile path = .error m) ∨ (file = none ∧ data = none) ∨
      ∃ input, InputGiven env file data input := by
  cases file with
  | none =>
    cases data with
    | none => exact .inr (.inl ⟨rfl, rfl⟩)
    | some d => exact .inr (.inr ⟨d, .inl ⟨rfl, rfl⟩⟩)
  | some p =>
    cases data with
    | some d => exact absurd ⟨rfl, rfl⟩ hboth
    | none =>
      cases hr : env.readFile p with
      | error m => exact .inl ⟨p, m, rfl, rfl, hr⟩
      | ok input => exact .inr (.inr ⟨input, .inr ⟨p, rfl, rfl, hr⟩⟩)

theorem cliFailed_eq (code message : List Char) :
    cliFailed ("[".toList ++ code ++ "] ".toList ++ message) =
      ⟨1, [], "error: [".toList ++ code ++ "] ".toList ++ message ++ ['\n']⟩ := by
  simp [cliFailed]

/-- C128: the process ends with status 0 exactly if there is an input, the format is known, the key is absent
or one of 32 hexadecimal digits, and the rendering succeeds; it then prints the rendering, nothing else, and
no complaint. -/
theorem C128_success (cfg : Cfg) (env : CliEnv) (aes : AesBlock) (file data : Option (List Char))
    (hboth : ¬ (file.isSome = true ∧ data.isSome = true)) (o : CliOptions) (out err : List Char) :
    cliMain cfg env aes file data o = ⟨0, out, err⟩ ↔
      err = [] ∧ ∃ input format key, InputGiven env file data input ∧
        OutputFormat.fromStr o.format = some format ∧ KeyGiven o.key key ∧
        renderHex cfg env.front aes input format (cliRenderOptions o key) = .ok out := by
  constructor
  · intro h
    rcases input_cases env file data hboth with ⟨p, m, rfl, rfl, hr⟩ | ⟨rfl, rfl⟩ | ⟨input, hi⟩
    · simp [cliMain, hr, cliFailed] at h
    · simp [cliMain, cliFailed] at h
    · rw [cliMain_input hi] at h
      unfold cliRendered at h
      rcases cliRun_cases cfg env.front aes input o with ⟨-, hc⟩ | ⟨f, -, -, hc⟩ | ⟨f, key, hf, hk, hc⟩
      · rw [hc] at h; simp [cliFailed] at h
      · rw [hc] at h; simp [cliFailed] at h
      · rw [hc] at h
        cases hr : renderHex cfg env.front aes input f (cliRenderOptions o key) with
        | ok t =>
          rw [hr] at h
          simp only [Finished.mk.injEq, true_and] at h
          obtain ⟨rfl, rfl⟩ := h
          exact ⟨rfl, input, f, key, hi, hf, hk, hr⟩
        | err e => rw [hr] at h; simp [cliFailed] at h
        | panic => rw [hr] at h; simp at h
  · rintro ⟨rfl, input, format, key, hi, hf, hk, hr⟩
    rw [cliMain_input hi]
    unfold cliRendered
    rcases cliRun_cases cfg env.front aes input o with ⟨h, -⟩ | ⟨f, -, h, -⟩ | ⟨f, key', h, hk', hc⟩
    · rw [hf] at h; cases h
    · exact absurd hk (h key)
    · rw [hf] at h
      cases h
      rw [hc, keyGiven_unique hk' hk, hr]

/-- C128: a process that ends with status 1 prints nothing, and complains in one text of the shape
`error: [code] message` whose code names what went wrong; and whenever something goes wrong, this is how the
process ends. -/
theorem C128_failure (cfg : Cfg) (env : CliEnv) (aes : AesBlock) (file data : Option (List Char))
    (hboth : ¬ (file.isSome = true ∧ data.isSome = true)) (o : CliOptions) :
    ((cliMain cfg env aes file data o).status = 1 ↔ ∃ code, CliCause cfg env aes file data o code) ∧
    ∀ code, CliCause cfg env aes file data o code → ∃ message, cliMain cfg env aes file data o =
      ⟨1, [], "error: [".toList ++ code ++ "] ".toList ++ message ++ ['\n']⟩ := by
  have key : ∀ code, CliCause cfg env aes file data o code → ∃ message, cliMain cfg env aes file data o =
      ⟨1, [], "error: [".toList ++ code ++ "] ".toList ++ message ++ ['\n']⟩ := by
    intro code h
    cases h with
    | file path message h1 h2 h3 =>
      subst h1 h2
      refine ⟨"failed to read ".toList ++ path ++ ": ".toList ++ message, ?_⟩
      simp only [cliMain, h3]
      rw [← cliFailed_eq]
      congr 1
    | nothing h1 h2 =>
      subst h1 h2
      refine ⟨"either --file or --data must be provided".toList, ?_⟩
      exact (by decide +kernel : cliFailed "[option.invalid] either --file or --data must be provided".toList =
        ⟨1, [], "error: [".toList ++ "option.invalid".toList ++ "] ".toList ++
          "either --file or --data must be provided".toList ++ ['\n']⟩)
    | format input hi hf =>
      rw [cliMain_input hi]
      unfold cliRendered
      rcases cliRun_cases cfg env.front aes input o with ⟨-, hc⟩ | ⟨f, h, -⟩ | ⟨f, k, h, -⟩
      · rw [hc]; exact ⟨_, cliFailed_eq _ _⟩
      · rw [hf] at h; cases h
      · rw [hf] at h; cases h
    | key input format hi hf hk =>
      rw [cliMain_input hi]
      unfold cliRendered
      rcases cliRun_cases cfg env.front aes input o with ⟨h, -⟩ | ⟨f, -, -, hc⟩ | ⟨f, k, -, h, -⟩
      · rw [hf] at h; cases h
      · rw [hc]; exact ⟨_, cliFailed_eq _ _⟩
      · exact absurd h (hk k)
    | rendering input format k e hi hf hk hr =>
      rw [cliMain_input hi]
      unfold cliRendered
      rcases cliRun_cases cfg env.front aes input o with ⟨h, -⟩ | ⟨f, -, h, -⟩ | ⟨f, k', h, hk', hc⟩
      · rw [hf] at h; cases h
      · exact absurd hk (h k)
      · rw [hf] at h
        cases h
        rw [hc, keyGiven_unique hk' hk, hr]
        exact ⟨_, cliFailed_eq _ _⟩
  refine ⟨⟨fun h => ?_, fun ⟨code, h⟩ => by obtain ⟨m, hm⟩ := key code h; rw [hm]⟩, key⟩
  rcases input_cases env file data hboth with ⟨p, m, h1, h2, hr⟩ | ⟨h1, h2⟩ | ⟨input, hi⟩
  · exact ⟨_, .file p m h1 h2 hr⟩
  · exact ⟨_, .nothing h1 h2⟩
  · rw [cliMain_input hi] at h
    unfold cliRendered at h
    rcases cliRun_cases cfg env.front aes input o with ⟨hf, hc⟩ | ⟨f, hf, hk, hc⟩ | ⟨f, k, hf, hk, hc⟩
    · exact ⟨_, .format input hi hf⟩
    · exact ⟨_, .key input f hi hf hk⟩
    · rw [hc] at h
      cases hr : renderHex cfg env.front aes input f (cliRenderOptions o k) with
      | ok t => rw [hr] at h; simp at h
      | panic => rw [hr] at h; simp at h
      | err e => exact ⟨_, .rendering input f k e hi hf hk hr⟩

/-- C128: the code of every complaint is one of the documented ones. -/
theorem C128_codes (cfg : Cfg) (env : CliEnv) (aes : AesBlock) (haes : BlockSized aes)
    (file data : Option (List Char)) (o : CliOptions) (code : List Char)
    (h : CliCause cfg env aes file data o code) :
    ∃ c ∈ "input.file" :: "format.unsupported" :: renderCodes, code = c.toList := by
  cases h with
  | file => exact ⟨_, by decide +kernel, rfl⟩
  | nothing => exact ⟨_, by decide +kernel, rfl⟩
  | format => exact ⟨_, by decide +kernel, rfl⟩
  | key => exact ⟨_, by decide +kernel, rfl⟩
  | rendering input format k e hi hf hk hr =>
    obtain ⟨⟨c, hc, he⟩, -⟩ := render_codes haes (keyGiven_length hk) hr
    exact ⟨c, by simp [hc], he⟩

/-- C128: there is something on the standard output exactly if the status is 0, unless the YAML library
gives an empty text. -/
theorem C128_output (cfg : Cfg) (env : CliEnv) (aes : AesBlock) (file data : Option (List Char))
    (hboth : ¬ (file.isSome = true ∧ data.isSome = true)) (o : CliOptions)
    (hy : ∀ d, env.front.yaml d ≠ some []) :
    (cliMain cfg env aes file data o).status = 0 ↔ (cliMain cfg env aes file data o).stdout ≠ [] := by
  constructor
  · intro h
    obtain ⟨-, input, format, key, -, -, -, hr⟩ := (C128_success cfg env aes file data hboth o _ _).1
      (show cliMain cfg env aes file data o = ⟨0, (cliMain cfg env aes file data o).stdout,
        (cliMain cfg env aes file data o).stderr⟩ by rw [← h])
    rcases rendered_start hr with ⟨d, hd⟩ | ⟨c, -, hc⟩ | ⟨rest, hc⟩
    · intro he; rw [he] at hd; exact hy d hd
    · intro he; rw [he] at hc; cases hc
    · intro he; rw [he] at hc; cases hc
  · intro h
    rcases input_cases env file data hboth with ⟨p, m, rfl, rfl, hr⟩ | ⟨rfl, rfl⟩ | ⟨input, hi⟩
    · simp [cliMain, hr, cliFailed] at h
    · simp [cliMain, cliFailed] at h
    · rw [cliMain_input hi] at h ⊢
      unfold cliRendered at h ⊢
      cases hc : cliRun cfg env.front aes input o with
      | ok t => rfl
      | err e => simp [hc, cliFailed] at h
      | panic => simp [hc] at h

theorem trim_surrounded (l text r : List Char) (hl : BlankText l) (hr : BlankText r) :
    trim (l ++ text ++ r) = trim text := by
  apply trim_of_trimmed
  obtain ⟨a, b, h1, h2, h3, h4⟩ := trimmed_trim text
  refine ⟨l ++ a, b ++ r, ?_, ?_, h3, h4⟩
  · generalize trim text = t at h1
    rw [h1]
    simp
  · intro c hc
    simp only [List.mem_append] at hc
    rcases hc with (h | h) | (h | h)
    · exact hl c h
    · exact h2 c (by simp [h])
    · exact h2 c (by simp [h])
    · exact hr c h

/-- C128: a file that holds the telegram with white space around it, as an editor leaves it, gives the same
process as the telegram on the command line. -/
theorem C128_file (cfg : Cfg) (env : CliEnv) (aes : AesBlock) (path l text r : List Char) (o : CliOptions)
    (hl : BlankText l) (hr : BlankText r) (hf : env.readFile path = .ok (l ++ text ++ r)) :
    cliMain cfg env aes (some path) none o = cliMain cfg env aes none (some text) o := by
  have hd : decodeHexBytes (l ++ text ++ r) = decodeHexBytes text := by
    unfold decodeHexBytes
    rw [trim_surrounded l text r hl hr]
  have hh : ∀ f opts, renderHex cfg env.front aes (l ++ text ++ r) f opts =
      renderHex cfg env.front aes text f opts := by
    intro f opts
    unfold renderHex
    rw [hd]
  have hc : cliRun cfg env.front aes (l ++ text ++ r) o = cliRun cfg env.front aes text o := by
    unfold cliRun
    simp only [hh]
  simp only [cliMain, hf, cliRendered, hc]

/-- An environment with one file. -/
def oneFile (front : FrontEnv) (path content : List Char) : CliEnv :=
  ⟨front, fun p => if p = path then .ok content else .error "No such file or directory (os error 2)".toList,
    fun _ => "message".toList, "panic".toList⟩

/-- A telegram in a file with a line break at its end is printed as Mermaid text. -/
example (front : FrontEnv) (aes : AesBlock) (cfg : Cfg) : ∃ out,
    cliMain cfg (oneFile front "t.hex".toList "E5\n".toList) aes (some "t.hex".toList) none
      ⟨"mermaid".toList, none, none, false, none⟩ = ⟨0, out, []⟩ ∧
    cliMain cfg (oneFile front "t.hex".toList "E5\n".toList) aes (some "t.hex".toList) none
      ⟨"mermaid".toList, none, none, false, none⟩ =
    cliMain cfg (oneFile front "t.hex".toList "E5\n".toList) aes none (some "E5".toList)
      ⟨"mermaid".toList, none, none, false, none⟩ := by
  have hfile := C128_file cfg (oneFile front "t.hex".toList "E5\n".toList) aes "t.hex".toList [] "E5".toList
    ['\n'] ⟨"mermaid".toList, none, none, false, none⟩ (by intro c h; cases h)
    (by intro c h; simp only [List.mem_singleton] at h; subst h; decide) (by
      simp only [oneFile, if_true]; exact congrArg Except.ok (by decide +kernel))
  have hin : InputGiven (oneFile front "t.hex".toList "E5\n".toList) none (some "E5".toList) "E5".toList :=
    .inl ⟨rfl, rfl⟩
  have hdec : ∃ o, decodeBytes cfg aes [0xE5] ⟨none, true⟩ = .ok o := by
    obtain ⟨oc, tf⟩ := cfg
    cases oc <;> cases tf <;> exact ⟨_, rfl⟩
  obtain ⟨d, hd⟩ := hdec
  have hhex : decodeHexBytes "E5".toList = .ok [0xE5] := by decide +kernel
  rw [hfile]
  refine ⟨renderMermaid front.text d, (C128_success cfg _ aes none (some "E5".toList) (by simp) _ _ []).2
    ⟨rfl, "E5".toList, .mermaid, none, hin, by decide +kernel, .none, ?_⟩, rfl⟩
  · simp only [renderHex, hhex, cliRenderOptions, Bool.not_false, renderBytes, Res.mapErr, hd, Res.bind_ok]
    rfl

/-- A file that does not exist, and a key of two digits. -/
example (front : FrontEnv) (aes : AesBlock) (cfg : Cfg) :
    CliCause cfg (oneFile front "t.hex".toList "E5".toList) aes (some "u.hex".toList) none
      ⟨"json".toList, none, none, false, none⟩ "input.file".toList ∧
    CliCause cfg (oneFile front "t.hex".toList "E5".toList) aes none (some "E5".toList)
      ⟨"json".toList, some "00".toList, none, false, none⟩ "option.invalid".toList := by
  refine ⟨.file "u.hex".toList "No such file or directory (os error 2)".toList rfl rfl
    (by simp only [oneFile]; exact if_neg (by decide +kernel)), .key "E5".toList .json (.inl ⟨rfl, rfl⟩) (by decide +kernel) ?_⟩
  intro key h
  cases h with
  | key _ k h =>
    have := ((C115_cli_key "00".toList).1 k).2 h
    rw [show cliKey "00".toList = .err (.invalidOption "key") by decide +kernel] at this
    cases this

/-! ## C129 -/

theorem jsKey_length {text : Option (List Char)} {key : Option (List UInt8)} (h : jsKey text = .ok key) :
    ∀ k, key = some k → k.length = 16 := by
  rintro k rfl
  cases text with
  | none => simp [jsKey] at h
  | some t =>
    simp only [jsKey] at h
    split at h
    · cases h
    · obtain ⟨b, -, h⟩ := Res.bind_eq_ok.1 h
      split at h
      · cases h; assumption
      · cases h

theorem jsKey_error {text : Option (List Char)} {e : Failure} (h : jsKey text = .err e) :
    (∃ i, e = .invalidHex i) ∨ e = .emptyInput ∨ e = .invalidOption "key" := by
  cases text with
  | none => simp [jsKey] at h
  | some t =>
    simp only [jsKey] at h
    split at h
    · cases h
    · rw [Res.bind_eq_err] at h
      rcases h with h | ⟨b, -, h⟩
      · cases hd : decodeHexBytes t with
        | ok b => rw [hd] at h; cases h
        | panic => rw [hd] at h; cases h
        | err e' =>
          rw [hd] at h
          cases h
          cases e' with
          | emptyInput => exact .inr (.inl rfl)
          | invalidHex i => exact .inl ⟨i, rfl⟩
      · split at h
        · cases h
        · cases h; exact .inr (.inr rfl)

/-- The codes and layers of the errors of the JavaScript package. -/
theorem js_codes {cfg : Cfg} {env : FrontEnv} {aes : AesBlock} (haes : BlockSized aes)
    {data format : List Char} {key : Option (List Char)} {w : Option Nat} {b : Option Bool} {e : Failure}
    (h : jsRender cfg env aes data format key w b = .err e) :
    (∃ c ∈ "format.unsupported" :: renderCodes, e.code = c.toList) ∧ ∃ l ∈ renderLayers, e.layer = l.toList := by
  unfold jsRender at h
  rw [Res.bind_eq_err] at h
  rcases h with h | ⟨f, -, h⟩
  · unfold formatNamed at h
    split at h
    · cases h
    · cases h
      exact ⟨⟨"format.unsupported", by decide +kernel, rfl⟩, "render", by decide +kernel, rfl⟩
  · rw [Res.bind_eq_err] at h
    rcases h with h | ⟨k, hk, h⟩
    · rcases jsKey_error h with ⟨i, rfl⟩ | rfl | rfl
      · exact ⟨⟨"input.invalid_hex", by decide +kernel, rfl⟩, "input", by decide +kernel, rfl⟩
      · exact ⟨⟨"input.empty", by decide +kernel, rfl⟩, "input", by decide +kernel, rfl⟩
      · exact ⟨⟨"option.invalid", by decide +kernel, rfl⟩, "render", by decide +kernel, rfl⟩
    · obtain ⟨⟨c, hc, he⟩, hl⟩ := render_codes haes (jsKey_length hk) h
      exact ⟨⟨c, by simp [hc], he⟩, hl⟩

theorem errorText_eq (e : Failure) (hc : e.code.flatMap jsonEscape = e.code)
    (hl : e.layer.flatMap jsonEscape = e.layer) : jsErrorText e = errorObject e.code e.layer e.byteOffset := by
  have h1 : jsonString "name".toList = "\"name\"".toList := by decide +kernel
  have h2 : jsonString "code".toList = "\"code\"".toList := by decide +kernel
  have h3 : jsonString "layer".toList = "\"layer\"".toList := by decide +kernel
  have h4 : jsonString "byteOffset".toList = "\"byteOffset\"".toList := by decide +kernel
  have h5 : jsonString "MbusParserError".toList = "\"MbusParserError\"".toList := by decide +kernel
  unfold jsErrorText errorObject compactJson
  cases ho : e.byteOffset with
  | none =>
    simp only [field, fieldOpt, List.append_nil, List.cons_append, List.nil_append, Doc.text, membersText,
      jsonNext, jsonBreak, jsonColon, h1, h2, h3, h5]
    simp [jsonString, hc, hl]
  | some n =>
    simp only [field, fieldOpt, List.cons_append, List.nil_append, Doc.text, membersText,
      jsonNext, jsonBreak, jsonColon, h1, h2, h3, h4, h5, Doc.nat]
    simp [jsonString, hc, hl]

theorem errorObject_looks (code layer : List Char) (offset : Option Nat) :
    LooksLikeError (errorObject code layer offset) := by
  have h : "{\"name\":\"MbusParserError\",\"code\":\"".toList =
      "{\"name\":".toList ++ "\"MbusParserError\",\"code\":\"".toList := by decide +kernel
  unfold errorObject
  rw [h]
  exact ⟨_, by simp only [List.append_assoc]; rfl⟩

/-- C129: the functions that return errors as text return the rendering, which never looks like an error, or
the text of the error object with the code, the layer and the byte offset of the refusal. -/
theorem C129_text (cfg : Cfg) (env : FrontEnv) (aes : AesBlock) (haes : BlockSized aes)
    (data format : List Char) (key : Option (List Char)) (text : List Char)
    (hy : ∀ d t, env.yaml d = some t → ¬ LooksLikeError t) (h : jsParse cfg env aes data format key = .ok text) :
    (jsRender cfg env aes data format key none none = .ok text ∧ ¬ LooksLikeError text) ∨
    ∃ e, jsRender cfg env aes data format key none none = .err e ∧ LooksLikeError text ∧
      text = errorObject e.code e.layer e.byteOffset ∧
      (∃ c ∈ "format.unsupported" :: renderCodes, e.code = c.toList) ∧
      ∃ l ∈ renderLayers, e.layer = l.toList := by
  unfold jsParse at h
  cases hj : jsRender cfg env aes data format key none none with
  | panic => rw [hj] at h; cases h
  | ok t =>
    rw [hj] at h
    cases h
    refine .inl ⟨rfl, ?_⟩
    unfold jsRender at hj
    obtain ⟨f, -, hj⟩ := Res.bind_eq_ok.1 hj
    obtain ⟨k, -, hj⟩ := Res.bind_eq_ok.1 hj
    rintro ⟨rest, rfl⟩
    rcases rendered_start hj with ⟨d, hd⟩ | ⟨c, hc, hh⟩ | ⟨r, hr⟩
    · exact hy d _ hd ⟨rest, rfl⟩
    · simp at hh
      subst hh
      revert hc
      decide
    · simp at hr
  | err e =>
    rw [hj] at h
    replace h : jsErrorText e = text := Res.ok.inj h
    obtain ⟨hc, hl⟩ := js_codes haes hj
    have ec : e.code.flatMap jsonEscape = e.code := by
      obtain ⟨c, hc, he⟩ := hc
      rw [he]
      exact (by decide +kernel : ∀ c ∈ "format.unsupported" :: renderCodes,
        c.toList.flatMap jsonEscape = c.toList) c hc
    have el : e.layer.flatMap jsonEscape = e.layer := by
      obtain ⟨l, hl, he⟩ := hl
      rw [he]
      exact (by decide +kernel : ∀ c ∈ renderLayers, c.toList.flatMap jsonEscape = c.toList) l hl
    have ht := errorText_eq e ec el
    rw [h] at ht
    refine .inr ⟨e, rfl, ?_, ht, hc, hl⟩
    rw [ht]
    exact errorObject_looks _ _ _

/-- C129: and they say nothing else: exactly when the rendering crashes, so do they. -/
theorem C129_total (cfg : Cfg) (env : FrontEnv) (aes : AesBlock) (data format : List Char)
    (key : Option (List Char)) :
    (∃ text, jsParse cfg env aes data format key = .ok text) ∨
      (jsParse cfg env aes data format key = .panic ∧
        jsRender cfg env aes data format key none none = .panic) := by
  unfold jsParse
  cases jsRender cfg env aes data format key none none with
  | ok t => exact .inl ⟨_, rfl⟩
  | err e => exact .inl ⟨_, rfl⟩
  | panic => exact .inr ⟨rfl, rfl⟩

/-- A digit missing at position 2, an unknown format, and an acknowledgement. -/
example (cfg : Cfg) (env : FrontEnv) (aes : AesBlock) :
    jsParse cfg env aes "E5E".toList "json".toList none = .ok
      "{\"name\":\"MbusParserError\",\"code\":\"input.invalid_hex\",\"layer\":\"input\",\"byteOffset\":2}".toList ∧
    jsParse cfg env aes "E5".toList "pdf".toList none = .ok
      "{\"name\":\"MbusParserError\",\"code\":\"format.unsupported\",\"layer\":\"render\"}".toList ∧
    ∃ text, jsParse cfg env aes "E5".toList "mermaid".toList none = .ok text := by
  have h1 : formatNamed "json".toList = .ok .json := by decide +kernel
  have h2 : formatNamed "pdf".toList = .err (.unsupportedFormat "pdf".toList) := by decide +kernel
  have h3 : decodeHexBytes "E5E".toList = .err (.invalidHex 2) := by decide +kernel
  refine ⟨?_, ?_, ?_⟩
  · simp only [jsParse, jsRender, h1, jsKey, renderHex, h3, Res.mapErr, Res.bind_ok, Res.bind_err]
    exact congrArg Res.ok (by decide +kernel)
  · simp only [jsParse, jsRender, h2, Res.bind_err]
    exact congrArg Res.ok (by decide +kernel)
  · rcases C129_total cfg env aes "E5".toList "mermaid".toList none with h | ⟨-, h⟩
    · exact h
    · obtain ⟨oc, tf⟩ := cfg
      cases oc <;> cases tf <;> exact ⟨_, rfl⟩

theorem defects (cfg : Cfg) (aes : AesBlock) : ∃ ea eb,
    decodeBytes cfg aes [0x10, 0x40, 0x01, 0x42, 0x16] ⟨none, true⟩ = .err ea ∧
    decodeBytes cfg aes [0x10, 0x40, 0x01, 0x43, 0x16] ⟨none, true⟩ = .err eb ∧ ea.message ≠ eb.message ∧
    ea.failure.code = eb.failure.code ∧ ea.failure.layer = eb.failure.layer ∧
    ea.failure.byteOffset = eb.failure.byteOffset := by
  obtain ⟨oc, tf⟩ := cfg
  cases oc <;> cases tf <;> exact ⟨_, _, rfl, rfl, by decide +kernel, rfl, rfl, rfl⟩

/-- C129 fails for the messages: they are not part of the text.  Two telegrams whose refusals have different
messages, here with different wrong check sums, give the same text. -/
theorem C129_message_fails (cfg : Cfg) (env : FrontEnv) (aes : AesBlock) : ∃ a b ta tb ea eb,
    decodeBytes cfg aes a ⟨none, true⟩ = .err ea ∧ decodeBytes cfg aes b ⟨none, true⟩ = .err eb ∧
    ea.message ≠ eb.message ∧ decodeHexBytes ta = .ok a ∧ decodeHexBytes tb = .ok b ∧
    jsParse cfg env aes ta "json".toList none = jsParse cfg env aes tb "json".toList none := by
  obtain ⟨ea, eb, h1, h2, h3, h4, h5, h6⟩ := defects cfg aes
  have ha : decodeHexBytes "1040014216".toList = .ok [0x10, 0x40, 0x01, 0x42, 0x16] := by decide +kernel
  have hb : decodeHexBytes "1040014316".toList = .ok [0x10, 0x40, 0x01, 0x43, 0x16] := by decide +kernel
  refine ⟨_, _, _, _, ea, eb, h1, h2, h3, ha, hb, ?_⟩
  have hn : formatNamed "json".toList = .ok .json := by decide +kernel
  simp only [jsParse, jsRender, hn, jsKey, renderHex, ha, hb, renderBytes, Res.mapErr, h1, h2, Res.bind_ok,
    Res.bind_err, Option.getD_none, jsErrorText, h4, h5, h6]

/-! ## C130 -/

theorem calls_rest : ∀ (calls : List Bool) (s : List UInt8),
    (difeCalls calls s).1.length = calls.length ∧
    ((answersTo true calls (difeCalls calls s).1).filterMap id) ++ (difeCalls calls s).2
      ++ ((answersTo false calls (difeCalls calls s).1).filterMap id).reverse = s
  | [], s => by simp [difeCalls, answersTo]
  | true :: calls, [] => by
    obtain ⟨h1, h2⟩ := calls_rest calls []
    refine ⟨by simp [difeCalls, difeNext, h1], ?_⟩
    simpa [difeCalls, difeNext, answersTo] using h2
  | true :: calls, b :: s => by
    obtain ⟨h1, h2⟩ := calls_rest calls s
    refine ⟨by simp [difeCalls, difeNext, h1], ?_⟩
    simpa [difeCalls, difeNext, answersTo] using h2
  | false :: calls, s => by
    cases hs : s.getLast? with
    | none =>
      obtain ⟨h1, h2⟩ := calls_rest calls s
      refine ⟨by simp [difeCalls, difeNextBack, hs, h1], ?_⟩
      simpa [difeCalls, difeNextBack, hs, answersTo] using h2
    | some b =>
      obtain ⟨h1, h2⟩ := calls_rest calls s.dropLast
      refine ⟨by simp [difeCalls, difeNextBack, hs, h1], ?_⟩
      obtain ⟨t, rfl⟩ := List.getLast?_eq_some_iff.1 hs
      simp only [List.dropLast_concat] at h2 h1
      have : ∀ x y z : List UInt8, x ++ y ++ z = t → x ++ y ++ (z ++ [b]) = t ++ [b] := by
        rintro x y z rfl; simp
      simpa [difeCalls, difeNextBack, hs, answersTo] using this _ _ _ h2

/-- C130: whatever the order of calls of `next` and `next_back`, the bytes answered to `next`, in order, then
the bytes not yet given, then the bytes answered to `next_back`, last one first, are the bytes of the field:
none is lost, repeated or out of place. -/
theorem C130_both_ends (calls : List Bool) (bytes : List UInt8) :
    (answersTo true calls (difeCalls calls bytes).1).filterMap id ++ (difeCalls calls bytes).2
      ++ ((answersTo false calls (difeCalls calls bytes).1).filterMap id).reverse = bytes :=
  (calls_rest calls bytes).2

theorem calls_answers : ∀ (calls : List Bool) (bytes : List UInt8) (n : Nat), n < calls.length →
    ((difeCalls calls bytes).1[n]? = some none ↔ bytes.length ≤ n)
  | [], _, n, h => by simp at h
  | front :: calls, bytes, 0, _ => by
    cases front with
    | true => cases bytes <;> simp [difeCalls, difeNext]
    | false =>
      cases hs : bytes.getLast? with
      | none => simp [difeCalls, difeNextBack, hs, List.getLast?_eq_none_iff.1 hs]
      | some b =>
        have : bytes ≠ [] := by rintro rfl; simp at hs
        simp [difeCalls, difeNextBack, hs, this]
  | front :: calls, bytes, n + 1, h => by
    have hn : n < calls.length := by simpa using h
    cases front with
    | true =>
      cases bytes with
      | nil => simpa [difeCalls, difeNext] using calls_answers calls [] n hn
      | cons b s => simpa [difeCalls, difeNext] using calls_answers calls s n hn
    | false =>
      cases hs : bytes.getLast? with
      | none =>
        have hb := List.getLast?_eq_none_iff.1 hs
        subst hb
        simpa [difeCalls, difeNextBack] using calls_answers calls [] n hn
      | some b =>
        have := calls_answers calls bytes.dropLast n hn
        simp only [List.length_dropLast] at this
        simp only [difeCalls, difeNextBack, hs, Bool.false_eq_true, if_false, List.getElem?_cons_succ, this]
        omega

/-- C130: there is one answer to each call, and the call numbered `n` from 0 is answered with nothing exactly
if `n` calls already took all the bytes; this stays so. -/
theorem C130_end (calls : List Bool) (bytes : List UInt8) :
    (difeCalls calls bytes).1.length = calls.length ∧
    ∀ n < calls.length, (difeCalls calls bytes).1[n]? = some none ↔ bytes.length ≤ n :=
  ⟨(calls_rest calls bytes).1, calls_answers calls bytes⟩

/-- C130: at every moment the size announced is exactly the number of bytes still to come. -/
theorem C130_size (calls : List Bool) (bytes : List UInt8) :
    difeSizeHint (difeCalls calls bytes).2 =
      (bytes.length - calls.length, some (bytes.length - calls.length)) := by
  have : (difeCalls calls bytes).2.length = bytes.length - calls.length := by
    induction calls generalizing bytes with
    | nil => simp [difeCalls]
    | cons front calls ih =>
      cases front with
      | true =>
        cases bytes with
        | nil => simp [difeCalls, difeNext, ih]
        | cons b s => simp [difeCalls, difeNext, ih]
      | false =>
        cases hs : bytes.getLast? with
        | none =>
          have hb := List.getLast?_eq_none_iff.1 hs
          subst hb
          simp [difeCalls, difeNextBack, ih]
        | some b =>
          simp only [difeCalls, difeNextBack, hs, Bool.false_eq_true, if_false, ih, List.length_dropLast,
            List.length_cons]
          omega
  simp [difeSizeHint, this]

example : difeCalls [true, false, true, false] [0x81, 0x82, 0x03] =
    ([some 0x81, some 0x03, some 0x82, none], []) := by decide

/-! ## C131 -/

/-- C131: a text of a telegram equals a string exactly if its bytes, last one first, are the UTF-8 of the
string. -/
theorem C131_equal (unit : List UInt8) (text : List Char) :
    textUnitEq unit (utf8 text) = true ↔ unit.reverse = utf8 text := by
  unfold textUnitEq
  rw [beq_iff_eq]
  constructor
  · rintro rfl; simp
  · intro h; rw [← h]; simp

/-- C131: a text that equals a string is shown as this string. -/
theorem C131_shown (unit : List UInt8) (text : List Char) (h : textUnitEq unit (utf8 text) = true) :
    decodeTextUnit unit = text := by
  rw [C131_equal] at h
  unfold decodeTextUnit
  simp only [(fromUtf8_iff _ _).2 h]

/-- C131, in part: for bytes that are UTF-8 the converse holds, a text equals the string it is shown as. -/
theorem C131_converse_partial (unit : List UInt8) (text : List Char) (hu : ∃ t, unit.reverse = utf8 t) :
    textUnitEq unit (utf8 text) = true ↔ decodeTextUnit unit = text := by
  refine ⟨C131_shown unit text, ?_⟩
  obtain ⟨t, ht⟩ := hu
  intro h
  rw [C131_equal, ht]
  unfold decodeTextUnit at h
  simp only [(fromUtf8_iff _ _).2 ht] at h
  rw [h]

/-- C131 fails for other bytes: such a text is shown as a string and equals no string. -/
theorem C131_fails (unit : List UInt8) (hu : ∀ t, unit.reverse ≠ utf8 t) :
    decodeTextUnit unit = unit.reverse.map (fun b => Char.ofNat b.toNat) ∧
      ∀ text, textUnitEq unit (utf8 text) = false := by
  constructor
  · unfold decodeTextUnit
    cases hf : fromUtf8 unit.reverse with
    | none => simp only [hf]
    | some t => exact absurd ((fromUtf8_iff _ _).1 hf) (hu t)
  · intro text
    rw [← Bool.not_eq_true, C131_equal]
    exact hu text

/-- The unit "mä" in UTF-8 equals that string; in Latin-1 it is shown as it and unequal to it. -/
example : textUnitEq [0xA4, 0xC3, 0x6D] (utf8 "mä".toList) = true ∧
    decodeTextUnit [0xE4, 0x6D] = "mä".toList ∧ textUnitEq [0xE4, 0x6D] (utf8 "mä".toList) = false := by
  decide +kernel

example : ∀ t, ([0xE4, 0x6D] : List UInt8).reverse ≠ utf8 t := by
  intro t h
  have := (fromUtf8_iff _ _).2 h
  rw [show fromUtf8 ([0xE4, 0x6D] : List UInt8).reverse = none by decide +kernel] at this
  cases this

end MBus
