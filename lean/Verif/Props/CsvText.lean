import Verif.Lemmas.CsvText
import Verif.Props.Csv
import Verif.Props.Legacy
import Verif.Props.OutputRecords
/-!
# C113: the CSV texts are CSV files of two rows
-/
namespace MBus
open MBus.Spec

/-- C113: a CSV text has one reading. -/
theorem C113_one_reading (text : List Char) (rows rows' : List (List (List Char))) (h : CsvFile text rows)
    (h' : CsvFile text rows') : rows = rows' := file_eq h h'

theorem write_two (a b : List (List Char)) (h : b.length = a.length) (ha : a ≠ []) :
    ∃ text, csvWrite [a, b] = some text ∧ CsvFile text [a, b] := by
  refine ⟨[a, b].flatMap csvRecord, by unfold csvWrite; simp [h], csvRecords_read _ ?_⟩
  intro r hr
  simp at hr
  rcases hr with rfl | rfl
  · exact ha
  · intro hb; subst hb; exact ha (List.length_eq_zero_iff.mp h.symm)

/-- C113: the CSV of a decoded telegram is written, and by RFC 4180 it reads as a row of column names and
a row of values, as many as names. -/
theorem C113_csv (env : TextEnv) (o : DecodedOutput) :
    ∃ text, renderCsv env o = some text ∧ ∀ rows, CsvFile text rows ↔ rows = [(csvRows env o).1, (csvRows env o).2] := by
  obtain ⟨h1, h2⟩ := C92_rows env o
  obtain ⟨text, e, g⟩ := write_two (csvRows env o).1 (csvRows env o).2 (h2.trans h1.symm)
    (by intro h; rw [h] at h1; simp at h1; omega)
  refine ⟨text, e, fun rows => ⟨fun h => file_eq h g, fun h => h ▸ g⟩⟩

/-- C113: so whoever reads the CSV of a telegram finds below each name of a column its value, as the
standard names them: those of the telegram and those of each of its records. -/
theorem C113_columns (cfg : Cfg) (env : TextEnv) (aes : AesBlock) (data : List UInt8) (options : DecodeOptions)
    (o : DecodedOutput) (h : decodeBytes cfg aes data options = .ok o) :
    ∃ text, renderCsv env o = some text ∧ ∀ rows, CsvFile text rows → ∃ names values, rows = [names, values] ∧
      names.length = values.length ∧ names.Nodup ∧
      (∀ c ∈ frameColumns o, column (names, values) c.1.toList = some c.2) ∧
      ∀ r ∈ o.records, ∀ c ∈ recordColumns env r,
        column (names, values) ("record_".toList ++ (toString r.index).toList ++ ['_'] ++ c.1.toList) = some c.2 := by
  obtain ⟨text, e, g⟩ := C113_csv env o
  have hi : (o.records.map (·.index)).Nodup := C89_indices cfg aes data options o h ▸ List.nodup_range
  obtain ⟨h1, h2⟩ := C92_rows env o
  refine ⟨text, e, fun rows hr => ⟨_, _, (g rows).1 hr, h1.trans h2.symm, C92_distinct env o hi,
    fun c hc => C92_frame env o hi c.1 c.2 hc, fun r hr c hc => C92_record env o hi r hr c.1 c.2 hc⟩⟩

/-- C113: two telegrams with the same CSV are the same bytes. -/
theorem C113_determines (cfg : Cfg) (env : TextEnv) (aes : AesBlock) (data data' : List UInt8)
    (options options' : DecodeOptions) (o o' : DecodedOutput)
    (h : decodeBytes cfg aes data options = .ok o) (h' : decodeBytes cfg aes data' options' = .ok o')
    (he : renderCsv env o = renderCsv env o') : data = data' := by
  obtain ⟨text, e, g⟩ := C113_columns cfg env aes data options o h
  obtain ⟨text', e', g'⟩ := C113_columns cfg env aes data' options' o' h'
  rw [e, e'] at he
  injection he with he
  subst he
  obtain ⟨text'', e'', k⟩ := C113_csv env o
  rw [e''] at e
  injection e with e
  subst e
  obtain ⟨n, v, hr, -, -, f, -⟩ := g _ ((k _).2 rfl)
  obtain ⟨n', v', hr', -, -, f', -⟩ := g' _ ((k _).2 rfl)
  rw [hr] at hr'
  injection hr' with e1 e2
  injection e2 with e2
  subst e1 e2
  have a := f ("frame_hex", o.raw.originalFrameHex) (by simp [frameColumns])
  have b := f' ("frame_hex", o'.raw.originalFrameHex) (by simp [frameColumns])
  rw [a] at b
  injection b with b
  have b : o.raw.originalFrameHex = o'.raw.originalFrameHex := b
  have g1 := (C84_raw cfg aes data options o h).2.2.1
  have g2 := (C84_raw cfg aes data' options' o' h').2.2.1
  rw [b, g2] at g1
  injection g1 with g1
  exact g1.symm

/-- C113: the text of csv-wide is written, and reads as its two rows. -/
theorem C113_wide (cfg : Cfg) (rt : UInt32 → List Char) (aes : AesBlock) (input : List Char)
    (key : Option (List UInt8)) (rows : List (List (List Char))) (h : parseToCsv cfg rt aes input key = .ok rows) :
    ∃ text, wideCsv cfg rt aes input key = .ok (some text) ∧ ∀ rows', CsvFile text rows' ↔ rows' = rows := by
  have two : ∃ a b : List (List Char), rows = [a, b] ∧ b.length = a.length ∧ a ≠ [] := by
    cases hp : parseFrameOutput cfg rt aes (cleanAndConvert input) key with
    | ok p =>
      obtain ⟨a, b, e, hl, hb, -⟩ := C109_columns cfg rt aes input key p hp
      rw [e] at h
      cases h
      exact ⟨a, b, rfl, hb, by intro h0; rw [h0] at hl; simp at hl; omega⟩
    | err e =>
      cases e
      rw [C109_error cfg rt aes input key hp] at h
      cases h
      exact ⟨_, _, rfl, rfl, by simp⟩
    | panic => unfold parseToCsv at h; rw [hp] at h; cases h
  obtain ⟨a, b, rfl, hl, ha⟩ := two
  obtain ⟨text, e, g⟩ := write_two a b hl ha
  refine ⟨text, by unfold wideCsv; rw [h]; simp only [e], fun rows' => ⟨fun h => file_eq h g, fun h => h ▸ g⟩⟩

/-- Texts of real numbers. -/
def sampleCsvEnv : TextEnv := ⟨fun _ => "1.5".toList, fun _ => some 1, List.length, fun _ => "1.5".toList⟩

/-- Fields with commas, quotes and line ends. -/
example : csvWrite [["a,b".toList, "c".toList], ["say \"x\"".toList, "l\nm".toList]] =
    some "\"a,b\",c\n\"say \"\"x\"\"\",\"l\nm\"\n".toList := by decide +kernel

example : CsvFile ['a', ',', '"', '"', '"', ',', '"', '\r', '\n'] [[['a'], ['"', ',']]] :=
  .line (t := ['a', ',', '"', '"', '"', ',', '"']) (e := ['\r', '\n'])
    (.more (t := ['a']) (.plain (by decide)) (.one (.quoted (t := ['"', '"', ',']) (.quote (.plain ',' (by decide) .nil)))))
    (by decide) .nil

/-- A telegram that decodes. -/
example (aes : AesBlock) : ∃ o, decodeBytes ⟨false, false⟩ aes [0xE5] ⟨none, true⟩ = .ok o ∧
    ∃ text, renderCsv sampleCsvEnv o = some text ∧
      text.take 33 = "schema_version,protocol,frame_kin".toList :=
  ⟨_, by with_unfolding_all rfl, _, by with_unfolding_all rfl, by with_unfolding_all decide +kernel⟩

end MBus
