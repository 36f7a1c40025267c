import Verif.Lemmas.Highlight
/-! C102: the coloured CSV text of the web binding. -/
namespace MBus
open Spec

/-- C102: for every text, whether it is valid CSV or not, the coloured CSV is HTML of text and correctly
nested `span` elements, in which no other element can occur, and it shows the text. -/
theorem C102_shows (source : List Char) : Html (highlightCsv source) source := by
  unfold highlightCsv
  rw [loop_prefix]
  have e : "<span class=\"syn-source syn-csv\">".toList =
    "<span class=\"".toList ++ "syn-source syn-csv".toList ++ "\">".toList := by decide +kernel
  rw [e]
  exact html_span "syn-source syn-csv".toList _ _ (by decide) (html_loop source [] 0 false)

/-- C102: reading the HTML, with tags left out and entities replaced, gives back the text. -/
theorem C102_reads_back (source : List Char) : readHtml false (highlightCsv source) = source := by
  simpa [readHtml] using read_html (C102_shows source) []

/-- C102: different texts are shown differently. -/
theorem C102_injective (a b : List Char) (h : highlightCsv a = highlightCsv b) : a = b := by
  rw [← C102_reads_back a, h, C102_reads_back b]

/-- C102: in a CSV file each cell gets the class of its column, and each separating comma the class of
delimiters: commas and line ends inside quotes do not count, and each line begins at column 0. -/
theorem C102_columns (lines : List (List (List Char) × List Char)) (last : List (List Char))
    (hlines : ∀ l ∈ lines, l.1 ≠ [] ∧ (∀ c ∈ l.1, CsvCell c) ∧ l.2 ∈ [['\n'], ['\r', '\n']])
    (hlast : last ≠ []) (hcells : ∀ c ∈ last, CsvCell c) :
    highlightCsv (csvFile lines last) = colouredFile lines last := by
  have e : "<span class=\"syn-source syn-csv\">".toList =
    "<span class=\"".toList ++ "syn-source syn-csv".toList ++ "\">".toList := by decide +kernel
  unfold highlightCsv colouredFile spanOf
  rw [loop_prefix, loop_file lines last hlines hlast hcells, e]

example : highlightCsv "a,\"<b\"\"\n\"\r\nc".toList =
    colouredFile [([['a'], "\"<b\"\"\n\"".toList], ['\r', '\n'])] [['c']] ∧
    (∀ c ∈ [['a'], "\"<b\"\"\n\"".toList], CsvCell c) := by
  have h : ∀ c ∈ [['a'], "\"<b\"\"\n\"".toList], CsvCell c := by
    intro c hc
    simp only [List.mem_cons, List.not_mem_nil, or_false] at hc
    rcases hc with rfl | rfl
    · exact .inl (by decide)
    · exact .inr ⟨['<', 'b', '"', '\n'], by decide⟩
  refine ⟨?_, h⟩
  have := C102_columns [([['a'], "\"<b\"\"\n\"".toList], ['\r', '\n'])] [['c']]
    (by simpa using h) (by simp) (by intro c hc; simp at hc; subst hc; exact .inl (by decide))
  rw [← this]; congr 1

end MBus
