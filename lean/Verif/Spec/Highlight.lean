import Verif.Model.Base
/-! What HTML shows, and what the cells of a CSV text are. -/
namespace MBus.Spec

/-- `Html source shown`: `source` is HTML made of text and of correctly nested `span` elements, and a
browser shows `shown`.  In the text the five special characters are written as entities. -/
inductive Html : List Char → List Char → Prop
  | nil : Html [] []
  | char (c : Char) {h t : List Char} : c ∉ ['&', '<', '>', '"', '\''] → Html h t → Html (c :: h) (c :: t)
  | amp {h t : List Char} : Html h t → Html ("&amp;".toList ++ h) ('&' :: t)
  | lt {h t : List Char} : Html h t → Html ("&lt;".toList ++ h) ('<' :: t)
  | gt {h t : List Char} : Html h t → Html ("&gt;".toList ++ h) ('>' :: t)
  | quot {h t : List Char} : Html h t → Html ("&quot;".toList ++ h) ('"' :: t)
  | apos {h t : List Char} : Html h t → Html ("&#39;".toList ++ h) ('\'' :: t)
  | span (cls : List Char) {inner s h t : List Char} : (∀ c ∈ cls, c ∉ ['&', '<', '>', '"']) →
      Html inner s → Html h t →
      Html ("<span class=\"".toList ++ cls ++ "\">".toList ++ inner ++ "</span>".toList ++ h) (s ++ t)

/-- A reader of HTML: it leaves out everything between `<` and `>` and replaces entities. -/
def readHtml (inTag : Bool) : List Char → List Char
  | [] => []
  | '<' :: rest => readHtml true rest
  | '>' :: rest => readHtml false rest
  | '&' :: 'a' :: 'm' :: 'p' :: ';' :: rest =>
    if inTag then readHtml inTag rest else '&' :: readHtml inTag rest
  | '&' :: 'l' :: 't' :: ';' :: rest => if inTag then readHtml inTag rest else '<' :: readHtml inTag rest
  | '&' :: 'g' :: 't' :: ';' :: rest => if inTag then readHtml inTag rest else '>' :: readHtml inTag rest
  | '&' :: 'q' :: 'u' :: 'o' :: 't' :: ';' :: rest =>
    if inTag then readHtml inTag rest else '"' :: readHtml inTag rest
  | '&' :: '#' :: '3' :: '9' :: ';' :: rest =>
    if inTag then readHtml inTag rest else '\'' :: readHtml inTag rest
  | c :: rest => if inTag then readHtml inTag rest else c :: readHtml inTag rest

/-- The text of a cell of a CSV file: without commas, quotes and line ends, or enclosed in quotes, with
the quotes in it doubled. -/
def CsvCell (cell : List Char) : Prop :=
  (∀ c ∈ cell, c ∉ [',', '"', '\n', '\r']) ∨
  ∃ body : List Char, cell = '"' :: body.flatMap (fun c => if c = '"' then ['"', '"'] else [c]) ++ ['"']

/-- A line of a CSV file: its cells, separated by commas. -/
def csvLine (cells : List (List Char)) : List Char := [','].intercalate cells

/-- A CSV file: lines with their ends, and a last line without. -/
def csvFile (lines : List (List (List Char) × List Char)) (last : List (List Char)) : List Char :=
  lines.flatMap (fun (cells, stop) => csvLine cells ++ stop) ++ csvLine last

/-- The HTML of a class and its contents. -/
def spanOf (cls inner : List Char) : List Char :=
  "<span class=\"".toList ++ cls ++ "\">".toList ++ inner ++ "</span>".toList

/-- The text with the five special characters written as entities. -/
def entities (text : List Char) : List Char :=
  text.flatMap (fun c => match c with
    | '&' => "&amp;".toList
    | '<' => "&lt;".toList
    | '>' => "&gt;".toList
    | '"' => "&quot;".toList
    | '\'' => "&#39;".toList
    | c => [c])

/-- A line in colour: each cell has the class of its column, the columns having eight colours in turn, and
each separating comma the class of delimiters. -/
def colouredLine (cells : List (List Char)) : List Char :=
  (spanOf "syn-punctuation syn-csv-delimiter".toList [',']).intercalate
    (cells.zipIdx.map (fun (cell, i) =>
      spanOf ("syn-csv-column syn-csv-column-".toList ++ [Char.ofNat (48 + i % 8)]) (entities cell)))

/-- A file in colour. -/
def colouredFile (lines : List (List (List Char) × List Char)) (last : List (List Char)) : List Char :=
  spanOf "syn-source syn-csv".toList
    (lines.flatMap (fun (cells, stop) => colouredLine cells ++ stop) ++ colouredLine last)

end MBus.Spec
