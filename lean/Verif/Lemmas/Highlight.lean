import Verif.Lemmas.Base
import Verif.Model.Highlight
import Verif.Spec.Highlight
/-! Lemmas for C102. -/
namespace MBus
open Spec

theorem html_append {h t h' t' : List Char} (a : Html h t) (b : Html h' t') : Html (h ++ h') (t ++ t') := by
  induction a with
  | nil => exact b
  | char c hc _ ih => exact .char c hc ih
  | amp _ ih => simpa [List.append_assoc] using Html.amp ih
  | lt _ ih => simpa [List.append_assoc] using Html.lt ih
  | gt _ ih => simpa [List.append_assoc] using Html.gt ih
  | quot _ ih => simpa [List.append_assoc] using Html.quot ih
  | apos _ ih => simpa [List.append_assoc] using Html.apos ih
  | span cls hc hi _ _ ih =>
    rw [List.append_assoc _ _ h', List.append_assoc _ _ t']
    exact Html.span cls hc hi ih

theorem html_escaped (s : List Char) : Html (escapedHtml s) s := by
  induction s with
  | nil => exact .nil
  | cons c s ih =>
    unfold escapedHtml at *
    rw [List.flatMap_cons]
    unfold escapeHtmlChar
    split
    · subst_vars; exact .amp ih
    split
    · subst_vars; exact .lt ih
    split
    · subst_vars; exact .gt ih
    split
    · subst_vars; exact .quot ih
    split
    · subst_vars; exact .apos ih
    · exact .char c (by simp_all) ih

theorem html_span (cls : List Char) (inner s : List Char) (hc : ∀ c ∈ cls, c ∉ ['&', '<', '>', '"'])
    (h : Html inner s) : Html (spanOf cls inner) s := by
  have := Html.span cls hc h .nil
  rw [List.append_nil, List.append_nil] at this
  exact this

theorem field_eq (f : List Char) (col : Nat) : csvFieldHtml f col =
    spanOf ("syn-csv-column syn-csv-column-".toList ++ natText (col % 8)) (escapedHtml f) := by
  have : "<span class=\"syn-csv-column syn-csv-column-".toList =
    "<span class=\"".toList ++ "syn-csv-column syn-csv-column-".toList := by decide +kernel
  unfold csvFieldHtml spanOf
  rw [this]
  simp only [List.append_assoc]

theorem natText_mod8 (n : Nat) : natText (n % 8) = [Char.ofNat (48 + n % 8)] := by
  have : n % 8 < 8 := Nat.mod_lt _ (by omega)
  generalize n % 8 = k at *
  interval_cases k <;> decide

theorem html_field (f : List Char) (col : Nat) : Html (csvFieldHtml f col) f := by
  rw [field_eq]
  refine html_span _ _ _ ?_ (html_escaped f)
  rw [natText_mod8]
  have : col % 8 < 8 := Nat.mod_lt _ (by omega)
  generalize col % 8 = k at *
  interval_cases k <;> decide

theorem html_delimiter : Html csvDelimiterHtml [','] :=
  html_span "syn-punctuation syn-csv-delimiter".toList _ _ (by decide) (.char ',' (by decide) .nil)

theorem html_plain (c : Char) (h : c ∉ ['&', '<', '>', '"', '\'']) : Html [c] [c] := .char c h .nil

theorem loop_prefix (src : List Char) : ∀ (html field : List Char) (col : Nat) (q : Bool),
    highlightLoop src html field col q = html ++ highlightLoop src [] field col q := by
  induction hn : src.length using Nat.strong_induction_on generalizing src with
  | _ n ih =>
    intro html field col q
    cases src with
    | nil => rw [highlightLoop, highlightLoop]; rfl
    | cons c rest =>
      have i1 := ih rest.length (by simp at hn; omega) rest rfl
      have i2 := ih rest.tail.length (by simp at hn ⊢; omega) rest.tail rfl
      rw [highlightLoop]
      conv => rhs; rw [highlightLoop]
      split
      · split
        · exact i2 _ _ _ _
        · exact i1 _ _ _ _
      split
      · rw [i1]; conv => rhs; rw [i1]
        simp [List.append_assoc]
      split
      · rw [i2]; conv => rhs; rw [i2]
        simp [List.append_assoc]
      split
      · rw [i1]; conv => rhs; rw [i1]
        simp [List.append_assoc]
      · exact i1 _ _ _ _

theorem head_cons {rest : List Char} {c : Char} (h : rest.head? = some c) : rest = c :: rest.tail := by
  cases rest with
  | nil => cases h
  | cons a r => simp at h; simp [h]

theorem html_loop (src : List Char) : ∀ (field : List Char) (col : Nat) (q : Bool),
    Html (highlightLoop src [] field col q) (field ++ src) := by
  induction hn : src.length using Nat.strong_induction_on generalizing src with
  | _ n ih =>
    intro field col q
    cases src with
    | nil => rw [highlightLoop]; simpa using html_field field col
    | cons c rest =>
      have i1 := ih rest.length (by simp at hn; omega) rest rfl
      have i2 := ih rest.tail.length (by simp at hn ⊢; omega) rest.tail rfl
      rw [highlightLoop]
      split
      · split
        · rename_i h1 h2
          have := i2 (field ++ [c, '"']) col q
          rw [List.append_assoc, List.cons_append, List.cons_append, List.nil_append, ← head_cons h2.2] at this
          exact this
        · simpa [List.append_assoc] using i1 (field ++ [c]) col (!q)
      split
      · rename_i h
        rw [loop_prefix, h.1]
        have := html_append (html_append (html_field field col) html_delimiter) (i1 [] (col + 1) q)
        simpa [List.append_assoc] using this
      split
      · rename_i h
        rw [loop_prefix, h.1]
        have := html_append (html_append (html_field field col)
          (html_append (html_plain '\r' (by decide)) (html_plain '\n' (by decide)))) (i2 [] 0 q)
        rw [head_cons h.2.2]
        simpa [List.append_assoc] using this
      split
      · rename_i h
        rw [loop_prefix]
        have := html_append (html_append (html_field field col) (html_plain c (by
          rcases h.1 with rfl | rfl <;> decide))) (i1 [] 0 q)
        simpa [List.append_assoc] using this
      · simpa [List.append_assoc] using i1 (field ++ [c]) col q

/-! ## The reader -/

theorem read_span_open (cls rest : List Char) (h : ∀ c ∈ cls, c ∉ ['&', '<', '>', '"']) :
    readHtml true (cls ++ '"' :: '>' :: rest) = readHtml false rest := by
  induction cls with
  | nil => simp [readHtml]
  | cons c cls ih =>
    have hc := h c (by simp)
    simp only [List.mem_cons, List.not_mem_nil, or_false, not_or] at hc
    have ih := ih (fun x hx => h x (by simp [hx]))
    rw [List.cons_append, ← ih]
    generalize cls ++ '"' :: '>' :: rest = r
    conv => lhs; unfold readHtml
    split <;> simp_all

theorem read_html {h t : List Char} (a : Html h t) : ∀ rest, readHtml false (h ++ rest) = t ++ readHtml false rest := by
  induction a with
  | nil => intro rest; rfl
  | @char c h t hc _ ih =>
    intro rest
    simp only [List.mem_cons, List.not_mem_nil, or_false, not_or] at hc
    rw [List.cons_append, List.cons_append, ← ih rest]
    generalize h ++ rest = r
    conv => lhs; unfold readHtml
    split <;> simp_all
  | amp _ ih => intro rest; simp [readHtml, ih]
  | lt _ ih => intro rest; simp [readHtml, ih]
  | gt _ ih => intro rest; simp [readHtml, ih]
  | quot _ ih => intro rest; simp [readHtml, ih]
  | apos _ ih => intro rest; simp [readHtml, ih]
  | @span cls inner s h t hc _ _ ih1 ih2 =>
    intro rest
    have e : "<span class=\"".toList ++ cls ++ "\">".toList ++ inner ++ "</span>".toList ++ h ++ rest =
      "<span class=\"".toList ++ (cls ++ '"' :: '>' :: (inner ++ ("</span>".toList ++ (h ++ rest)))) := by
      simp [List.append_assoc]
    rw [e]
    have e2 : ∀ l, readHtml false ("<span class=\"".toList ++ l) = readHtml true l := by
      intro l; simp [readHtml]
    rw [e2, read_span_open _ _ hc, ih1]
    have e3 : ∀ l, readHtml false ("</span>".toList ++ l) = readHtml false l := by
      intro l; simp [readHtml]
    rw [e3, ih2, List.append_assoc]

/-! ## Cells -/

theorem loop_plain (f rest field : List Char) (col : Nat) (h : ∀ c ∈ f, c ∉ [',', '"', '\n', '\r']) :
    highlightLoop (f ++ rest) [] field col false = highlightLoop rest [] (field ++ f) col false := by
  induction f generalizing field with
  | nil => simp
  | cons c f ih =>
    have hc := h c (by simp)
    simp only [List.mem_cons, List.not_mem_nil, or_false, not_or] at hc
    rw [List.cons_append, highlightLoop]
    simp only [hc.1, hc.2.1, hc.2.2.1, hc.2.2.2, if_false, false_and, false_or]
    rw [ih _ (fun x hx => h x (by simp [hx]))]
    simp [List.append_assoc]

theorem loop_body (body rest field : List Char) (col : Nat) :
    highlightLoop (body.flatMap (fun c => if c = '"' then ['"', '"'] else [c]) ++ rest) [] field col true =
    highlightLoop rest [] (field ++ body.flatMap (fun c => if c = '"' then ['"', '"'] else [c])) col true := by
  induction body generalizing field with
  | nil => simp
  | cons c body ih =>
    rw [List.flatMap_cons]
    by_cases hc : c = '"'
    · subst hc
      simp only [if_true, List.cons_append, List.nil_append]
      rw [highlightLoop]
      simp only [if_true, List.head?_cons, true_and, List.tail_cons]
      rw [ih]; simp [List.append_assoc]
    · simp only [hc, if_false, List.cons_append, List.nil_append]
      rw [highlightLoop]
      simp only [hc, if_false, Bool.true_eq_false, and_false, false_and]
      rw [ih]; simp [List.append_assoc]

theorem loop_cell (cell rest : List Char) (col : Nat) (h : CsvCell cell) (hr : rest.head? ≠ some '"') :
    highlightLoop (cell ++ rest) [] [] col false = highlightLoop rest [] cell col false := by
  rcases h with h | ⟨body, rfl⟩
  · simpa using loop_plain cell rest [] col h
  · rw [List.cons_append, List.cons_append, List.append_assoc, highlightLoop]
    simp only [if_true, Bool.false_eq_true, false_and, if_false, Bool.not_false, List.nil_append]
    rw [loop_body]
    rw [List.cons_append, List.nil_append, highlightLoop]
    simp [hr]

theorem escaped_entities (s : List Char) : escapedHtml s = entities s := by
  unfold escapedHtml entities
  congr 1
  funext c
  unfold escapeHtmlChar
  split
  · simp_all
  split
  · simp_all
  split
  · simp_all
  split
  · simp_all
  split
  · simp_all
  · split <;> simp_all

/-- A line in colour, the columns counted from `i`. -/
def lineFrom (i : Nat) (cells : List (List Char)) : List Char :=
  (spanOf "syn-punctuation syn-csv-delimiter".toList [',']).intercalate
    ((cells.zipIdx i).map (fun (cell, i) =>
      spanOf ("syn-csv-column syn-csv-column-".toList ++ [Char.ofNat (48 + i % 8)]) (entities cell)))

theorem field_span (f : List Char) (col : Nat) : csvFieldHtml f col =
    spanOf ("syn-csv-column syn-csv-column-".toList ++ [Char.ofNat (48 + col % 8)]) (entities f) := by
  rw [field_eq, natText_mod8, escaped_entities]

/-- What follows a line. -/
def LineEnd (rest : List Char) (next : List Char) : Prop :=
  (rest = [] ∧ next = []) ∨
  (∃ r, (rest = '\n' :: r ∧ next = '\n' :: highlightLoop r [] [] 0 false) ∨
    (rest = '\r' :: '\n' :: r ∧ next = '\r' :: '\n' :: highlightLoop r [] [] 0 false))

theorem loop_end (rest next field : List Char) (col : Nat) (h : LineEnd rest next) :
    highlightLoop rest [] field col false = csvFieldHtml field col ++ next ∧ rest.head? ≠ some '"' := by
  rcases h with ⟨rfl, rfl⟩ | ⟨r, ⟨rfl, rfl⟩ | ⟨rfl, rfl⟩⟩
  · rw [highlightLoop]; simp
  · rw [highlightLoop]
    simp only [Char.reduceEq, if_false, false_and, true_or, true_and, if_true, List.nil_append]
    rw [loop_prefix]; simp
  · rw [highlightLoop]
    simp only [Char.reduceEq, if_false, false_and, true_and, List.head?_cons, if_true, List.nil_append,
      List.tail_cons]
    rw [loop_prefix]; simp

theorem loop_line (cells : List (List Char)) (hne : cells ≠ []) (h : ∀ c ∈ cells, CsvCell c)
    (rest next : List Char) (hr : LineEnd rest next) (col : Nat) :
    highlightLoop (csvLine cells ++ rest) [] [] col false = lineFrom col cells ++ next := by
  induction cells generalizing col with
  | nil => exact absurd rfl hne
  | cons a cells ih =>
    cases cells with
    | nil =>
      obtain ⟨e1, e2⟩ := loop_end rest next a col hr
      simp only [csvLine, List.intercalate, List.intersperse_singleton, List.flatten_cons, List.flatten_nil,
        List.append_nil]
      rw [loop_cell a rest col (h a (by simp)) e2, e1, field_span]
      simp [lineFrom, List.intercalate]
    | cons b cells =>
      have ih := ih (by simp) (fun c hc => h c (by simp [hc])) (col + 1)
      have e : csvLine (a :: b :: cells) ++ rest = a ++ (',' :: (csvLine (b :: cells) ++ rest)) := by
        simp [csvLine, List.intercalate, List.append_assoc]
      rw [e, loop_cell a _ col (h a (by simp)) (by simp), highlightLoop]
      simp only [Char.reduceEq, if_false, true_and, if_true, List.nil_append]
      rw [loop_prefix, ih, field_span]
      have ed : csvDelimiterHtml = spanOf "syn-punctuation syn-csv-delimiter".toList [','] := by decide
      rw [ed]
      simp [lineFrom, List.intercalate, List.append_assoc]

theorem loop_file (lines : List (List (List Char) × List Char)) (last : List (List Char))
    (hl : ∀ l ∈ lines, l.1 ≠ [] ∧ (∀ c ∈ l.1, CsvCell c) ∧ l.2 ∈ [['\n'], ['\r', '\n']])
    (hlast : last ≠ []) (hc : ∀ c ∈ last, CsvCell c) :
    highlightLoop (csvFile lines last) [] [] 0 false =
      lines.flatMap (fun (cells, stop) => colouredLine cells ++ stop) ++ colouredLine last := by
  induction lines with
  | nil =>
    have := loop_line last hlast hc [] [] (.inl ⟨rfl, rfl⟩) 0
    simpa [csvFile, lineFrom, colouredLine] using this
  | cons l lines ih =>
    obtain ⟨cells, stop⟩ := l
    obtain ⟨h1, h2, h3⟩ := hl (cells, stop) (by simp)
    have ih := ih (fun l h => hl l (by simp [h]))
    have e : csvFile ((cells, stop) :: lines) last = csvLine cells ++ (stop ++ csvFile lines last) := by
      simp [csvFile, List.append_assoc]
    have := loop_line cells h1 h2 (stop ++ csvFile lines last)
      (stop ++ highlightLoop (csvFile lines last) [] [] 0 false) (by
        simp only [List.mem_cons, List.not_mem_nil, or_false] at h3
        rcases h3 with rfl | rfl
        · exact .inr ⟨_, .inl ⟨rfl, rfl⟩⟩
        · exact .inr ⟨_, .inr ⟨rfl, rfl⟩⟩) 0
    rw [e, this, ih]
    simp [lineFrom, colouredLine, List.append_assoc]

end MBus
