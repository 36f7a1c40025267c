import Verif.Spec.Render
import Verif.Props.OutputRecords
/-!
# Properties of the table, CSV and Mermaid renderings
-/
namespace MBus
open Spec

/-! ## C51: tables -/

theorem wrapChars_spec (env : TextEnv) (width : Nat) (hn : ∀ c, charW env c ≤ width) (cs : List Char) :
    ∀ line, displayWidth (charW env) line ≤ width →
      let r := wrapChars env width cs line (displayWidth (charW env) line)
      Broken (charW env) width (line ++ cs) r ∧ ∃ t, r.head? = some (line ++ t) := by
  induction cs with
  | nil =>
    intro line hl
    refine ⟨⟨by simp [wrapChars], by simp [wrapChars], by simpa [wrapChars] using hl, ?_⟩, [], ?_⟩
    · intro i a b h1 h2; simp [wrapChars] at h2
    · simp [wrapChars]
  | cons c rest ih =>
    intro line hl
    simp only [wrapChars]
    have hc : (env.charWidth c).getD 0 = charW env c := rfl
    have h1 : displayWidth (charW env) [c] = charW env c := by simp [displayWidth]
    have h2 : displayWidth (charW env) (line ++ [c]) = displayWidth (charW env) line + charW env c := by
      simp [displayWidth]
    rw [hc]
    split
    · rename_i hb
      obtain ⟨⟨g1, g2, g3, g4⟩, t, g5⟩ := ih [c] (by rw [h1]; exact hn c)
      rw [h1] at g1 g2 g3 g4 g5
      refine ⟨⟨?_, by simp, ?_, ?_⟩, [], by simp⟩
      · rw [List.flatten_cons, g1]; simp
      · intro l hl'
        rcases List.mem_cons.1 hl' with rfl | hl'
        · exact hl
        · exact g3 l hl'
      · intro i a b ha hb'
        cases i with
        | zero =>
          simp only [List.getElem?_cons_zero, Option.some.injEq, Nat.zero_add, List.getElem?_cons_succ] at ha hb'
          subst ha
          rw [List.head?_eq_getElem?] at g5
          rw [g5] at hb'
          cases hb'
          exact ⟨c, t, rfl, hb.2⟩
        | succ i => exact g4 i a b (by simpa using ha) (by simpa using hb')
    · rename_i hb
      have hfit : displayWidth (charW env) (line ++ [c]) ≤ width := by
        rw [h2]
        have := hn c
        by_cases h0 : displayWidth (charW env) line = 0
        · omega
        · have := fun h => hb ⟨h0, h⟩
          omega
      obtain ⟨⟨g1, g2, g3, g4⟩, t, g5⟩ := ih (line ++ [c]) hfit
      rw [h2] at g1 g2 g3 g4 g5
      exact ⟨⟨by rw [g1]; simp, g2, g3, g4⟩, c :: t, by rw [g5]; simp⟩

theorem splitLines_spec (text : List Char) : splitLines text ≠ [] ∧
    text = ['\n'].intercalate (splitLines text) ∧ ∀ s ∈ splitLines text, '\n' ∉ s := by
  induction text with
  | nil => simp [splitLines, List.intercalate]
  | cons c rest ih =>
    obtain ⟨h1, h2, h3⟩ := ih
    unfold splitLines
    split
    · rename_i hc
      subst hc
      refine ⟨by simp, ?_, by simpa using h3⟩
      cases hs : splitLines rest with
      | nil => exact absurd hs h1
      | cons l ls =>
        rw [hs] at h2
        rw [h2]
        simp [List.intercalate]
    · rename_i hc
      cases hs : splitLines rest with
      | nil => exact absurd hs h1
      | cons l ls =>
        rw [hs] at h2 h3
        refine ⟨by simp, ?_, ?_⟩
        · rw [h2]
          cases ls <;> simp [List.intercalate]
        · intro s hsm
          rcases List.mem_cons.1 hsm with rfl | hsm
          · have := h3 l (by simp)
            simp only [List.mem_cons, not_or]
            exact ⟨fun h => hc h.symm, this⟩
          · exact h3 s (by simp [hsm])

/-- C51: a text is wrapped without losing a character, every line fits the width, and lines are broken
only where necessary. -/
theorem C51_wrap (env : TextEnv) (text : List Char) (width : Nat) (hw : 0 < width)
    (hn : ∀ c, charW env c ≤ width) : Wrapped (charW env) width text (wrapDisplay env text width) := by
  obtain ⟨_, h2, h3⟩ := splitLines_spec text
  unfold wrapDisplay
  rw [if_neg (by omega)]
  refine ⟨splitLines text, (splitLines text).map
    (fun line => if line = [] then [[]] else wrapChars env width line [] 0), h2, h3, ?_, ?_⟩
  · rw [List.flatMap_def]
  · rw [List.forall₂_map_right_iff, List.forall₂_same]
    intro s _
    split
    · rename_i h
      subst h
      refine ⟨rfl, by simp, by simp [displayWidth], ?_⟩
      intro i a b h1 h2; simp at h2
    · have := wrapChars_spec env width hn s [] (by simp [displayWidth])
      simpa [displayWidth] using this.1

/-- C51: without the assumption that a text is as wide as its characters, lines can be too wide: a control
character has no width by itself, so wrapping never breaks between control characters, however wide the
library says their text is. -/
theorem C51_control_fails (env : TextEnv) (c : Char) (hc : env.charWidth c = none) (hne : c ≠ '\n')
    (width : Nat) (hw : 0 < width) (n : Nat) (hn : 0 < n) :
    wrapDisplay env (List.replicate n c) width = [List.replicate n c] := by
  have h1 : ∀ n line, wrapChars env width (List.replicate n c) line 0 = [line ++ List.replicate n c] := by
    intro n
    induction n with
    | zero => intro line; simp [wrapChars]
    | succ n ih => intro line; simp [List.replicate_succ, wrapChars, hc, ih]
  have h2 : ∀ n, splitLines (List.replicate n c) = [List.replicate n c] := by
    intro n
    induction n with
    | zero => rfl
    | succ n ih => rw [List.replicate_succ, splitLines, if_neg hne, ih]
  unfold wrapDisplay
  rw [if_neg (by omega), h2]
  simp [h1, show n ≠ 0 by omega]

theorem wrapped_fits {w : Char → Nat} {width : Nat} {text : List Char} {lines : List (List Char)}
    (h : Wrapped w width text lines) : ∀ l ∈ lines, displayWidth w l ≤ width := by
  obtain ⟨source, groups, _, _, h1, h2⟩ := h
  subst h1
  clear * - h2
  induction h2 with
  | nil => simp
  | cons hb _ ih =>
    intro l hl
    rw [List.flatten_cons, List.mem_append] at hl
    rcases hl with hl | hl
    · exact hb.fits l hl
    · exact ih l hl

theorem wrapped_no_newline {w : Char → Nat} {width : Nat} {text : List Char} {lines : List (List Char)}
    (h : Wrapped w width text lines) : ∀ l ∈ lines, '\n' ∉ l := by
  obtain ⟨source, groups, h4, h3, h1, h2⟩ := h
  subst h1
  clear h4
  induction h2 with
  | nil => simp
  | cons hb _ ih =>
    rename_i s _ _ _ _
    intro l hl
    rw [List.flatten_cons, List.mem_append] at hl
    rcases hl with hl | hl
    · intro hc
      refine h3 s (by simp) ?_
      rw [← hb.all]
      exact List.mem_flatten.2 ⟨l, hl, hc⟩
    · exact ih (fun s hs => h3 s (by simp [hs])) l hl

theorem displayWidth_append (w : Char → Nat) (a b : List Char) :
    displayWidth w (a ++ b) = displayWidth w a + displayWidth w b := by simp [displayWidth]

theorem displayWidth_replicate (w : Char → Nat) (n : Nat) (c : Char) :
    displayWidth w (List.replicate n c) = n * w c := by simp [displayWidth]

theorem displayWidth_cons (w : Char → Nat) (c : Char) (b : List Char) :
    displayWidth w (c :: b) = w c + displayWidth w b := by simp [displayWidth]

/-- The width of a table with the given columns. -/
def tableWidth (widths : List Nat) : Nat := 1 + (widths.map (· + 3)).sum

theorem Spec.SaneWidths.blank {env : TextEnv} (h : SaneWidths env) : charW env ' ' = 1 :=
  h.ascii ' ' (by decide) (by decide)
theorem Spec.SaneWidths.bar {env : TextEnv} (h : SaneWidths env) : charW env '│' = 1 :=
  h.box '│' (by decide)

theorem le_height (l : List Nat) (x : Nat) (h : x ∈ l) : x ≤ l.max?.getD 1 := by
  cases hm : l.max? with
  | none => rw [List.max?_eq_none_iff] at hm; subst hm; simp at h
  | some m => exact (List.max?_eq_some_iff.1 hm).2 x h

theorem zip_zipIdx {α β : Type} (f : α × Nat → β) (l : List α) :
    (l.zipIdx.map f).zip l = l.zipIdx.map (fun p => (f p, p.1)) := by
  have h : (l.zipIdx.map f).zip l = (l.zipIdx.map f).zip (l.zipIdx.map Prod.fst) := by
    rw [List.zipIdx_map_fst]
  rw [h, List.zip_map']

/-- C51: a row of a table shows, column by column, the lines of its wrapped cells, padded with blanks. -/
theorem C51_row (env : TextEnv) (hs : SaneWidths env) (cells : List (List Char)) (widths : List Nat)
    (hw : ∀ w ∈ widths, 2 ≤ w) : TableRow (charW env) cells widths (rowLines env cells widths) := by
  refine ⟨widths.zipIdx.map (fun (w, i) => wrapDisplay env (cells[i]?.getD []) w), by simp, ?_, ?_⟩
  · intro i w hi
    refine ⟨wrapDisplay env (cells[i]?.getD []) w, by simp [hi], ?_, ?_⟩
    · simp only [rowLines, List.length_map, List.length_range]
      apply le_height
      rw [List.mem_map]
      refine ⟨_, ?_, rfl⟩
      rw [List.mem_map]
      exact ⟨(w, i), by rw [List.mk_mem_zipIdx_iff_getElem?]; exact hi, rfl⟩
    · have h2 := hw w (List.mem_of_getElem? hi)
      exact C51_wrap env _ w (by omega) (fun c => (hs.narrow c).trans h2)
  · intro k line hk
    simp only [rowLines, List.getElem?_map, Option.map_eq_some_iff] at hk
    obtain ⟨k', hk', rfl⟩ := hk
    have : k' = k := by
      rw [List.getElem?_eq_some_iff] at hk'
      obtain ⟨_, h⟩ := hk'
      rw [List.getElem_range] at h
      exact h.symm
    subst this
    unfold tableLine
    rw [zip_zipIdx, List.map_map, List.flatMap_map]
    congr 1
    apply List.flatMap_congr
    rintro ⟨w, i⟩ hp
    rw [List.mk_mem_zipIdx_iff_getElem?] at hp
    simp [hp, hs.additive]

/-- C51: every line of a row is as wide as the table. -/
theorem C51_row_width (env : TextEnv) (hs : SaneWidths env) (cells : List (List Char))
    (widths : List Nat) (hw : ∀ w ∈ widths, 2 ≤ w) :
    ∀ line ∈ rowLines env cells widths, displayWidth (charW env) line = tableWidth widths := by
  intro line hl
  obtain ⟨columns, h1, h2, h3⟩ := C51_row env hs cells widths hw
  obtain ⟨k, hk⟩ := List.mem_iff_getElem?.1 hl
  rw [h3 k line hk]
  have hcol : ∀ p ∈ columns.zip widths, displayWidth (charW env) (p.1[k]?.getD []) ≤ p.2 := by
    intro p hp
    obtain ⟨i, hi⟩ := List.mem_iff_getElem?.1 hp
    rw [List.getElem?_zip_eq_some] at hi
    obtain ⟨lines, h4, _, h5⟩ := h2 i p.2 hi.2
    rw [hi.1] at h4
    cases h4
    cases hx : p.1[k]? with
    | none => simp [displayWidth]
    | some v => exact wrapped_fits h5 v (List.mem_of_getElem? hx)
  have hsum : ∀ l : List (List (List Char) × Nat),
      (∀ p ∈ l, displayWidth (charW env) (p.1[k]?.getD []) ≤ p.2) →
      displayWidth (charW env) ((l.map (fun (lines, w) =>
          (lines[k]?.getD [], w - displayWidth (charW env) (lines[k]?.getD [])))).flatMap
        (fun (v, pad) => [' '] ++ v ++ List.replicate pad ' ' ++ [' ', '│'])) =
      ((l.map (·.2)).map (· + 3)).sum := by
    intro l
    induction l with
    | nil => intro _; simp [displayWidth]
    | cons p l ih =>
      intro h
      have hp := h p (by simp)
      simp only [List.map_cons, List.flatMap_cons, displayWidth_append, List.sum_cons,
        displayWidth_replicate, displayWidth_cons, hs.blank, hs.bar] at ih ⊢
      rw [ih (fun q hq => h q (by simp [hq]))]
      simp only [displayWidth, List.map_nil, List.sum_nil] at hp ⊢
      omega
  unfold tableLine tableWidth
  rw [displayWidth_cons, hs.bar, hsum _ hcol, List.map_snd_zip (by omega)]

theorem C51_border_width (env : TextEnv) (hs : SaneWidths env) (left middle right : Char)
    (hb : left ∈ "│─┌┬┐├┼┤└┴┘".toList ∧ middle ∈ "│─┌┬┐├┼┤└┴┘".toList ∧ right ∈ "│─┌┬┐├┼┤└┴┘".toList)
    (widths : List Nat) :
    displayWidth (charW env) (borderLine left middle right widths) = tableWidth widths := by
  unfold borderLine tableWidth
  rw [displayWidth_cons, hs.box left hb.1]
  congr 1
  have key : ∀ (l : List Nat) (n m : Nat), displayWidth (charW env) ((l.zipIdx n).flatMap (fun (w, i) =>
    List.replicate (w + 2) '─' ++ [if i + 1 = m then right else middle])) = (l.map (· + 3)).sum := by
    intro l
    induction l with
    | nil => intro _ _; simp [displayWidth]
    | cons w l ih =>
      intro n m
      rw [List.zipIdx_cons, List.flatMap_cons, displayWidth_append, ih, displayWidth_append,
        displayWidth_replicate, hs.box '─' (by decide), displayWidth_cons]
      have : charW env (if n + 1 = m then right else middle) = 1 := by
        split
        · exact hs.box _ hb.2.2
        · exact hs.box _ hb.2.1
      rw [this]
      simp [displayWidth]
  exact key widths 0 _

theorem row_no_newline (env : TextEnv) (hs : SaneWidths env) (cells : List (List Char))
    (widths : List Nat) (hw : ∀ w ∈ widths, 2 ≤ w) : ∀ line ∈ rowLines env cells widths, '\n' ∉ line := by
  intro line hl
  obtain ⟨columns, h1, h2, h3⟩ := C51_row env hs cells widths hw
  obtain ⟨k, hk⟩ := List.mem_iff_getElem?.1 hl
  rw [h3 k line hk, tableLine, List.mem_cons, not_or, List.mem_flatMap]
  refine ⟨by decide, ?_⟩
  rintro ⟨⟨v, pad⟩, hv, hc⟩
  rw [List.mem_map] at hv
  obtain ⟨⟨lines, w⟩, hp, hv⟩ := hv
  obtain ⟨i, hi⟩ := List.mem_iff_getElem?.1 hp
  rw [List.getElem?_zip_eq_some] at hi
  obtain ⟨lines', h4, _, h5⟩ := h2 i w hi.2
  rw [hi.1] at h4
  cases h4
  simp only [Prod.mk.injEq] at hv
  simp only [List.mem_append, List.mem_replicate, List.mem_cons, List.not_mem_nil, or_false] at hc
  rcases hc with ((hc | hc) | ⟨_, hc⟩) | hc | hc
  · exact absurd hc (by decide)
  · rw [← hv.1] at hc
    cases hx : lines[k]? with
    | none => rw [hx] at hc; simp at hc
    | some v' =>
      rw [hx] at hc
      exact wrapped_no_newline h5 v' (List.mem_of_getElem? hx) hc
  · exact absurd hc (by decide)
  · exact absurd hc (by decide)
  · exact absurd hc (by decide)

theorem border_no_newline (left middle right : Char)
    (hb : left ∈ "│─┌┬┐├┼┤└┴┘".toList ∧ middle ∈ "│─┌┬┐├┼┤└┴┘".toList ∧ right ∈ "│─┌┬┐├┼┤└┴┘".toList)
    (widths : List Nat) : '\n' ∉ borderLine left middle right widths := by
  have hn : ∀ c ∈ "│─┌┬┐├┼┤└┴┘".toList, '\n' ≠ c := by decide
  unfold borderLine
  rw [List.mem_cons, not_or, List.mem_flatMap]
  refine ⟨hn _ hb.1, ?_⟩
  rintro ⟨⟨w, i⟩, _, hc⟩
  simp only [List.mem_append, List.mem_replicate, List.mem_singleton] at hc
  rcases hc with ⟨_, hc⟩ | hc
  · exact absurd hc (by decide)
  · split at hc
    · exact hn _ hb.2.2 hc
    · exact hn _ hb.2.1 hc

/-- The lines of a box have the same width and are single lines. -/
theorem box_lines (env : TextEnv) (hs : SaneWidths env) (headers : List (List Char))
    (rows : List (List (List Char))) (widths : List Nat) (hw : ∀ w ∈ widths, 2 ≤ w) :
    ∀ line ∈ boxTable env headers rows widths,
      displayWidth (charW env) line = tableWidth widths ∧ '\n' ∉ line := by
  have hrow : ∀ cells, ∀ line ∈ rowLines env cells widths,
      displayWidth (charW env) line = tableWidth widths ∧ '\n' ∉ line := fun cells line hl =>
    ⟨C51_row_width env hs cells widths hw line hl, row_no_newline env hs cells widths hw line hl⟩
  have hb : ∀ l m r, (l ∈ "│─┌┬┐├┼┤└┴┘".toList ∧ m ∈ "│─┌┬┐├┼┤└┴┘".toList ∧
      r ∈ "│─┌┬┐├┼┤└┴┘".toList) → displayWidth (charW env) (borderLine l m r widths) = tableWidth widths ∧
      '\n' ∉ borderLine l m r widths := fun l m r h =>
    ⟨C51_border_width env hs l m r h widths, border_no_newline l m r h widths⟩
  intro line hl
  simp only [boxTable, List.mem_append, List.mem_singleton, List.mem_flatMap] at hl
  rcases hl with (((rfl | hl) | rfl) | ⟨⟨row, i⟩, _, hl⟩) | rfl
  · exact hb _ _ _ (by decide)
  · exact hrow _ _ hl
  · exact hb _ _ _ (by decide)
  · simp only at hl
    rcases hl with hl | hl
    · exact hrow _ _ hl
    · split at hl
      · rw [List.mem_singleton] at hl
        subst hl
        exact hb _ _ _ (by decide)
      · simp at hl
  · exact hb _ _ _ (by decide)

theorem keyValue_lines (env : TextEnv) (hs : SaneWidths env) (rows : List (List Char × List Char))
    (width : Nat) (hw : 32 ≤ width) : ∀ line ∈ keyValueBox env rows width,
      displayWidth (charW env) line = width ∧ '\n' ∉ line := by
  intro line hl
  have := box_lines env hs _ _ _ (by
    intro w hw
    simp only [List.mem_cons, List.not_mem_nil, or_false] at hw
    omega) line hl
  refine ⟨this.1.trans ?_, this.2⟩
  simp only [tableWidth, List.map_cons, List.map_nil, List.sum_cons, List.sum_nil]
  omega

theorem digits_width (env : TextEnv) (hs : SaneWidths env) (n : Nat) :
    displayWidth (charW env) (natText n) = (natText n).length := by
  have : ∀ c ∈ natText n, charW env c = 1 := by
    intro c hc
    rw [natText, toDigits_eq] at hc
    obtain ⟨h1, h2⟩ := decimal_digits n c hc
    have h1 : 48 ≤ c.toNat := h1
    have h2 : c.toNat ≤ 57 := h2
    exact hs.ascii c (by omega) (by omega)
  generalize natText n = l at this
  induction l with
  | nil => rfl
  | cons x l ih =>
    rw [displayWidth_cons, this x (by simp), ih (fun c hc => this c (by simp [hc])), List.length_cons]
    omega

theorem natText_no_newline (n : Nat) : '\n' ∉ natText n := by
  intro hc
  rw [natText, toDigits_eq] at hc
  exact absurd (decimal_digits n _ hc) (by decide)

theorem recordSection_lines (env : TextEnv) (hs : SaneWidths env) (records : List RecordOutput)
    (hi : ∀ r ∈ records, r.index < 10 ^ 20) (width : Nat) (hw : 32 ≤ width) :
    ∀ line ∈ recordSection env records width,
      displayWidth (charW env) line ≤ width ∧ '\n' ∉ line := by
  intro line hl
  unfold recordSection at hl
  split at hl
  · simp at hl
  split at hl
  · have := box_lines env hs _ _ _ (by
      intro w hw
      simp only [List.mem_cons, List.not_mem_nil, or_false] at hw
      omega) line hl
    refine ⟨this.1.trans_le ?_, this.2⟩
    simp only [tableWidth, List.map_cons, List.map_nil, List.sum_cons, List.sum_nil]
    omega
  split at hl
  · have := box_lines env hs _ _ _ (by
      intro w hw
      simp only [List.mem_cons, List.not_mem_nil, or_false] at hw
      omega) line hl
    refine ⟨this.1.trans_le ?_, this.2⟩
    simp only [tableWidth, List.map_cons, List.map_nil, List.sum_cons, List.sum_nil]
    omega
  · rw [List.mem_flatMap] at hl
    obtain ⟨r, hr, hl⟩ := hl
    rw [List.mem_append, List.mem_singleton] at hl
    rcases hl with rfl | hl
    · constructor
      · rw [displayWidth_append, digits_width env hs]
        have h1 : (natText r.index).length ≤ 20 := by
          unfold natText
          exact (Nat.length_toDigits_le_iff (by omega) (by omega)).2 (hi r hr)
        have h2 : displayWidth (charW env) "Record ".toList = 7 := by
          have : ∀ c ∈ "Record ".toList, charW env c = 1 := by
            intro c hc
            have : ∀ c ∈ "Record ".toList, 32 ≤ c.toNat ∧ c.toNat < 127 := by decide
            exact hs.ascii c (this c hc).1 (this c hc).2
          unfold displayWidth
          rw [List.map_congr_left this]
          decide
        omega
      · rw [List.mem_append, not_or]
        exact ⟨by decide, natText_no_newline _⟩
    · have := keyValue_lines env hs _ width hw line hl
      exact ⟨this.1.le, this.2⟩

/-- C51: a table is refused below 32 columns, and otherwise none of its lines is wider than asked for.
The indices of records are `usize`, at most 2^64. -/
theorem C51_table (env : TextEnv) (hs : SaneWidths env) (o : DecodedOutput)
    (hi : ∀ r ∈ o.records, r.index < 2 ^ 64) (width : Nat) :
    (width < 32 ∧ renderTable env o width = none) ∨
    (32 ≤ width ∧ ∃ lines, renderTable env o width = some (unlines lines) ∧
      ∀ line ∈ lines, '\n' ∉ line ∧ displayWidth (charW env) line ≤ width) := by
  by_cases hw : width < 32
  · exact .inl ⟨hw, by simp [renderTable, tableLines, hw]⟩
  refine .inr ⟨by omega, ?_⟩
  simp only [renderTable, tableLines, hw, if_false, Option.map_some]
  refine ⟨_, rfl, ?_⟩
  intro line hl
  simp only [List.mem_append] at hl
  rcases hl with ((hl | hl) | hl) | hl
  · have := C51_wrap env (o.protocol ++ [' '] ++ o.frame.kind ++ " frame · ".toList ++ o.decodeState
      ++ " decode".toList) width (by omega) (fun c => (hs.narrow c).trans (by omega))
    exact ⟨wrapped_no_newline this line hl, wrapped_fits this line hl⟩
  · have := keyValue_lines env hs _ width (by omega) line hl
    exact ⟨this.2, this.1.le⟩
  · have := recordSection_lines env hs o.records (fun r hr => (hi r hr).trans (by decide)) width
      (by omega) line hl
    exact ⟨this.2, this.1⟩
  · split at hl
    · simp at hl
    · rw [List.mem_append, List.mem_singleton] at hl
      rcases hl with rfl | hl
      · refine ⟨by decide, ?_⟩
        have : ∀ c ∈ "Diagnostics".toList, charW env c = 1 := by
          intro c hc
          have : ∀ c ∈ "Diagnostics".toList, 32 ≤ c.toNat ∧ c.toNat < 127 := by decide
          exact hs.ascii c (this c hc).1 (this c hc).2
        unfold displayWidth
        rw [List.map_congr_left this]
        have : (List.map (fun _ : Char => 1) "Diagnostics".toList).sum = 11 := by decide
        omega
      · have := keyValue_lines env hs _ width (by omega) line hl
        exact ⟨this.2, this.1.le⟩

/-- The texts of a record a table shows. -/
def tableTexts (env : TextEnv) (r : RecordOutput) : List (List Char) :=
  [reading env r, r.function, stuText r, r.dataCoding, recordHex r]

theorem box_row (env : TextEnv) (headers : List (List Char)) (rows : List (List (List Char)))
    (widths : List Nat) (row : List (List Char)) (h : row ∈ rows) :
    rowLines env row widths <:+: boxTable env headers rows widths := by
  obtain ⟨i, hi⟩ := List.mem_iff_getElem?.1 h
  unfold boxTable
  refine List.IsInfix.trans ?_ ((List.prefix_append _ _).isInfix)
  refine List.IsInfix.trans ?_ ((List.suffix_append _ _).isInfix)
  have hm : (row, i) ∈ rows.zipIdx := by rw [List.mk_mem_zipIdx_iff_getElem?]; exact hi
  obtain ⟨a, b, hab⟩ := List.append_of_mem hm
  rw [hab, List.flatMap_append, List.flatMap_cons]
  simp only
  refine List.IsInfix.trans ?_ ((List.suffix_append _ _).isInfix)
  rw [List.append_assoc]
  exact (List.prefix_append _ _).isInfix

/-- C51: at every width, the reading, function, storage number, tariff and subunit, coding and raw bytes
of every record are in a cell of a row of the table, whole. -/
theorem C51_shown (env : TextEnv) (hs : SaneWidths env) (o : DecodedOutput) (width : Nat)
    (hw : 32 ≤ width) (r : RecordOutput) (hr : r ∈ o.records) (text : List Char)
    (ht : text ∈ tableTexts env r) :
    ∃ lines row cells widths cell, renderTable env o width = some (unlines lines) ∧
      row <:+: lines ∧ TableRow (charW env) cells widths row ∧ cells.length = widths.length ∧
      cell ∈ cells ∧ text <:+: cell := by
  have hw' : ¬ width < 32 := by omega
  have hne : o.records ≠ [] := List.ne_nil_of_mem hr
  simp only [renderTable, tableLines, hw', if_false, Option.map_some]
  suffices h : ∃ row cells widths cell, row <:+: recordSection env o.records width ∧
      TableRow (charW env) cells widths row ∧ cells.length = widths.length ∧
      cell ∈ cells ∧ text <:+: cell by
    obtain ⟨row, cells, widths, cell, h1, h2⟩ := h
    refine ⟨_, row, cells, widths, cell, rfl, ?_, h2⟩
    refine h1.trans (List.IsInfix.trans ?_ ((List.prefix_append _ _).isInfix))
    exact (List.suffix_append _ _).isInfix
  unfold recordSection
  rw [if_neg hne]
  simp only [tableTexts, List.mem_cons, List.not_mem_nil, or_false] at ht
  split
  · have hwd : ∀ w ∈ [3, max ((width - 19) * 34 / 100) 18, 12, 11, 13,
        width - 19 - (3 + max ((width - 19) * 34 / 100) 18 + 12 + 11 + 13)], 2 ≤ w := by
      intro w hw
      simp only [List.mem_cons, List.not_mem_nil, or_false] at hw
      omega
    refine ⟨_, _, _, text, box_row env _ _ _ _ (List.mem_map.2 ⟨r, hr, rfl⟩), C51_row env hs _ _ hwd,
      rfl, ?_, List.infix_rfl⟩
    simp only [List.mem_cons, List.not_mem_nil, or_false]
    tauto
  split
  · have hwd : ∀ w ∈ [3, max ((width - 13) * 52 / 100) 24, 12,
        width - 13 - (3 + max ((width - 13) * 52 / 100) 24 + 12)], 2 ≤ w := by
      intro w hw
      simp only [List.mem_cons, List.not_mem_nil, or_false] at hw
      omega
    have hcell : ∃ cell ∈ [natText r.index,
          reading env r ++ ['\n'] ++ r.dataCoding ++ " · raw ".toList ++ recordHex r,
          r.function, stuText r], text <:+: cell := by
      rcases ht with rfl | rfl | rfl | rfl | rfl
      · exact ⟨_, List.mem_cons_of_mem _ List.mem_cons_self, [], _, by rw [List.nil_append]; simp only [List.append_assoc]; rfl⟩
      · exact ⟨r.function, by simp, List.infix_rfl⟩
      · exact ⟨stuText r, by simp, List.infix_rfl⟩
      · exact ⟨_, List.mem_cons_of_mem _ List.mem_cons_self, reading env r ++ ['\n'], " · raw ".toList ++ recordHex r, by
          simp only [List.append_assoc]⟩
      · exact ⟨_, List.mem_cons_of_mem _ List.mem_cons_self, _, [], by rw [List.append_nil]⟩
    obtain ⟨cell, h1, h2⟩ := hcell
    exact ⟨_, _, _, cell, box_row env _ _ _ _ (List.mem_map.2 ⟨r, hr, rfl⟩), C51_row env hs _ _ hwd,
      rfl, h1, h2⟩
  · have hwd : ∀ w ∈ [min (max ((width - 7) / 3) 10) 24,
        max (width - 7 - min (max ((width - 7) / 3) 10) 24) 1], 2 ≤ w := by
      intro w hw
      simp only [List.mem_cons, List.not_mem_nil, or_false] at hw
      omega
    have hcell : ∃ key, (key, text) ∈ [ ("Reading".toList, reading env r), ("Function".toList, r.function),
        ("Storage/Tariff/Subunit".toList, stuText r), ("Coding".toList, r.dataCoding),
        ("Raw".toList, recordHex r) ] := by
      rcases ht with rfl | rfl | rfl | rfl | rfl
      · exact ⟨"Reading".toList, by simp⟩
      · exact ⟨"Function".toList, by simp⟩
      · exact ⟨"Storage/Tariff/Subunit".toList, by simp⟩
      · exact ⟨"Coding".toList, by simp⟩
      · exact ⟨"Raw".toList, by simp⟩
    obtain ⟨key, hk⟩ := hcell
    refine ⟨_, _, _, text, ?_, C51_row env hs [key, text] _ hwd, rfl, by simp, List.infix_rfl⟩
    refine List.IsInfix.trans (box_row env ["Field".toList, "Value".toList] _ _ [key, text]
      (List.mem_map_of_mem (f := fun r : List Char × List Char => [r.1, r.2]) hk)) ?_
    obtain ⟨a, b, hab⟩ := List.append_of_mem hr
    rw [hab, List.flatMap_append, List.flatMap_cons]
    refine List.IsInfix.trans ?_ ((List.suffix_append _ _).isInfix)
    refine List.IsInfix.trans ?_ ((List.prefix_append _ _).isInfix)
    exact (List.suffix_append _ _).isInfix

/-- Every character one column wide. -/
def plainEnv : TextEnv := ⟨fun _ => [], fun _ => some 1, List.length, fun _ => []⟩

theorem plainEnv_sane : SaneWidths plainEnv where
  additive text := by
    induction text with
    | nil => rfl
    | cons c t ih =>
      have hc : charW plainEnv c = 1 := rfl
      have ht : plainEnv.textWidth (c :: t) = plainEnv.textWidth t + 1 := rfl
      rw [ht, ih, displayWidth_cons, hc]
      omega
  narrow _ := Nat.le_succ 1
  ascii _ _ _ := rfl
  box _ _ := rfl

/-- A telegram with an instantaneous volume and a stored energy, shown 34 columns wide: there are lines,
all at most 34 columns wide, and some as wide as that. -/
example : (match decodeBytes cfgRelease (fun _ b => b)
      (wiredLong [0x72, 0x78, 0x56, 0x34, 0x12, 0x24, 0x40, 0x01, 0x07, 0x55, 0x00, 0x00, 0x00,
        0x04, 0x13, 0x39, 0x30, 0x00, 0x00, 0x44, 0x06, 0x01, 0x00, 0x00, 0x00]) ⟨none, false⟩ with
    | .ok o => decide (o.records.length = 2 ∧ (∀ r ∈ o.records, r.index < 2 ^ 64) ∧
        ((tableLines plainEnv o 34).map (fun l => (l.length, (l.map List.length).max?))) = some (51, some 34) ∧
        renderTable plainEnv o 31 = none)
    | _ => false) = true := by decide +kernel

/-! ## C52: labels of diagrams -/

theorem replaceChar_cons (c : Char) (t : List Char) (x : Char) (v : List Char) :
    replaceChar c t (x :: v) = (if x = c then t else [x]) ++ replaceChar c t v := by
  simp [replaceChar]

theorem replaceChar_append (c : Char) (t a b : List Char) :
    replaceChar c t (a ++ b) = replaceChar c t a ++ replaceChar c t b := by
  simp [replaceChar]

theorem mermaidEscape_append (a b : List Char) :
    mermaidEscape (a ++ b) = mermaidEscape a ++ mermaidEscape b := by
  simp only [mermaidEscape, replaceChar_append]

theorem mermaidEscape_plain (c : Char) (h : c ∉ ['&', '"', '<', '>', '\n']) : mermaidEscape [c] = [c] := by
  simp only [List.mem_cons, List.not_mem_nil, or_false, not_or] at h
  simp [mermaidEscape, replaceChar, h.1, h.2.1, h.2.2.1, h.2.2.2.1, h.2.2.2.2]

/-- C52: escaping shows the text. -/
theorem C52_shows (text : List Char) : Shows (mermaidEscape text) text := by
  induction text with
  | nil => exact .nil
  | cons c t ih =>
    rw [show c :: t = [c] ++ t from rfl, mermaidEscape_append]
    by_cases h : c ∈ ['&', '"', '<', '>', '\n']
    · simp only [List.mem_cons, List.not_mem_nil, or_false] at h
      rcases h with rfl | rfl | rfl | rfl | rfl
      · exact .amp ih
      · exact .quot ih
      · exact .lt ih
      · exact .gt ih
      · exact .newline ih
    · rw [mermaidEscape_plain c h]
      exact .plain c h ih

theorem shows_safe {e t : List Char} (h : Shows e t) : SafeLabel e := by
  unfold SafeLabel
  induction h with
  | nil => simp
  | plain c hc _ ih =>
    intro x hx
    rw [List.mem_cons] at hx
    rcases hx with rfl | hx
    · simp only [List.mem_cons, List.not_mem_nil, or_false, not_or] at hc ⊢
      exact hc.2
    · exact ih x hx
  | newline _ ih =>
    intro x hx
    rw [List.mem_cons] at hx
    rcases hx with rfl | hx
    · decide
    · exact ih x hx
  | amp _ ih =>
    intro x hx
    rw [List.mem_append] at hx
    rcases hx with hx | hx
    · revert x; decide
    · exact ih x hx
  | quot _ ih =>
    intro x hx
    rw [List.mem_append] at hx
    rcases hx with hx | hx
    · revert x; decide
    · exact ih x hx
  | lt _ ih =>
    intro x hx
    rw [List.mem_append] at hx
    rcases hx with hx | hx
    · revert x; decide
    · exact ih x hx
  | gt _ ih =>
    intro x hx
    rw [List.mem_append] at hx
    rcases hx with hx | hx
    · revert x; decide
    · exact ih x hx

/-- C52: no text ends its label, starts markup or breaks the line. -/
theorem C52_safe (text : List Char) : SafeLabel (mermaidEscape text) := shows_safe (C52_shows text)

/-- Newlines shown as blanks. -/
def blanks (text : List Char) : List Char := text.map (fun c => if c = '\n' then ' ' else c)

theorem shows_unique {e t t' : List Char} (h : Shows e t) (h' : Shows e t') : blanks t = blanks t' := by
  induction h generalizing t' with
  | nil => cases h'; rfl
  | amp _ ih =>
    cases h' with
    | amp h' => exact congrArg ('&' :: ·) (ih h')
    | plain _ hc _ => exact absurd (by decide) hc
  | quot _ ih =>
    cases h' with
    | quot h' => exact congrArg ('"' :: ·) (ih h')
    | plain _ hc _ => exact absurd (by decide) hc
  | lt _ ih =>
    cases h' with
    | lt h' => exact congrArg ('<' :: ·) (ih h')
    | plain _ hc _ => exact absurd (by decide) hc
  | gt _ ih =>
    cases h' with
    | gt h' => exact congrArg ('>' :: ·) (ih h')
    | plain _ hc _ => exact absurd (by decide) hc
  | newline _ ih =>
    cases h' with
    | newline h' => exact congrArg (' ' :: ·) (ih h')
    | plain _ _ h' => exact congrArg (' ' :: ·) (ih h')
  | plain c hc _ ih =>
    cases h' with
    | plain _ _ h' =>
      have := ih h'
      simp only [blanks, List.map_cons] at this ⊢
      rw [this]
    | newline h' => exact congrArg (' ' :: ·) (ih h')
    | amp _ => exact absurd (by decide) hc
    | quot _ => exact absurd (by decide) hc
    | lt _ => exact absurd (by decide) hc
    | gt _ => exact absurd (by decide) hc

/-- C52: two texts have the same label exactly if they differ at most in newlines and blanks. -/
theorem C52_faithful (a b : List Char) : mermaidEscape a = mermaidEscape b ↔ blanks a = blanks b := by
  constructor
  · intro h
    exact shows_unique (C52_shows a) (h ▸ C52_shows b)
  · have h : ∀ t, mermaidEscape t = mermaidEscape (blanks t) := by
      intro t
      induction t with
      | nil => rfl
      | cons c t ih =>
        rw [show c :: t = [c] ++ t from rfl, mermaidEscape_append,
          show blanks ([c] ++ t) = blanks [c] ++ blanks t from by simp [blanks], mermaidEscape_append, ih]
        congr 1
        by_cases hc : c = '\n'
        · subst hc; rfl
        · simp [blanks, hc]
    intro hab
    rw [h a, h b, hab]

/-- A text with all five special characters. -/
example : mermaidEscape "a<b>&\"c\"\n[d]".toList = "a&lt;b&gt;&amp;&quot;c&quot; [d]".toList := by
  decide +kernel

/-- C52: labels of the older diagrams contain no quotation mark and no bracket. -/
theorem C52_old_partial (text : List Char) : ∀ c ∈ mermaidEscapeOld text, c ∉ ['"', '[', ']'] := by
  have h : ∀ a b, mermaidEscapeOld (a ++ b) = mermaidEscapeOld a ++ mermaidEscapeOld b := by
    intro a b
    simp only [mermaidEscapeOld, replaceChar_append]
  induction text with
  | nil => simp [mermaidEscapeOld, replaceChar]
  | cons x t ih =>
    intro c hc
    rw [show x :: t = [x] ++ t from rfl, h, List.mem_append] at hc
    rcases hc with hc | hc
    · by_cases hx : x ∈ ['"', '[', ']']
      · simp only [List.mem_cons, List.not_mem_nil, or_false] at hx
        rcases hx with rfl | rfl | rfl
        · exact (by decide : ∀ c ∈ mermaidEscapeOld ['"'], c ∉ ['"', '[', ']']) c hc
        · exact (by decide : ∀ c ∈ mermaidEscapeOld ['['], c ∉ ['"', '[', ']']) c hc
        · exact (by decide : ∀ c ∈ mermaidEscapeOld [']'], c ∉ ['"', '[', ']']) c hc
      · have hx' := hx
        simp only [List.mem_cons, List.not_mem_nil, or_false, not_or] at hx'
        have : mermaidEscapeOld [x] = [x] := by
          simp [mermaidEscapeOld, replaceChar, hx'.1, hx'.2.1, hx'.2.2]
        rw [this, List.mem_singleton] at hc
        subst hc
        exact hx
    · exact ih c hc

/-- C52 fails for the older diagrams: markup and newlines remain, and two texts share a label. -/
theorem C52_old_fails : mermaidEscapeOld "<b>\n".toList = "<b>\n".toList ∧
    mermaidEscapeOld "[".toList = mermaidEscapeOld "#91;".toList := by decide

end MBus
