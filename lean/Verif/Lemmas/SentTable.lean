import Verif.Spec.SentTable
import Verif.Props.Render
/-!
# Lemmas on tables as documents
-/
namespace MBus
open Spec

/-! ## Drawing -/

theorem rule_tail (middle right : Char) (l : List Nat) (n m : Nat) (h : n + l.length = m) (hl : l ≠ []) :
    (l.zipIdx n).flatMap (fun (w, i) => List.replicate (w + 2) '─' ++ [if i + 1 = m then right else middle]) =
      [middle].intercalate (l.map (fun w => List.replicate (w + 2) '─')) ++ [right] := by
  induction l generalizing n with
  | nil => exact absurd rfl hl
  | cons a l ih =>
    cases l with
    | nil =>
      simp only [List.length_cons, List.length_nil] at h
      simp [List.intercalate, h]
    | cons b l =>
      have h1 : ¬ n + 1 = m := by simp only [List.length_cons] at h; omega
      rw [List.zipIdx_cons, List.flatMap_cons, ih (n + 1) (by simp only [List.length_cons] at h ⊢; omega) (by simp)]
      simp only [h1, if_false]
      simp [List.intercalate]

theorem borderLine_rule (left middle right : Char) (widths : List Nat) (h : widths ≠ []) :
    borderLine left middle right widths = boxRule left middle right widths := by
  unfold borderLine boxRule
  rw [rule_tail middle right widths 0 _ (by simp) h, List.cons_append]

theorem rows_drawn (env : TextEnv) (widths : List Nat) (rows : List (List (List Char))) (n m : Nat)
    (h : n + rows.length = m) (hr : rows ≠ []) (rule : List Char) :
    rule :: (rows.zipIdx n).flatMap (fun (row, index) =>
      rowLines env row widths ++ if index + 1 ≠ m then [rule] else []) =
    rows.flatMap (fun row => rule :: rowLines env row widths) := by
  induction rows generalizing n with
  | nil => exact absurd rfl hr
  | cons a rows ih =>
    cases rows with
    | nil =>
      simp only [List.length_cons, List.length_nil] at h
      simp [h]
    | cons b rows =>
      have h1 : n + 1 ≠ m := by simp only [List.length_cons] at h; omega
      have := ih (n + 1) (by simp only [List.length_cons] at h ⊢; omega) (by simp)
      rw [List.zipIdx_cons, List.flatMap_cons, List.flatMap_cons, ← this]
      simp [h1]

theorem box_drawn (env : TextEnv) (hs : SaneWidths env) (head : List (List Char)) (rows : List (List (List Char)))
    (widths : List Nat) (hw : ∀ w ∈ widths, 2 ≤ w) (hne : widths ≠ []) (hr : rows ≠ [])
    (hl : ∀ r ∈ head :: rows, r.length = widths.length) :
    Drawn (charW env) (.box head rows) (boxTable env head rows widths) := by
  have := Drawn.box (w := charW env) head rows widths (rowLines env head widths)
    (rows.map (fun r => rowLines env r widths)) hl (C51_row env hs head widths hw)
    (by rw [List.forall₂_map_right_iff, List.forall₂_same]; exact fun r _ => C51_row env hs r widths hw)
  rw [List.flatMap_map, ← rows_drawn env widths rows 0 rows.length (by simp) hr] at this
  unfold boxTable
  simp only [borderLine_rule _ _ _ widths hne]
  simpa using this

theorem facts_drawn (env : TextEnv) (hs : SaneWidths env) (rows : List (List Char × List Char)) (hr : rows ≠ [])
    (width : Nat) (hw : 32 ≤ width) : Drawn (charW env) (factsBox rows) (keyValueBox env rows width) := by
  unfold factsBox keyValueBox
  refine box_drawn env hs _ _ _ (by intro w hw; simp only [List.mem_cons, List.not_mem_nil, or_false] at hw; omega)
    (by simp) (by simpa using hr) ?_
  intro r hr'
  rcases List.mem_cons.1 hr' with rfl | hr'
  · rfl
  · obtain ⟨p, _, rfl⟩ := List.mem_map.1 hr'
    rfl

/-! ## Reading back -/

/-- Lists of two parts, told apart by a property of their elements. -/
theorem split_unique {α : Type} (p : α → Prop) (a a' b b' : List α) (ha : ∀ x ∈ a, p x) (ha' : ∀ x ∈ a', p x)
    (hb : ∀ x ∈ b.head?, ¬ p x) (hb' : ∀ x ∈ b'.head?, ¬ p x) (h : a ++ b = a' ++ b') : a = a' ∧ b = b' := by
  induction a generalizing a' with
  | nil =>
    cases a' with
    | nil => exact ⟨rfl, h⟩
    | cons x a' =>
      rw [List.nil_append] at h
      subst h
      exact absurd (ha' x (by simp)) (hb x (by simp))
  | cons x a ih =>
    cases a' with
    | nil =>
      rw [List.nil_append] at h
      subst h
      exact absurd (ha x (by simp)) (hb' x (by simp))
    | cons y a' =>
      simp only [List.cons_append, List.cons.injEq] at h
      obtain ⟨h1, h2⟩ := ih a' (fun z hz => ha z (by simp [hz])) (fun z hz => ha' z (by simp [hz])) h.2
      exact ⟨by rw [h.1, h1], h2⟩

theorem rule_unique (left left' middle right : Char) (hm : middle ≠ '─') (hr : right ≠ '─') (hmr : middle ≠ right)
    (a b : List Nat) (h : boxRule left middle right a = boxRule left' middle right b) : a = b := by
  replace h : [middle].intercalate (a.map (fun w => List.replicate (w + 2) '─')) ++ [right] =
      [middle].intercalate (b.map (fun w => List.replicate (w + 2) '─')) ++ [right] := by
    unfold boxRule at h
    simp only [List.cons_append, List.cons.injEq] at h
    exact h.2
  clear left left'
  have hc := fun (x y : Nat) (s t : List Char) (c d : Char) (hc : c ≠ '─') (hd : d ≠ '─')
      (e : List.replicate (x + 2) '─' ++ c :: s = List.replicate (y + 2) '─' ++ d :: t) => by
    have := split_unique (· = '─') _ _ _ _ (fun z hz => (List.mem_replicate.1 hz).2)
      (fun z hz => (List.mem_replicate.1 hz).2) (by simpa using hc) (by simpa using hd) e
    have h1 := congrArg List.length this.1
    simp only [List.length_replicate] at h1
    exact (⟨by omega, (List.cons.inj this.2).1, (List.cons.inj this.2).2⟩ : x = y ∧ c = d ∧ s = t)
  have hne : ∀ (x : Nat) (s t : List Char), List.replicate (x + 2) '─' ++ s ≠ right :: t := by
    intro x s t h
    rw [List.replicate_succ, List.cons_append] at h
    exact hr (List.cons.inj h).1.symm
  induction a generalizing b with
  | nil =>
    cases b with
    | nil => rfl
    | cons y b =>
      cases b with
      | nil => simp only [List.map_nil, List.intercalate, List.intersperse, List.flatten_nil, List.nil_append, List.map_cons, List.flatten_cons, List.append_nil] at h; exact absurd h.symm (hne _ _ _)
      | cons z b => simp only [List.map_nil, List.intercalate, List.intersperse, List.flatten_nil, List.nil_append, List.map_cons, List.flatten_cons, List.append_assoc] at h; exact absurd h.symm (hne _ _ _)
  | cons x a ih =>
    cases a with
    | nil =>
      cases b with
      | nil => simp only [List.map_nil, List.intercalate, List.intersperse, List.flatten_nil, List.nil_append, List.map_cons, List.flatten_cons, List.append_nil] at h; exact absurd h (hne _ _ _)
      | cons y b =>
        cases b with
        | nil =>
          simp only [List.map_nil, List.intercalate, List.intersperse, List.flatten_nil, List.map_cons, List.flatten_cons, List.append_nil] at h
          rw [(hc _ _ _ _ _ _ hr hr h).1]
        | cons z b =>
          simp only [List.map_nil, List.intercalate, List.intersperse, List.flatten_nil, List.map_cons, List.flatten_cons, List.append_nil, List.append_assoc, List.cons_append, List.nil_append] at h
          exact absurd (hc _ _ _ _ _ _ hr hm h).2.1.symm hmr
    | cons x' a =>
      cases b with
      | nil => simp only [List.map_nil, List.intercalate, List.intersperse, List.flatten_nil, List.nil_append, List.map_cons, List.flatten_cons, List.append_assoc] at h; exact absurd h (hne _ _ _)
      | cons y b =>
        cases b with
        | nil =>
          simp only [List.map_nil, List.intercalate, List.intersperse, List.flatten_nil, List.map_cons, List.flatten_cons, List.append_nil, List.append_assoc, List.cons_append, List.nil_append] at h
          exact absurd (hc _ _ _ _ _ _ hm hr h).2.1 hmr
        | cons z b =>
          have e1 : ∀ (u v : List Char) (l : List (List Char)), [middle].intercalate (u :: v :: l) = u ++ middle :: [middle].intercalate (v :: l) := by
            intro u v l; simp [List.intercalate]
          simp only [List.map_cons, e1, List.append_assoc, List.cons_append] at h
          obtain ⟨h1, -, h2⟩ := hc _ _ _ _ _ _ hm hm h
          rw [h1, ih (z :: b) (by simpa using h2)]

theorem bare_append (a b : List Char) : bare (a ++ b) = bare a ++ bare b := by simp [bare]

theorem bare_blanks (n : Nat) : bare (List.replicate n ' ') = [] := by
  simp [bare]

theorem bare_intercalate (l : List (List Char)) : bare (['\n'].intercalate l) = bare l.flatten := by
  induction l with
  | nil => rfl
  | cons a l ih =>
    cases l with
    | nil => simp [List.intercalate]
    | cons b l =>
      have e1 : ['\n'].intercalate (a :: b :: l) = a ++ '\n' :: ['\n'].intercalate (b :: l) := by
        simp [List.intercalate]
      rw [e1, List.flatten_cons, bare_append, bare_append, ← ih]
      simp [bare]

theorem wrapped_bare {w : Char → Nat} {width : Nat} {text : List Char} {lines : List (List Char)}
    (h : Wrapped w width text lines) : bare lines.flatten = bare text := by
  obtain ⟨source, groups, rfl, -, rfl, h⟩ := h
  rw [bare_intercalate]
  congr 1
  induction h with
  | nil => rfl
  | cons hb _ ih => rw [List.flatten_cons, List.flatten_append, ih, hb.all, List.flatten_cons]

/-- A line of a table, cut into cells of known widths. -/
theorem line_unique (w : Char → Nat) (hw : 0 < w ' ') (ps qs : List (List Char × Nat))
    (hl : List.Forall₂ (fun p q => displayWidth w (p.1 ++ List.replicate p.2 ' ') =
      displayWidth w (q.1 ++ List.replicate q.2 ' ')) ps qs) (h : tableLine ps = tableLine qs) :
    List.Forall₂ (fun p q => bare p.1 = bare q.1) ps qs := by
  unfold tableLine at h
  replace h := (List.cons.inj h).2
  induction hl with
  | nil => exact .nil
  | cons hd _ ih =>
    rename_i p q ps qs _
    simp only [List.flatMap_cons, List.append_assoc, List.cons_append, List.nil_append, List.cons.injEq, true_and] at h
    have key : ∀ a b s t : List Char, displayWidth w a = displayWidth w b → a ++ ' ' :: s = b ++ ' ' :: t → a = b ∧ s = t := by
      intro a
      induction a with
      | nil =>
        intro b s t hd h
        cases b with
        | nil => exact ⟨rfl, by simpa using h⟩
        | cons c b =>
          simp only [List.nil_append, List.cons_append, List.cons.injEq] at h
          rw [displayWidth_cons, ← h.1] at hd
          simp only [displayWidth, List.map_nil, List.sum_nil] at hd
          omega
      | cons x a ih =>
        intro b s t hd h
        cases b with
        | nil =>
          simp only [List.nil_append, List.cons_append, List.cons.injEq] at h
          rw [displayWidth_cons, h.1] at hd
          simp only [displayWidth, List.map_nil, List.sum_nil] at hd
          omega
        | cons c b =>
          simp only [List.cons_append, List.cons.injEq] at h
          rw [displayWidth_cons, displayWidth_cons, h.1] at hd
          obtain ⟨h1, h2⟩ := ih b s t (by omega) h.2
          exact ⟨by rw [h.1, h1], h2⟩
    obtain ⟨h1, h2⟩ := key _ _ _ _ hd (by simpa only [List.append_assoc] using h)
    refine .cons ?_ (ih ?_)
    · have := congrArg bare h1
      simpa only [bare_append, bare_blanks, List.append_nil] using this
    · simpa only [List.append_assoc, List.cons_append, List.nil_append] using (List.cons.inj h2).2

theorem bare_column (cell : List (List Char)) (n : Nat) (h : cell.length ≤ n) :
    bare cell.flatten = (List.range n).flatMap (fun k => bare (cell[k]?.getD [])) := by
  induction cell generalizing n with
  | nil => simp [bare]
  | cons a cell ih =>
    cases n with
    | zero => simp at h
    | succ n =>
      rw [List.range_succ_eq_map, List.flatMap_cons, List.flatMap_map, List.flatten_cons, bare_append, ih n (by simpa using h)]
      simp

/-- The cells of a row, up to blanks and line breaks. -/
theorem row_unique (w : Char → Nat) (hw : w ' ' = 1) (widths : List Nat) (a b lines : List (List Char))
    (ha : a.length = widths.length) (hb : b.length = widths.length) (h : TableRow w a widths lines)
    (h' : TableRow w b widths lines) : a.map bare = b.map bare := by
  obtain ⟨c, c1, c2, c3⟩ := h
  obtain ⟨d, d1, d2, d3⟩ := h'
  have hpad : ∀ (c : List (List (List Char))) (a : List (List Char)), (∀ (i width : Nat), widths[i]? = some width → ∃ cell, c[i]? = some cell ∧
      cell.length ≤ lines.length ∧ Wrapped w width (a[i]?.getD []) cell) → ∀ (k i width : Nat) cell, widths[i]? = some width →
      c[i]? = some cell → displayWidth w ((cell[k]?.getD []) ++ List.replicate (width - displayWidth w (cell[k]?.getD [])) ' ') = width := by
    intro c a c2 k i width cell hi hc
    obtain ⟨cell', e1, e2, e3⟩ := c2 i width hi
    rw [hc] at e1
    cases e1
    have : displayWidth w (cell[k]?.getD []) ≤ width := by
      cases hx : cell[k]? with
      | none => simp [displayWidth]
      | some v => exact wrapped_fits e3 v (List.mem_of_getElem? hx)
    rw [displayWidth_append, displayWidth_replicate, hw]
    omega
  have hline : ∀ k < lines.length, ∀ (i : Nat) x y, c[i]? = some x → d[i]? = some y →
      bare (x[k]?.getD []) = bare (y[k]?.getD []) := by
    intro k hk i x y hx hy
    have e := (c3 k _ (List.getElem?_eq_getElem hk)).symm.trans (d3 k _ (List.getElem?_eq_getElem hk))
    have hu := line_unique w (by omega) _ _ ?_ e
    · rw [List.forall₂_map_left_iff, List.forall₂_map_right_iff, List.forall₂_iff_get] at hu
      have hi : i < widths.length := by
        rw [← c1]; exact (List.getElem?_eq_some_iff.1 hx).1
      have := hu.2 i (by rw [List.length_zip]; omega) (by rw [List.length_zip]; omega)
      simp only [List.get_eq_getElem, List.getElem_zip] at this
      obtain ⟨_, rfl⟩ := List.getElem?_eq_some_iff.1 hx
      obtain ⟨_, rfl⟩ := List.getElem?_eq_some_iff.1 hy
      exact this
    · rw [List.forall₂_map_left_iff, List.forall₂_map_right_iff, List.forall₂_iff_get]
      refine ⟨by simp only [List.length_zip]; omega, ?_⟩
      intro j h1 h2
      rw [List.length_zip] at h1 h2
      simp only [List.get_eq_getElem, List.getElem_zip]
      rw [hpad c a c2 k j widths[j] _ (List.getElem?_eq_getElem (by omega)) (List.getElem?_eq_getElem (by omega)),
        hpad d b d2 k j widths[j] _ (List.getElem?_eq_getElem (by omega)) (List.getElem?_eq_getElem (by omega))]
  apply List.ext_getElem
  · simp [ha, hb]
  intro i h1 h2
  simp only [List.length_map] at h1 h2
  simp only [List.getElem_map]
  obtain ⟨x, x1, x2, x3⟩ := c2 i widths[i] (List.getElem?_eq_getElem (by omega))
  obtain ⟨y, y1, y2, y3⟩ := d2 i widths[i] (List.getElem?_eq_getElem (by omega))
  rw [List.getElem?_eq_getElem h1] at x3
  rw [List.getElem?_eq_getElem h2] at y3
  simp only [Option.getD_some] at x3 y3
  rw [← wrapped_bare x3, ← wrapped_bare y3, bare_column x _ x2, bare_column y _ y2]
  apply List.flatMap_congr
  intro k hk
  exact hline k (List.mem_range.1 hk) i x y x1 y1

theorem row_bars {w : Char → Nat} {cells : List (List Char)} {widths : List Nat} {lines : List (List Char)}
    (h : TableRow w cells widths lines) : ∀ l ∈ lines, l.head? = some '│' := by
  obtain ⟨c, -, -, h⟩ := h
  intro l hl
  obtain ⟨k, hk⟩ := List.mem_iff_getElem?.1 hl
  rw [h k l hk]
  rfl

theorem row_single {w : Char → Nat} {cells : List (List Char)} {widths : List Nat} {lines : List (List Char)}
    (h : TableRow w cells widths lines) : ∀ l ∈ lines, '\n' ∉ l := by
  obtain ⟨columns, h1, h2, h3⟩ := h
  intro line hl
  obtain ⟨k, hk⟩ := List.mem_iff_getElem?.1 hl
  rw [h3 k line hk, tableLine, List.mem_cons, not_or, List.mem_flatMap]
  refine ⟨by decide, ?_⟩
  rintro ⟨⟨v, pad⟩, hv, hc⟩
  rw [List.mem_map] at hv
  obtain ⟨⟨lines, w⟩, hp, hv⟩ := hv
  obtain ⟨i, hi⟩ := List.mem_iff_getElem?.1 hp
  rw [List.getElem?_zip_eq_some] at hi
  obtain ⟨lines', h4, _, h5⟩ := h2 i w hi.2
  rw [hi.1] at h4
  cases h4
  simp only [Prod.mk.injEq] at hv
  simp only [List.mem_append, List.mem_replicate, List.mem_cons, List.not_mem_nil, or_false] at hc
  rcases hc with ((hc | hc) | ⟨_, hc⟩) | hc | hc
  · exact absurd hc (by decide)
  · rw [← hv.1] at hc
    cases hx : lines[k]? with
    | none => rw [hx] at hc; simp at hc
    | some v' =>
      rw [hx] at hc
      exact wrapped_no_newline h5 v' (List.mem_of_getElem? hx) hc
  · exact absurd hc (by decide)
  · exact absurd hc (by decide)
  · exact absurd hc (by decide)

theorem rule_single (left middle right : Char) (h1 : left ≠ '\n') (h2 : middle ≠ '\n') (h3 : right ≠ '\n')
    (widths : List Nat) : '\n' ∉ boxRule left middle right widths := by
  unfold boxRule
  have : ∀ l : List Nat, '\n' ∉ [middle].intercalate (l.map (fun w => List.replicate (w + 2) '─')) := by
    intro l
    induction l with
    | nil => simp [List.intercalate]
    | cons a l ih =>
      cases l with
      | nil => simp [List.intercalate]
      | cons b l =>
        have e1 : ∀ (u v : List Char) (l : List (List Char)), [middle].intercalate (u :: v :: l) = u ++ middle :: [middle].intercalate (v :: l) := by
          intro u v l; simp [List.intercalate]
        rw [List.map_cons, List.map_cons, e1, List.mem_append, List.mem_cons]
        rintro (h | h | h)
        · exact absurd (List.mem_replicate.1 h).2 (by decide)
        · exact h2 h.symm
        · exact ih (by simpa using h)
  rw [List.mem_append, List.mem_cons]
  rintro ((h | h) | h)
  · exact h1 h.symm
  · exact this _ h
  · exact h3 (List.mem_singleton.1 h).symm

theorem drawn_single {w : Char → Nat} {p : TablePart} {lines : List (List Char)} (h : Drawn w p lines) :
    ∀ l ∈ lines, '\n' ∉ l := by
  cases h with
  | line text h1 h2 => simpa using h1
  | box head rows widths top drawn hl ht hd =>
    intro l hl'
    simp only [List.mem_append, List.mem_cons, List.mem_flatMap, List.not_mem_nil, or_false] at hl'
    rcases hl' with ((rfl | h) | ⟨x, hx, rfl | h⟩) | rfl
    · exact rule_single _ _ _ (by decide) (by decide) (by decide) _
    · exact row_single ht l h
    · exact rule_single _ _ _ (by decide) (by decide) (by decide) _
    · obtain ⟨i, hi⟩ := List.mem_iff_getElem?.1 hx
      obtain ⟨hi', rfl⟩ := List.getElem?_eq_some_iff.1 hi
      have := List.Forall₂.get hd (i := i) (by rw [hd.length_eq]; exact hi') hi'
      exact row_single this l h
    · exact rule_single _ _ _ (by decide) (by decide) (by decide) _

/-- The rows of a box, when what follows is not a row. -/
theorem rows_unique (w : Char → Nat) (hw : w ' ' = 1) (widths : List Nat) (rows rows' : List (List (List Char)))
    (drawn drawn' : List (List (List Char))) (rest rest' : List (List Char))
    (hl : ∀ r ∈ rows, r.length = widths.length) (hl' : ∀ r ∈ rows', r.length = widths.length)
    (hd : List.Forall₂ (fun r lines => TableRow w r widths lines) rows drawn)
    (hd' : List.Forall₂ (fun r lines => TableRow w r widths lines) rows' drawn')
    (h : drawn.flatMap (fun lines => boxRule '├' '┼' '┤' widths :: lines) ++ boxRule '└' '┴' '┘' widths :: rest =
      drawn'.flatMap (fun lines => boxRule '├' '┼' '┤' widths :: lines) ++ boxRule '└' '┴' '┘' widths :: rest') :
    rows.map (·.map bare) = rows'.map (·.map bare) ∧ rest = rest' := by
  have hne : boxRule '├' '┼' '┤' widths ≠ boxRule '└' '┴' '┘' widths := by
    intro h
    exact absurd (List.cons.inj h).1 (by decide)
  have hhead : ∀ (d : List (List (List Char))) (rest : List (List Char)), ∀ x ∈ (d.flatMap (fun lines => boxRule '├' '┼' '┤' widths :: lines) ++
      boxRule '└' '┴' '┘' widths :: rest).head?, ¬ x.head? = some '│' := by
    intro d rest x hx
    cases d with
    | nil =>
      simp only [List.flatMap_nil, List.nil_append, List.head?_cons, Option.mem_def, Option.some.injEq] at hx
      subst hx
      exact fun h => absurd (Option.some.inj h) (by decide)
    | cons a d =>
      simp only [List.flatMap_cons, List.cons_append, List.head?_cons, Option.mem_def, Option.some.injEq] at hx
      subst hx
      exact fun h => absurd (Option.some.inj h) (by decide)
  induction hd generalizing rows' drawn' with
  | nil =>
    cases hd' with
    | nil => exact ⟨rfl, by simpa using h⟩
    | cons _ _ =>
      simp only [List.flatMap_nil, List.nil_append, List.flatMap_cons, List.cons_append, List.cons.injEq] at h
      exact absurd h.1.symm hne
  | cons h1 _ ih =>
    cases hd' with
    | nil =>
      simp only [List.flatMap_nil, List.nil_append, List.flatMap_cons, List.cons_append, List.cons.injEq] at h
      exact absurd h.1 hne
    | cons h1' hd' =>
      simp only [List.flatMap_cons, List.cons_append, List.cons.injEq, true_and, List.append_assoc] at h
      obtain ⟨e1, e2⟩ := split_unique (fun l : List Char => l.head? = some '│') _ _ _ _ (row_bars h1) (row_bars h1')
        (hhead _ _) (hhead _ _) h
      subst e1
      obtain ⟨e3, e4⟩ := ih _ _ (fun r hr => hl r (by simp [hr])) (fun r hr => hl' r (by simp [hr])) hd' e2
      refine ⟨?_, e4⟩
      rw [List.map_cons, List.map_cons, e3, row_unique w hw widths _ _ _ (hl _ (by simp)) (hl' _ (by simp)) h1 h1']

theorem part_unique (w : Char → Nat) (hw : w ' ' = 1) (p p' : TablePart) (a a' rest rest' : List (List Char))
    (h : Drawn w p a) (h' : Drawn w p' a') (he : a ++ rest = a' ++ rest') : p.bare = p'.bare ∧ rest = rest' := by
  cases h with
  | line text h1 h2 =>
    cases h' with
    | line text' h1' h2' =>
      simp only [List.cons_append, List.nil_append, List.cons.injEq] at he
      exact ⟨by rw [he.1], he.2⟩
    | box head rows widths top drawn hl ht hd =>
      simp only [List.cons_append, List.nil_append, List.cons.injEq] at he
      exact absurd (he.1 ▸ rfl) h2
  | box head rows widths top drawn hl ht hd =>
    cases h' with
    | line text' h1' h2' =>
      simp only [List.cons_append, List.nil_append, List.cons.injEq] at he
      exact absurd (he.1 ▸ rfl) h2'
    | box head' rows' widths' top' drawn' hl' ht' hd' =>
      simp only [List.cons_append, List.append_assoc, List.nil_append, List.cons.injEq] at he
      have hwd := rule_unique _ _ _ _ (by decide) (by decide) (by decide) _ _ he.1
      subst hwd
      have hhead : ∀ (d : List (List (List Char))) (rest : List (List Char)), ∀ x ∈ (d.flatMap (fun lines => boxRule '├' '┼' '┤' widths :: lines) ++
          boxRule '└' '┴' '┘' widths :: rest).head?, ¬ x.head? = some '│' := by
        intro d rest x hx
        cases d with
        | nil =>
          simp only [List.flatMap_nil, List.nil_append, List.head?_cons, Option.mem_def, Option.some.injEq] at hx
          subst hx
          exact fun h => absurd (Option.some.inj h) (by decide)
        | cons a d =>
          simp only [List.flatMap_cons, List.cons_append, List.head?_cons, Option.mem_def, Option.some.injEq] at hx
          subst hx
          exact fun h => absurd (Option.some.inj h) (by decide)
      obtain ⟨e1, e2⟩ := split_unique (fun l : List Char => l.head? = some '│') _ _ _ _ (row_bars ht) (row_bars ht')
        (hhead _ _) (hhead _ _) he.2
      subst e1
      obtain ⟨e3, e4⟩ := rows_unique w hw widths rows rows' drawn drawn' rest rest' (fun r hr => hl r (by simp [hr]))
        (fun r hr => hl' r (by simp [hr])) hd hd' e2
      refine ⟨?_, e4⟩
      simp only [TablePart.bare, e3, row_unique w hw widths _ _ _ (hl _ (by simp)) (hl' _ (by simp)) ht ht']

theorem drawn_nonempty {w : Char → Nat} {p : TablePart} {lines : List (List Char)} (h : Drawn w p lines) :
    lines ≠ [] := by
  cases h <;> simp

theorem parts_unique (w : Char → Nat) (hw : w ' ' = 1) (ps ps' : List TablePart) (ds ds' : List (List (List Char)))
    (h : List.Forall₂ (Drawn w) ps ds) (h' : List.Forall₂ (Drawn w) ps' ds') (he : ds.flatten = ds'.flatten) :
    ps.map TablePart.bare = ps'.map TablePart.bare := by
  induction h generalizing ps' ds' with
  | nil =>
    cases h' with
    | nil => rfl
    | cons h1 _ =>
      have := drawn_nonempty h1
      simp only [List.flatten_nil, List.flatten_cons] at he
      exact absurd (List.append_eq_nil_iff.1 he.symm).1 this
  | cons h1 _ ih =>
    cases h' with
    | nil =>
      have := drawn_nonempty h1
      simp only [List.flatten_nil, List.flatten_cons] at he
      exact absurd (List.append_eq_nil_iff.1 he).1 this
    | cons h1' h2' =>
      simp only [List.flatten_cons] at he
      obtain ⟨e1, e2⟩ := part_unique w hw _ _ _ _ _ _ h1 h1' he
      rw [List.map_cons, List.map_cons, e1, ih _ _ h2' e2]

theorem lines_unique (a b : List (List Char)) (ha : ∀ l ∈ a, '\n' ∉ l) (hb : ∀ l ∈ b, '\n' ∉ l)
    (h : a.flatMap (· ++ ['\n']) = b.flatMap (· ++ ['\n'])) : a = b := by
  induction a generalizing b with
  | nil =>
    cases b with
    | nil => rfl
    | cons x b => simp at h
  | cons x a ih =>
    cases b with
    | nil => simp at h
    | cons y b =>
      simp only [List.flatMap_cons, List.append_assoc, List.cons_append, List.nil_append] at h
      obtain ⟨h1, h2⟩ := split_unique (· ≠ '\n') _ _ _ _ (fun c hc e => ha x (by simp) (e ▸ hc))
        (fun c hc e => hb y (by simp) (e ▸ hc)) (by simp) (by simp) h
      rw [h1, ih b (fun l hl => ha l (by simp [hl])) (fun l hl => hb l (by simp [hl])) (List.cons.inj h2).2]

end MBus
