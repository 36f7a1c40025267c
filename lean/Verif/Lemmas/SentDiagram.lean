import Verif.Lemmas.SentTable
import Verif.Spec.SentDiagram
/-!
# Lemmas about diagrams: a flowchart can be read back
-/
namespace MBus
open MBus.Spec

/-- The rest of a statement after its first word. -/
def parseRest (n : Nat) (w t : List Char) : Nat × Nat × List Char × List Char :=
  if w = [] then (6, 0, [], [])
  else if w = "subgraph".toList then
    (0, 4, (t.drop 1).takeWhile (· != '['), (((t.drop 1).dropWhile (· != '[')).drop 2).dropLast.dropLast)
  else if w = "direction".toList then (1, 8, [], [])
  else if w = "end".toList then (2, 4, [], [])
  else if w = "classDef".toList then
    (7, 4, (t.drop 1).takeWhile (· != ' '), ((t.drop 1).dropWhile (· != ' ')).drop 1)
  else if w = "class".toList then
    (8, 4, (t.drop 1).takeWhile (· != ' '), ((t.drop 1).dropWhile (· != ' ')).drop 1)
  else if w = "style".toList then
    (9, 4, (t.drop 1).takeWhile (· != ' '), ((t.drop 1).dropWhile (· != ' ')).drop 1)
  else if t.head? = some '[' then (3, n, w, (t.drop 2).dropLast.dropLast)
  else if t.take 5 = " --> ".toList then (4, n, w, t.drop 5)
  else (5, n, w, t.drop 5)

/-- The parts of a statement: its kind, indentation and two texts. -/
def parseLine (line : List Char) : Nat × Nat × List Char × List Char :=
  let r := line.dropWhile (· == ' ')
  parseRest (line.takeWhile (· == ' ')).length (r.takeWhile (fun c => c != ' ' && c != '['))
    (r.dropWhile (fun c => c != ' ' && c != '['))

theorem cut_while {α : Type} (p : α → Bool) (a b : List α) (ha : ∀ x ∈ a, p x = true) (hb : ∀ x ∈ b.head?, p x = false) :
    (a ++ b).takeWhile p = a ∧ (a ++ b).dropWhile p = b := by
  induction a with
  | nil =>
    cases b with
    | nil => exact ⟨rfl, rfl⟩
    | cons y b =>
      have := hb y (by simp)
      simp [this]
  | cons x a ih =>
    have h := ih (fun y hy => ha y (by simp [hy]))
    have hx := ha x (by simp)
    simp [hx, h.1, h.2]

theorem parse_line (n : Nat) (w t : List Char) (hw : w ≠ []) (hc : ∀ c ∈ w, c ≠ ' ' ∧ c ≠ '[')
    (ht : ∀ c ∈ t.head?, c = ' ' ∨ c = '[') : parseLine (List.replicate n ' ' ++ (w ++ t)) = parseRest n w t := by
  have h1 := cut_while (· == ' ') (List.replicate n ' ') (w ++ t) (by simp) (by
    intro c h
    cases w with
    | nil => exact absurd rfl hw
    | cons d w =>
      simp only [List.cons_append, List.head?_cons, Option.mem_def, Option.some.injEq] at h
      subst h
      simpa using (hc _ List.mem_cons_self).1)
  have h2 := cut_while (fun c => c != ' ' && c != '[') w t (by simpa using hc) (by
    intro c h
    rcases ht c h with rfl | rfl <;> rfl)
  simp only [parseLine, h1.1, h1.2, h2.1, h2.2, List.length_replicate]

/-- The parts of a statement. -/
def Stmt.parts : Stmt → Nat × Nat × List Char × List Char
  | .subgraph id label => (0, 4, id, label)
  | .direction => (1, 8, [], [])
  | .close => (2, 4, [], [])
  | .node n id label => (3, n, id, label)
  | .edge n true a b => (4, n, a, b)
  | .edge n false a b => (5, n, a, b)
  | .blank => (6, 0, [], [])
  | .classDef name attributes => (7, 4, name, attributes)
  | .classes ids name => (8, 4, [','].intercalate ids, name)
  | .style id attributes => (9, 4, id, attributes)

/-- The statement can be read: identifiers where they belong, and words for classes. -/
def Stmt.Clear : Stmt → Prop
  | .subgraph id label => Identifier id ∧ '\n' ∉ label
  | .node _ id label => Identifier id ∧ '\n' ∉ label
  | .edge _ _ a b => Identifier a ∧ Identifier b
  | .classDef name attributes => ' ' ∉ name ∧ '\n' ∉ name ∧ '\n' ∉ attributes
  | .classes ids name => ids ≠ [] ∧ (∀ id ∈ ids, Identifier id) ∧ '\n' ∉ name
  | .style id attributes => Identifier id ∧ '\n' ∉ attributes
  | _ => True

theorem identifier_only {id : List Char} (h : Identifier id) (c : Char)
    (hc : ¬ (('A' ≤ c ∧ c ≤ 'Z') ∨ ('0' ≤ c ∧ c ≤ '9') ∨ c = '_')) : c ∉ id := fun hm => hc (h.2 c hm)

theorem identifier_word {id : List Char} (h : Identifier id) : ∀ c ∈ id, c ≠ ' ' ∧ c ≠ '[' := by
  intro c hc
  constructor <;> rintro rfl
  · exact identifier_only h ' ' (by decide) hc
  · exact identifier_only h '[' (by decide) hc

theorem small_word {w : List Char} (c : Char) (hc : c ∈ w) (h : ¬ (('A' ≤ c ∧ c ≤ 'Z') ∨ ('0' ≤ c ∧ c ≤ '9') ∨ c = '_'))
    {id : List Char} (hi : Identifier id) : id ≠ w := by
  rintro rfl
  exact identifier_only hi c h hc

theorem ids_word (ids : List (List Char)) (h : ∀ id ∈ ids, Identifier id) : ∀ c ∈ [','].intercalate ids, c ≠ ' ' ∧ c ≠ '\n' := by
  induction ids with
  | nil => simp [List.intercalate]
  | cons a rest ih =>
    have ha := h a (by simp)
    have hA : ∀ c ∈ a, c ≠ ' ' ∧ c ≠ '\n' := by
      intro c hc
      constructor <;> rintro rfl
      · exact identifier_only ha ' ' (by decide) hc
      · exact identifier_only ha '\n' (by decide) hc
    cases rest with
    | nil => simpa [List.intercalate] using hA
    | cons b rest =>
      intro c hc
      have e : [','].intercalate (a :: b :: rest) = a ++ ',' :: [','].intercalate (b :: rest) := by
        simp [List.intercalate, List.intersperse]
      rw [e, List.mem_append, List.mem_cons] at hc
      rcases hc with hc | rfl | hc
      · exact hA c hc
      · decide
      · exact ih (fun id hid => h id (by simp [hid])) c hc

theorem ids_unique (a b : List (List Char)) (ha : ∀ id ∈ a, Identifier id) (hb : ∀ id ∈ b, Identifier id) (na : a ≠ [])
    (nb : b ≠ []) (h : [','].intercalate a = [','].intercalate b) : a = b := by
  have e : ∀ (x y : List Char) (l : List (List Char)), [','].intercalate (x :: y :: l) = x ++ ',' :: [','].intercalate (y :: l) := by
    intro x y l
    simp [List.intercalate, List.intersperse]
  have s : ∀ x : List Char, [','].intercalate [x] = x := by
    intro x
    simp [List.intercalate]
  have key : ∀ x : List Char, Identifier x → ∀ c ∈ x, c ≠ ',' := by
    rintro x hx c hc rfl
    exact identifier_only hx ',' (by decide) hc
  induction a generalizing b with
  | nil => exact absurd rfl na
  | cons x a ih =>
    cases b with
    | nil => exact absurd rfl nb
    | cons y b =>
      have kx := key x (ha x (by simp))
      have ky := key y (hb y (by simp))
      cases a with
      | nil =>
        cases b with
        | nil => rw [s, s] at h; rw [h]
        | cons z b =>
          rw [s, e] at h
          exact absurd rfl (kx ',' (by rw [h]; simp))
      | cons u a =>
        cases b with
        | nil =>
          rw [s, e] at h
          exact absurd rfl (ky ',' (by rw [← h]; simp))
        | cons z b =>
          rw [e, e] at h
          obtain ⟨h1, h2⟩ := split_unique (· ≠ ',') x y _ _ kx ky (by simp) (by simp) h
          rw [h1, ih (z :: b) (fun id hid => ha id (by simp [hid])) (fun id hid => hb id (by simp [hid])) (by simp)
            (by simp) (List.cons.inj h2).2]

theorem drop_quotes (label : List Char) : (label ++ ['"', ']']).dropLast.dropLast = label := by
  have : label ++ ['"', ']'] = (label ++ ['"']) ++ [']'] := by simp
  rw [this, List.dropLast_concat, List.dropLast_concat]

theorem quoted_text (pre k x id label : List Char) (hp : pre = x ++ (k ++ [' '])) :
    pre ++ id ++ "[\"".toList ++ label ++ "\"]".toList = x ++ (k ++ ' ' :: (id ++ '[' :: '"' :: (label ++ ['"', ']']))) := by
  have q : "[\"".toList = ['[', '"'] := by decide
  have q' : "\"]".toList = ['"', ']'] := by decide
  rw [hp, q, q']
  simp only [List.append_assoc, List.cons_append, List.nil_append]

theorem node_text (x id label : List Char) :
    x ++ id ++ "[\"".toList ++ label ++ "\"]".toList = x ++ (id ++ '[' :: '"' :: (label ++ ['"', ']'])) := by
  have q : "[\"".toList = ['[', '"'] := by decide
  have q' : "\"]".toList = ['"', ']'] := by decide
  rw [q, q']
  simp only [List.append_assoc, List.cons_append, List.nil_append]

theorem two_text (pre k x a b : List Char) (hp : pre = x ++ (k ++ [' '])) :
    pre ++ a ++ [' '] ++ b = x ++ (k ++ ' ' :: (a ++ ' ' :: b)) := by
  rw [hp]
  simp only [List.append_assoc, List.cons_append, List.nil_append]

theorem parse_text (s : Stmt) (h : Stmt.Clear s) : parseLine s.text = Stmt.parts s := by
  have word2 : ∀ (n : Nat) (k : String) (rest : List Char), (∀ c ∈ k.toList, c ≠ ' ' ∧ c ≠ '[') → k.toList ≠ [] →
      parseLine (List.replicate n ' ' ++ (k.toList ++ ' ' :: rest)) = parseRest n k.toList (' ' :: rest) := by
    intro n k rest h1 h2
    exact parse_line n _ _ h2 h1 (by simp)
  cases s with
  | subgraph id label =>
    have e : (Stmt.subgraph id label).text = List.replicate 4 ' ' ++ ("subgraph".toList ++ ' ' :: (id ++ '[' :: '"' :: (label ++ ['"', ']']))) := by
      exact quoted_text _ _ _ _ _ (by decide +kernel)
    rw [e, word2 _ _ _ (by decide) (by decide)]
    have hc := cut_while (· != '[') id ('[' :: '"' :: (label ++ ['"', ']']))
      (by intro c hc; simpa using (identifier_word h.1 c hc).2) (by simp)
    unfold parseRest
    rw [if_neg (by decide), if_pos rfl]
    simp only [List.drop_succ_cons, List.drop_zero, hc.1, hc.2, drop_quotes, Stmt.parts]
  | direction => decide +kernel
  | close => decide +kernel
  | blank => decide +kernel
  | node n id label =>
    have e : (Stmt.node n id label).text = List.replicate n ' ' ++ (id ++ '[' :: '"' :: (label ++ ['"', ']'])) := by
      exact node_text _ _ _
    rw [e, parse_line n _ _ h.1.1 (identifier_word h.1) (by simp)]
    unfold parseRest
    rw [if_neg h.1.1, if_neg (small_word 's' (by decide) (by decide) h.1), if_neg (small_word 'd' (by decide) (by decide) h.1),
      if_neg (small_word 'e' (by decide) (by decide) h.1), if_neg (small_word 'c' (by decide) (by decide) h.1),
      if_neg (small_word 'c' (by decide) (by decide) h.1), if_neg (small_word 's' (by decide) (by decide) h.1), if_pos (List.head?_cons ..)]
    simp only [List.drop_succ_cons, List.drop_zero, drop_quotes, Stmt.parts]
  | edge n visible a b =>
    obtain ⟨x, hx, e⟩ : ∃ x, (x = " --> ".toList ∧ visible = true ∨ x = " ~~~ ".toList ∧ visible = false) ∧
        (Stmt.edge n visible a b).text = List.replicate n ' ' ++ (a ++ (x ++ b)) := by
      cases visible
      · refine ⟨" ~~~ ".toList, .inr ⟨rfl, rfl⟩, ?_⟩
        show _ ++ a ++ " ~~~ ".toList ++ b = _
        rw [List.append_assoc, List.append_assoc]
      · refine ⟨" --> ".toList, .inl ⟨rfl, rfl⟩, ?_⟩
        show _ ++ a ++ " --> ".toList ++ b = _
        rw [List.append_assoc, List.append_assoc]
    rw [e, parse_line n _ _ h.1.1 (identifier_word h.1) (by
      rcases hx with ⟨rfl, -⟩ | ⟨rfl, -⟩ <;> · intro c hc; exact .inl (Option.some.inj hc).symm)]
    unfold parseRest
    rw [if_neg h.1.1, if_neg (small_word 's' (by decide) (by decide) h.1), if_neg (small_word 'd' (by decide) (by decide) h.1),
      if_neg (small_word 'e' (by decide) (by decide) h.1), if_neg (small_word 'c' (by decide) (by decide) h.1),
      if_neg (small_word 'c' (by decide) (by decide) h.1), if_neg (small_word 's' (by decide) (by decide) h.1)]
    rcases hx with ⟨rfl, rfl⟩ | ⟨rfl, rfl⟩
    · rw [if_neg (by simp), if_pos (by rfl)]
      rfl
    · rw [if_neg (by simp), if_neg (by intro h; exact absurd (show " ~~~ ".toList = " --> ".toList from h) (by decide))]
      rfl
  | classDef name attributes =>
    have e : (Stmt.classDef name attributes).text = List.replicate 4 ' ' ++ ("classDef".toList ++ ' ' :: (name ++ ' ' :: attributes)) := by
      exact two_text _ _ _ _ _ (by decide +kernel)
    rw [e, word2 _ _ _ (by decide) (by decide)]
    have hc := cut_while (· != ' ') name (' ' :: attributes)
      (by intro c hc; simp only [bne_iff_ne, ne_eq]; rintro rfl; exact h.1 hc) (by simp)
    unfold parseRest
    rw [if_neg (by decide), if_neg (by decide), if_neg (by decide), if_neg (by decide), if_pos rfl]
    simp only [List.drop_succ_cons, List.drop_zero, hc.1, hc.2, Stmt.parts]
  | classes ids name =>
    have e : (Stmt.classes ids name).text = List.replicate 4 ' ' ++ ("class".toList ++ ' ' :: ([','].intercalate ids ++ ' ' :: name)) := by
      exact two_text _ _ _ _ _ (by decide +kernel)
    rw [e, word2 _ _ _ (by decide) (by decide)]
    have hc := cut_while (· != ' ') ([','].intercalate ids) (' ' :: name)
      (by intro c hc; simpa using (ids_word ids h.2.1 c hc).1) (by simp)
    unfold parseRest
    rw [if_neg (by decide), if_neg (by decide), if_neg (by decide), if_neg (by decide), if_neg (by decide), if_pos rfl]
    simp only [List.drop_succ_cons, List.drop_zero, hc.1, hc.2, Stmt.parts]
  | style id attributes =>
    have e : (Stmt.style id attributes).text = List.replicate 4 ' ' ++ ("style".toList ++ ' ' :: (id ++ ' ' :: attributes)) := by
      exact two_text _ _ _ _ _ (by decide +kernel)
    rw [e, word2 _ _ _ (by decide) (by decide)]
    have hc := cut_while (· != ' ') id (' ' :: attributes)
      (by intro c hc; simpa using (identifier_word h.1 c hc).1) (by simp)
    unfold parseRest
    rw [if_neg (by decide), if_neg (by decide), if_neg (by decide), if_neg (by decide), if_neg (by decide),
      if_neg (by decide), if_pos rfl]
    simp only [List.drop_succ_cons, List.drop_zero, hc.1, hc.2, Stmt.parts]

theorem stmt_unique (s s' : Stmt) (h : Stmt.Clear s) (h' : Stmt.Clear s') (e : s.text = s'.text) : s = s' := by
  have hp : Stmt.parts s = Stmt.parts s' := by rw [← parse_text s h, e, parse_text s' h']
  clear e
  rcases s with _ | _ | _ | _ | ⟨_, _ | _, _, _⟩ | _ | _ | _ | _ <;>
  rcases s' with _ | _ | _ | _ | ⟨_, _ | _, _, _⟩ | _ | _ | _ | _ <;>
  first
  | rfl
  | (exfalso; replace hp := congrArg (·.1) hp; simp [Stmt.parts] at hp; done)
  | (simp only [Stmt.parts, Prod.mk.injEq, true_and] at hp
     obtain ⟨rfl, rfl, rfl⟩ := hp
     rfl)
  | (simp only [Stmt.parts, Prod.mk.injEq, true_and] at hp
     obtain ⟨h1, rfl⟩ := hp
     rw [ids_unique _ _ h.2.1 h'.2.1 h.1 h'.1 h1])

theorem stmt_line (s : Stmt) (h : Stmt.Clear s) : '\n' ∉ s.text := by
  have hi : ∀ {id : List Char}, Identifier id → '\n' ∉ id := fun hid => identifier_only hid '\n' (by decide)
  have hr : ∀ n : Nat, '\n' ∉ List.replicate n ' ' := fun n hm => absurd (List.eq_of_mem_replicate hm) (by decide)
  have app : ∀ {a b : List Char}, '\n' ∉ a → '\n' ∉ b → '\n' ∉ a ++ b := fun ha hb hm => (List.mem_append.1 hm).elim ha hb
  cases s with
  | subgraph id label => exact app (app (app (app (by decide) (hi h.1)) (by decide)) h.2) (by decide)
  | direction => show '\n' ∉ "        direction LR".toList; decide
  | close => show '\n' ∉ "    end".toList; decide
  | blank => exact List.not_mem_nil
  | node n id label => exact app (app (app (app (hr n) (hi h.1)) (by decide)) h.2) (by decide)
  | edge n visible a b => exact app (app (app (hr n) (hi h.1)) (by cases visible <;> decide)) (hi h.2)
  | classDef name attributes => exact app (app (app (by decide) h.2.1) (by decide)) h.2.2
  | classes ids name =>
    exact app (app (app (by decide) (fun hm => (ids_word ids h.2.1 _ hm).2 rfl)) (by decide)) h.2.2
  | style id attributes => exact app (app (app (by decide) (hi h.1)) (by decide)) h.2

theorem stmts_unique (a b : List Stmt) (ha : ∀ s ∈ a, Stmt.Clear s) (hb : ∀ s ∈ b, Stmt.Clear s)
    (h : a.map Stmt.text = b.map Stmt.text) : a = b := by
  induction a generalizing b with
  | nil => cases b with
    | nil => rfl
    | cons x b => simp at h
  | cons x a ih =>
    cases b with
    | nil => simp at h
    | cons y b =>
      rw [List.map_cons, List.map_cons, List.cons.injEq] at h
      rw [stmt_unique x y (ha x (by simp)) (hb y (by simp)) h.1,
        ih b (fun s hs => ha s (by simp [hs])) (fun s hs => hb s (by simp [hs])) h.2]

theorem flowchart_clear {text : List Char} {ss : List Stmt} (h : Flowchart text ss) : ∀ s ∈ ss, Stmt.Clear s := by
  obtain ⟨-, hw, ht⟩ := h
  intro s hs
  have hid : ∀ id, s.declared = some id → Identifier id := fun id e =>
    hw.identifiers id (List.mem_filterMap.2 ⟨s, hs, e⟩)
  have t := ht s hs
  cases s with
  | subgraph id label => exact ⟨hid id rfl, fun hm => hw.labels _ hs 0 id label (.inr rfl) _ hm (by simp)⟩
  | node n id label => exact ⟨hid id rfl, fun hm => hw.labels _ hs n id label (.inl rfl) _ hm (by simp)⟩
  | edge n v a b =>
    have := hw.edges _ hs n v a b rfl
    exact ⟨hw.identifiers _ this.1, hw.identifiers _ this.2⟩
  | classDef name attributes => exact t
  | classes ids name =>
    refine ⟨(hw.classes _ hs ids name rfl).1, fun id hid' => ?_, t⟩
    have : id ∈ ss.flatMap Stmt.classified := List.mem_flatMap.2 ⟨_, hs, hid'⟩
    rw [hw.classified, List.mem_filterMap] at this
    obtain ⟨x, hx, e⟩ := this
    refine hw.identifiers id (List.mem_filterMap.2 ⟨x, hx, ?_⟩)
    cases x <;> simp_all [Stmt.nodeId, Stmt.declared]
  | style id attributes => exact ⟨hw.identifiers _ (hw.styles _ hs id attributes rfl), t⟩
  | _ => trivial

theorem flowchart_unique {text : List Char} {ss ss' : List Stmt} (h : Flowchart text ss) (h' : Flowchart text ss') :
    ss = ss' := by
  have c := flowchart_clear h
  have c' := flowchart_clear h'
  refine stmts_unique _ _ c c' ?_
  have key : ∀ l : List Stmt, (∀ s ∈ l, Stmt.Clear s) → ∀ x ∈ "flowchart TD".toList :: l.map Stmt.text, '\n' ∉ x := by
    intro l hl x hx
    rw [List.mem_cons, List.mem_map] at hx
    rcases hx with rfl | ⟨s, hs, rfl⟩
    · decide
    · exact stmt_line s (hl s hs)
  exact (List.cons.inj (lines_unique _ _ (key ss c) (key ss' c') (h.1.symm.trans h'.1))).2

end MBus
