import Verif.Props.LegacyDiagram
/-!
# C111: the text of the older diagrams and what is in it
-/
namespace MBus
open Spec

/-! ## Styles have no line ends -/

/-- Not a style with a line end in its attributes. -/
def oneLine : DiagramLine → Bool
  | .style _ attributes => !attributes.contains '\n'
  | _ => true

theorem oneLine_rowChain (row : List (List Char)) : (rowChain row).all oneLine = true := by
  induction row with
  | nil => rfl
  | cons a t ih =>
    cases t with
    | nil => rfl
    | cons b t => rw [rowChain, List.all_cons, ih]; rfl

theorem oneLine_centered (pad : List Char) (rows : List (List (List Char))) (i : Nat) :
    (centeredLoop pad rows i).1.all oneLine = true ∧ (centeredLoop pad rows i).2.all oneLine = true := by
  induction rows generalizing i with
  | nil => exact ⟨rfl, rfl⟩
  | cons row rows ih =>
    unfold centeredLoop
    split
    · have := ih i
      exact ⟨by simp only [List.all_append, oneLine_rowChain, this.1, Bool.and_self], this.2⟩
    · have := ih (i + (4 - row.length))
      constructor
      · simp only [List.all_append, oneLine_rowChain, this.1, Bool.and_true, List.all_map, List.all_eq_true,
          Bool.and_eq_true]
        exact ⟨fun _ _ => rfl, fun _ _ => rfl⟩
      · simp only [List.all_append, this.2, Bool.and_true, List.all_map, List.all_eq_true, Bool.and_eq_true]
        exact ⟨fun _ _ => (by decide +kernel : (!"fill:none,stroke:none,color:none".toList.contains '\n') = true),
          fun _ _ => (by decide +kernel : (!"fill:none,stroke:none,color:none".toList.contains '\n') = true)⟩

theorem oneLine_recordStyle (i : Nat) : oneLine (oldRecordStyle i) = true := by
  have h : ∀ k : Fin 8, (!("fill:".toList ++ ((recordColors[k.val]?).getD ("#888", "#fff")).1.toList ++ ",color:".toList
      ++ ((recordColors[k.val]?).getD ("#888", "#fff")).2.toList ++ ",stroke:#333".toList).contains '\n') = true := by
    decide +kernel
  exact h ⟨i % 8, Nat.mod_lt _ (by decide)⟩

theorem oneLine_nodes (l : List (List Char × List Char)) :
    (l.map (fun (id, label) => DiagramLine.node 8 id label)).all oneLine = true := by
  rw [List.all_map, List.all_eq_true]
  exact fun _ _ => rfl

theorem oneLine_styles (ids : List (List Char)) (attributes : List Char) (h : attributes.contains '\n' = false) :
    (ids.map (fun id => DiagramLine.style id attributes)).all oneLine = true := by
  rw [List.all_map, List.all_eq_true]
  intro _ _
  simp only [Function.comp, oneLine, h, Bool.not_false]

theorem oneLine_device (h : LongTplHeader) :
    (deviceLines h).1.all oneLine = true ∧ (deviceLines h).2.all oneLine = true := by
  have hc := oneLine_centered "DP".toList (chunks4 ((List.range' 1 (deviceLabels h).length).map devId)) 0
  unfold deviceLines centeredChains
  constructor
  · simp only [List.all_append, oneLine_nodes, hc.1, Bool.and_true]
    rfl
  · simp only [List.all_append, hc.2, Bool.true_and]
    rw [oneLine_styles _ _ (by decide +kernel)]
    decide +kernel

theorem oneLine_recordNodes (rt : UInt32 → List Char) (rs : List DataRecord) :
    (rs.zipIdx.map (fun (r, i) => oldRecordNode rt r i)).all oneLine = true := by
  rw [List.all_map, List.all_eq_true]
  exact fun _ _ => rfl

theorem oneLine_recordStyles (n : Nat) : ((List.range n).map oldRecordStyle).all oneLine = true := by
  rw [List.all_map, List.all_eq_true]
  exact fun _ _ => oneLine_recordStyle _

theorem oneLine_wiredRecords (rt : UInt32 → List Char) (rs : Option (List DataRecord)) :
    (rs.elim ([], []) (wiredRecordLines rt)).1.all oneLine = true ∧
    (rs.elim ([], []) (wiredRecordLines rt)).2.all oneLine = true := by
  cases rs with
  | none => exact ⟨rfl, rfl⟩
  | some rs =>
    have hc := oneLine_centered "RP".toList (chunks4 ((List.range rs.length).map oldRecordId)) 0
    simp only [Option.elim_some]
    unfold wiredRecordLines centeredChains
    constructor
    · simp only [List.all_append, oneLine_recordNodes, hc.1, Bool.and_true]
      rfl
    · simp only [List.all_append, oneLine_recordStyles, hc.2, Bool.and_true, Bool.true_and]
      decide +kernel

theorem oneLine_wirelessRecords (rt : UInt32 → List Char) (rs : Option (List DataRecord)) :
    (rs.elim ([], []) (wirelessRecordLines rt)).1.all oneLine = true ∧
    (rs.elim ([], []) (wirelessRecordLines rt)).2.all oneLine = true := by
  cases rs with
  | none => exact ⟨rfl, rfl⟩
  | some rs =>
    simp only [Option.elim_some]
    unfold wirelessRecordLines
    constructor
    · simp only [List.all_append, oneLine_recordNodes, Bool.and_true]
      rfl
    · simp only [List.all_append, oneLine_recordStyles, Bool.true_and]
      decide +kernel

theorem oneLine_long (f : Function) (a : Address) :
    (longFrameLines f a).1.all oneLine = true ∧ (longFrameLines f a).2.all oneLine = true := by
  have hc := oneLine_centered "FP".toList (chunks4 ["FTYPE".toList, "FUNC".toList, "ADDR".toList]) 0
  unfold longFrameLines centeredChains
  constructor
  · simp only [List.all_append, hc.1, Bool.and_true]
    rfl
  · simp only [List.all_append, hc.2, Bool.true_and]
    rw [oneLine_styles _ _ (by decide +kernel)]
    decide +kernel

theorem oneLine_all (cfg : Cfg) (rt : UInt32 → List Char) (data : List UInt8) (ls : List DiagramLine)
    (h : mermaidOld cfg rt data = .ok ls) : ls.all oneLine = true := by
  unfold mermaidOld at h
  cases hm : MbusData.tryFromWired cfg data with
  | panic => rw [hm] at h; cases h
  | ok m =>
    rw [hm] at h
    simp only at h
    cases hf : m.frame with
    | longFrame f a c =>
      obtain ⟨rs, _, rfl⟩ := (wired_long_lines cfg rt m f a c hf ls).1 h
      have hl := oneLine_long f a
      have hr := oneLine_wiredRecords rt rs
      have hd : ((longHeader m.userData).elim ([], []) deviceLines).1.all oneLine = true ∧
          ((longHeader m.userData).elim ([], []) deviceLines).2.all oneLine = true := by
        cases longHeader m.userData with
        | none => exact ⟨rfl, rfl⟩
        | some x => exact oneLine_device x
      simp only [List.all_append, hl, hr, hd, Bool.and_self]
    | shortFrame f a =>
      unfold mermaidWired at h
      rw [hf] at h
      cases h
      rfl
    | controlFrame f a c =>
      unfold mermaidWired at h
      rw [hf] at h
      cases h
      rfl
    | singleCharacter c =>
      unfold mermaidWired at h
      rw [hf] at h
      cases h
      rfl
  | err e =>
    rw [hm] at h
    simp only at h
    rw [Res.bind_eq_ok] at h
    obtain ⟨frame, _, h⟩ := h
    cases hw : MbusData.tryFromWireless frame with
    | panic => rw [hw] at h; cases h
    | err e => rw [hw] at h; cases h; rfl
    | ok m =>
      rw [hw] at h
      obtain ⟨rs, _, rfl⟩ := (wireless_lines cfg rt m ls).1 h
      have hr := oneLine_wirelessRecords rt rs
      have hst : (wirelessNodes m.frame).map (fun (id, _) => DiagramLine.style id
            "fill:#2980b9,color:#fff,stroke:#1a5276".toList) =
          ((wirelessNodes m.frame).map (·.1)).map (fun id => .style id
            "fill:#2980b9,color:#fff,stroke:#1a5276".toList) := by
        rw [List.map_map]; rfl
      rw [hst]
      simp only [List.all_append, hr, oneLine_nodes, Bool.and_true]
      rw [oneLine_styles _ _ (by decide +kernel)]
      decide +kernel

/-! ## Reading the lines -/

theorem idChar_of {id : List Char} (h : OldIdentifier id) : ∀ c ∈ id, idChar c = true := by
  intro c hc
  have := h.2 c hc
  simp only [idChar, Bool.or_eq_true, Bool.and_eq_true, decide_eq_true_eq, beq_iff_eq]
  tauto

theorem id_span {id : List Char} (h : OldIdentifier id) (c : Char) (rest : List Char) (hc : idChar c = false) :
    (id ++ c :: rest).takeWhile idChar = id ∧ (id ++ c :: rest).dropWhile idChar = c :: rest := by
  have hi := idChar_of h
  constructor
  · rw [List.takeWhile_append_of_pos hi, List.takeWhile_cons, hc]; simp
  · rw [List.dropWhile_append_of_pos hi, List.dropWhile_cons, hc]; simp

theorem readLabel_text (label : List Char) :
    readLabel ('[' :: '"' :: (label ++ ['"', ']'])) = some label := by
  simp [readLabel]

theorem upper_head {id : List Char} (h : OldIdentifier id) : ∃ c t, id = c :: t ∧
    (('A' ≤ c ∧ c ≤ 'Z') ∨ ('0' ≤ c ∧ c ≤ '9') ∨ c = '_') := by
  cases id with
  | nil => exact absurd rfl h.1
  | cons c t => exact ⟨c, t, rfl, h.2 c (by simp)⟩

theorem drop_spaces {id : List Char} (h : OldIdentifier id) (n : Nat) (rest : List Char) :
    (List.replicate n ' ' ++ (id ++ rest)).dropWhile (· == ' ') = id ++ rest := by
  obtain ⟨c, t, rfl, hc⟩ := upper_head h
  rw [List.dropWhile_append_of_pos (by intro x hx; rw [List.eq_of_mem_replicate hx]; rfl), List.cons_append,
    List.dropWhile_cons, if_neg]
  rw [beq_iff_eq]
  rintro rfl
  revert hc; decide

/-- A line that begins with an identifier is none of the others. -/
theorem read_id {id : List Char} (h : OldIdentifier id) (n : Nat) (rest : List Char) :
    readOld (List.replicate n ' ' ++ (id ++ rest)) = match (id ++ rest).dropWhile idChar with
    | '~' :: '~' :: '~' :: b => some (.chain ((id ++ rest).takeWhile idChar) b)
    | ' ' :: '-' :: '-' :: '>' :: ' ' :: b => some (.arrow ((id ++ rest).takeWhile idChar) b)
    | r => (readLabel r).map (.node n ((id ++ rest).takeWhile idChar)) := by
  have hl : (List.replicate n ' ' ++ (id ++ rest)).length - (id ++ rest).length = n := by simp
  have h0 := drop_spaces h n rest
  unfold readOld
  simp only [h0, hl]
  obtain ⟨c, t, rfl, hc⟩ := upper_head h
  have low : ∀ x : Char, 'a' ≤ x → x ≤ 'z' → c ≠ x := by
    rintro x h1 h2 rfl
    rw [Char.le_def, UInt32.le_iff_toNat_le] at h1 h2
    simp only [Char.le_def, UInt32.le_iff_toNat_le, Char.ext_iff, ← UInt32.toNat_inj] at hc
    have e1 : 'a'.val.toNat = 97 := rfl
    have e2 : 'Z'.val.toNat = 90 := rfl
    have e3 : '9'.val.toNat = 57 := rfl
    have e4 : '_'.val.toNat = 95 := rfl
    omega
  rw [if_neg, if_neg, if_neg]
  · rfl
  · intro e
    have := congrArg List.head? e
    rw [List.cons_append, List.take_succ_cons] at this
    exact low 's' (by decide) (by decide) (Option.some.inj this)
  · intro e
    have := congrArg List.head? e
    rw [List.cons_append, List.take_succ_cons] at this
    exact low 's' (by decide) (by decide) (Option.some.inj this)
  · intro e
    have := congrArg List.head? e
    exact low 'e' (by decide) (by decide) (Option.some.inj this)

/-- The identifiers of a line. -/
def lineIds : DiagramLine → List (List Char)
  | .subgraph id _ => [id]
  | .node _ id _ => [id]
  | .chain a b => [a, b]
  | .arrow a b => [a, b]
  | .style id _ => [id]
  | .close => []

theorem read_text (l : DiagramLine) (h : ∀ id ∈ lineIds l, OldIdentifier id) : readOld l.text = some l := by
  cases l with
  | close => decide +kernel
  | subgraph id label =>
    have hi := h id (by simp [lineIds])
    have e : DiagramLine.text (.subgraph id label) = ' ' :: ' ' :: ' ' :: ' ' :: 's' :: 'u' :: 'b' :: 'g' :: 'r' :: 'a' ::
        'p' :: 'h' :: ' ' :: (id ++ '[' :: ('"' :: (label ++ ['"', ']']))) := by
      show "    subgraph ".toList ++ id ++ "[\"".toList ++ label ++ "\"]".toList = _
      simp
    obtain ⟨s1, s2⟩ := id_span hi '[' ('"' :: (label ++ ['"', ']'])) (by decide)
    rw [e]
    unfold readOld
    rw [show (' ' :: ' ' :: ' ' :: ' ' :: 's' :: 'u' :: 'b' :: 'g' :: 'r' :: 'a' ::
        'p' :: 'h' :: ' ' :: (id ++ '[' :: ('"' :: (label ++ ['"', ']'])))).dropWhile (· == ' ') =
        's' :: 'u' :: 'b' :: 'g' :: 'r' :: 'a' ::
        'p' :: 'h' :: ' ' :: (id ++ '[' :: ('"' :: (label ++ ['"', ']']))) from rfl]
    simp only [List.take_succ_cons, List.take_zero, List.drop_succ_cons, List.drop_zero, s1, s2, readLabel_text]
    rw [if_neg (by intro e; injection e with e; revert e; decide), if_pos (by decide +kernel)]
    rfl
  | style id attributes =>
    have hi := h id (by simp [lineIds])
    have e : DiagramLine.text (.style id attributes) = ' ' :: ' ' :: ' ' :: ' ' :: 's' :: 't' :: 'y' :: 'l' :: 'e' :: ' ' ::
        (id ++ ' ' :: attributes) := by
      show "    style ".toList ++ id ++ [' '] ++ attributes = _
      simp
    obtain ⟨s1, s2⟩ := id_span hi ' ' attributes (by decide)
    rw [e]
    unfold readOld
    rw [show (' ' :: ' ' :: ' ' :: ' ' :: 's' :: 't' :: 'y' :: 'l' :: 'e' :: ' ' :: (id ++ ' ' :: attributes)).dropWhile
        (· == ' ') = 's' :: 't' :: 'y' :: 'l' :: 'e' :: ' ' :: (id ++ ' ' :: attributes) from rfl]
    simp only [List.take_succ_cons, List.take_zero, List.drop_succ_cons, List.drop_zero, s1, s2]
    rw [if_neg (by intro e; injection e with e; revert e; decide),
      if_neg (by intro e; injection e with _ e; injection e with e; revert e; decide), if_pos (by decide +kernel)]
  | node n id label =>
    have hi := h id (by simp [lineIds])
    have e : DiagramLine.text (.node n id label) = List.replicate n ' ' ++
        (id ++ '[' :: ('"' :: (label ++ ['"', ']']))) := by
      show List.replicate n ' ' ++ id ++ "[\"".toList ++ label ++ "\"]".toList = _
      simp
    obtain ⟨s1, s2⟩ := id_span hi '[' ('"' :: (label ++ ['"', ']'])) (by decide)
    rw [e, read_id hi, s1, s2]
    show (readLabel _).map _ = _
    rw [readLabel_text]
    rfl
  | chain a b =>
    have hi := h a (by simp [lineIds])
    have e : DiagramLine.text (.chain a b) = List.replicate 8 ' ' ++ (a ++ '~' :: ('~' :: '~' :: b)) := by
      show "        ".toList ++ a ++ "~~~".toList ++ b = _
      simp [List.replicate]
    obtain ⟨s1, s2⟩ := id_span hi '~' ('~' :: '~' :: b) (by decide)
    rw [e, read_id hi, s1, s2]
    rfl
  | arrow a b =>
    have hi := h a (by simp [lineIds])
    have e : DiagramLine.text (.arrow a b) = List.replicate 4 ' ' ++ (a ++ ' ' :: ('-' :: '-' :: '>' :: ' ' :: b)) := by
      show "    ".toList ++ a ++ " --> ".toList ++ b = _
      simp [List.replicate]
    obtain ⟨s1, s2⟩ := id_span hi ' ' ('-' :: '-' :: '>' :: ' ' :: b) (by decide)
    rw [e, read_id hi, s1, s2]
    rfl

theorem id_no_line {id : List Char} (h : OldIdentifier id) : '\n' ∉ id := by
  intro hc
  have := h.2 _ hc
  revert this; decide

theorem not_mem_join {c : Char} {a b : List Char} (ha : c ∉ a) (hb : c ∉ b) : c ∉ a ++ b := by
  rw [List.mem_append]; tauto

theorem text_no_line (l : DiagramLine) (h : ∀ id ∈ lineIds l, OldIdentifier id) (hs : oneLine l = true)
    (hl : ∀ label, oldLabel l = some label → '\n' ∉ label) : '\n' ∉ l.text := by
  have e1 : '\n' ∉ "    subgraph ".toList := by decide +kernel
  have e2 : '\n' ∉ "[\"".toList := by decide +kernel
  have e3 : '\n' ∉ "\"]".toList := by decide +kernel
  have e4 : '\n' ∉ "        ".toList := by decide +kernel
  have e5 : '\n' ∉ "~~~".toList := by decide +kernel
  have e6 : '\n' ∉ "    ".toList := by decide +kernel
  have e7 : '\n' ∉ " --> ".toList := by decide +kernel
  have e8 : '\n' ∉ "    style ".toList := by decide +kernel
  have e9 : '\n' ∉ [' '] := by decide
  have e0 : '\n' ∉ "    end".toList := by decide +kernel
  have known : ∀ id ∈ lineIds l, '\n' ∉ id := fun id hid => id_no_line (h id hid)
  clear h
  unfold DiagramLine.text
  cases l with
  | close => exact e0
  | subgraph id label =>
    exact not_mem_join (not_mem_join (not_mem_join (not_mem_join e1 (known id (.head _))) e2) (hl label rfl)) e3
  | style id attributes =>
    simp only [oneLine, Bool.not_eq_true', List.contains_eq_mem, decide_eq_false_iff_not] at hs
    exact not_mem_join (not_mem_join (not_mem_join e8 (known id (.head _))) e9) hs
  | node n id label =>
    have e10 : '\n' ∉ List.replicate n ' ' := by simp
    exact not_mem_join (not_mem_join (not_mem_join (not_mem_join e10 (known id (.head _))) e2) (hl label rfl)) e3
  | chain a b => exact not_mem_join (not_mem_join (not_mem_join e4 (known a (.head _))) e5) (known b (.tail _ (.head _)))
  | arrow a b => exact not_mem_join (not_mem_join (not_mem_join e6 (known a (.head _))) e7) (known b (.tail _ (.head _)))

/-- C111: the text `parse_to_mermaid` returns is that of a flowchart whose lines, as Mermaid reads them, are the diagram,
unless a label has a line end in it (C111_fails_line). -/
theorem C111_text (cfg : Cfg) (rt : UInt32 → List Char) (input : List Char) (key : Option (List UInt8))
    (text : List Char) (h : parseToMermaid cfg rt input key = .ok text) :
    ∃ ls, mermaidOld cfg rt (cleanAndConvert input) = .ok ls ∧
      ((∀ l ∈ ls, ∀ label, oldLabel l = some label → '\n' ∉ label) →
        ∃ lines, TextLines text ("flowchart TD".toList :: lines) ∧ lines.map readOld = ls.map some) := by
  unfold parseToMermaid at h
  rw [Res.bind_eq_ok] at h
  obtain ⟨ls, h1, h2⟩ := h
  cases h2
  refine ⟨ls, h1, fun hl => ⟨ls.map DiagramLine.text, ⟨rfl, ?_⟩, ?_⟩⟩ <;>
    have hd := (C111_diagram_partial cfg rt _ ls h1).1 <;>
    have hall := oneLine_all cfg rt _ ls h1 <;>
    rw [List.all_eq_true] at hall <;>
    have hid : ∀ l ∈ ls, ∀ id ∈ lineIds l, OldIdentifier id := by
      have known : ∀ id ∈ ls.filterMap oldDeclared ++ ["DEV_SG".toList], OldIdentifier id := by
        intro id hid
        rw [List.mem_append, List.mem_singleton] at hid
        rcases hid with hid | rfl
        · exact hd.identifiers id hid
        · decide +kernel
      intro l hm id hid
      cases l with
      | close => simp [lineIds] at hid
      | subgraph i label =>
        simp only [lineIds, List.mem_singleton] at hid
        subst hid
        exact hd.identifiers _ (List.mem_filterMap.2 ⟨_, hm, rfl⟩)
      | node n i label =>
        simp only [lineIds, List.mem_singleton] at hid
        subst hid
        exact hd.identifiers _ (List.mem_filterMap.2 ⟨_, hm, rfl⟩)
      | style i attributes =>
        simp only [lineIds, List.mem_singleton] at hid
        subst hid
        exact known _ (hd.styles _ hm _ _ rfl)
      | chain a b =>
        simp only [lineIds, List.mem_cons, List.not_mem_nil, or_false] at hid
        rcases hid with rfl | rfl
        · exact known _ (hd.edges _ hm _ _ (.inl rfl)).1
        · exact known _ (hd.edges _ hm _ _ (.inl rfl)).2
      | arrow a b =>
        simp only [lineIds, List.mem_cons, List.not_mem_nil, or_false] at hid
        rcases hid with rfl | rfl
        · exact known _ (hd.edges _ hm _ _ (.inr rfl)).1
        · exact known _ (hd.edges _ hm _ _ (.inr rfl)).2
  · intro l hm
    rw [List.mem_cons, List.mem_map] at hm
    rcases hm with rfl | ⟨x, hx, rfl⟩
    · decide +kernel
    · exact text_no_line x (hid x hx) (hall x hx) (hl x hx)
  · rw [List.map_map]
    exact List.map_congr_left (fun x hx => read_text x (hid x hx))

/-! ## What is in the diagrams -/

theorem replace_absent (c : Char) (t v : List Char) (h : c ∉ v) : replaceChar c t v = v := by
  induction v with
  | nil => rfl
  | cons x v ih =>
    rw [List.mem_cons, not_or] at h
    rw [replaceChar_cons, if_neg (fun e => h.1 e.symm), ih h.2]
    rfl

theorem escape_plain {t : List Char} (h : Unquoted t) : mermaidEscapeOld t = t := by
  have h' : ∀ c ∈ ['"', '[', ']'], c ∉ t := fun c hc ht => h c ht hc
  unfold mermaidEscapeOld
  rw [replace_absent '"' _ t (h' _ (by decide)), replace_absent '[' _ t (h' _ (by decide)),
    replace_absent ']' _ t (h' _ (by decide))]

theorem unquoted_hexString (l : List UInt8) : Unquoted (hexString l) := by
  have h : ∀ b : UInt8, Unquoted (hexString [b]) := by decide +kernel
  induction l with
  | nil => intro c hc; cases hc
  | cons b l ih =>
    have : hexString (b :: l) = hexString [b] ++ hexString l := by simp [hexString]
    rw [this]
    exact (h b).append ih

theorem unquoted_status (b : UInt8) : Unquoted (statusDisplay b) := by
  have h : ∀ b : UInt8, Unquoted (statusDisplay b) := by decide +kernel
  exact h b

theorem wired_parsed (cfg : Cfg) (rt : UInt32 → List Char) (data : List UInt8) (fn : Function) (a : Address)
    (payload : List UInt8) (ls : List DiagramLine) (ht : WiredTelegram data (.longFrame fn a payload))
    (h : mermaidOld cfg rt data = .ok ls) :
    (∀ l ∈ (longFrameLines fn a).1, l ∈ ls) ∧
    ∀ ell header block, Block payload (.long ell header block) → ∀ l ∈ (deviceLines header).1, l ∈ ls := by
  unfold mermaidOld at h
  have h1 := (C01_wired_accepts_exactly_telegrams cfg _ _).2 ht
  cases hm : MbusData.tryFromWired cfg data with
  | panic => rw [hm] at h; cases h
  | err e =>
    exfalso
    unfold MbusData.tryFromWired at hm
    rw [h1, Res.bind_ok] at hm
    unfold MbusData.ofPayload at hm
    revert hm
    simp only
    split <;> intro hm <;> cases hm
  | ok m =>
    rw [hm] at h
    simp only at h
    have hf : m.frame = .longFrame fn a payload ∧
        ∀ blk, Block payload blk → m.userData = some blk := by
      unfold MbusData.tryFromWired at hm
      rw [h1, Res.bind_ok] at hm
      refine ⟨?_, ?_⟩
      · unfold MbusData.ofPayload at hm
        revert hm
        simp only
        split <;> intro hm <;> cases hm <;> rfl
      · intro blk hb
        simp only [MbusData.ofPayload, (C32_accepts_iff _ _).2 hb] at hm
        cases hm
        rfl
    obtain ⟨rs, _, rfl⟩ := (wired_long_lines cfg rt m fn a payload hf.1 ls).1 h
    refine ⟨?_, ?_⟩
    · intro l hl
      simp only [List.mem_append]
      tauto
    · intro ell header block hb l hl
      rw [hf.2 _ hb]
      simp only [List.mem_append, longHeader, Option.elim_some]
      tauto

/-- C111: the diagram of a long frame states its kind, function and address. -/
theorem C111_frame (cfg : Cfg) (rt : UInt32 → List Char) (data : List UInt8) (fn : Function) (a : Address)
    (payload : List UInt8) (ls : List DiagramLine) (ht : WiredTelegram data (.longFrame fn a payload))
    (h : mermaidOld cfg rt data = .ok ls) :
    ∀ l ∈ ["Long Frame".toList, "Function: ".toList ++ mermaidEscapeOld fn.display,
      "Address: ".toList ++ mermaidEscapeOld a.display], l ∈ ls.filterMap oldLabel := by
  have h1 := (wired_parsed cfg rt data fn a payload ls ht h).1
  intro l hl
  simp only [List.mem_cons, List.not_mem_nil, or_false] at hl
  rw [List.mem_filterMap]
  rcases hl with rfl | rfl | rfl
  · exact ⟨.node 8 "FTYPE".toList _, h1 _ (by simp [longFrameLines]), rfl⟩
  · exact ⟨.node 8 "FUNC".toList _, h1 _ (by simp [longFrameLines]), rfl⟩
  · exact ⟨.node 8 "ADDR".toList _, h1 _ (by simp [longFrameLines]), rfl⟩

/-- C111: the diagrams of short and control frames, and of single characters. -/
theorem C111_small (cfg : Cfg) (rt : UInt32 → List Char) (data : List UInt8) (ls : List DiagramLine)
    (h : mermaidOld cfg rt data = .ok ls) :
    (∀ fn a, WiredTelegram data (.shortFrame fn a) → ls.filterMap oldLabel = ["Short Frame".toList,
      "Function: ".toList ++ mermaidEscapeOld fn.display, "Address: ".toList ++ mermaidEscapeOld a.display]) ∧
    (∀ fn a payload, WiredTelegram data (.controlFrame fn a payload) → ls.filterMap oldLabel = ["Control Frame".toList,
      "Function: ".toList ++ mermaidEscapeOld fn.display, "Address: ".toList ++ mermaidEscapeOld a.display]) ∧
    (∀ c, WiredTelegram data (.singleCharacter c) →
      ls.filterMap oldLabel = ["Single Character: 0x".toList ++ hexString [c]]) := by
  have frame : ∀ g, WiredTelegram data g → ∃ m, m.frame = g ∧ mermaidWired cfg rt m = .ok ls := by
    intro g hg
    have h1 := (C01_wired_accepts_exactly_telegrams cfg _ _).2 hg
    unfold mermaidOld at h
    cases hm : MbusData.tryFromWired cfg data with
    | panic => rw [hm] at h; cases h
    | err e =>
      exfalso
      unfold MbusData.tryFromWired at hm
      rw [h1, Res.bind_ok] at hm
      cases g <;> simp only [MbusData.ofPayload] at hm <;> revert hm <;> try split
      all_goals intro hm; cases hm
    | ok m =>
      rw [hm] at h
      refine ⟨m, ?_, h⟩
      unfold MbusData.tryFromWired at hm
      rw [h1, Res.bind_ok] at hm
      cases g <;> simp only [MbusData.ofPayload] at hm <;> revert hm <;> try split
      all_goals intro hm; cases hm; try rfl
  refine ⟨?_, ?_, ?_⟩
  · intro fn a ht
    obtain ⟨m, h1, h2⟩ := frame _ ht
    unfold mermaidWired at h2
    rw [h1] at h2
    cases h2
    rfl
  · intro fn a payload ht
    obtain ⟨m, h1, h2⟩ := frame _ ht
    unfold mermaidWired at h2
    rw [h1] at h2
    cases h2
    rfl
  · intro c ht
    obtain ⟨m, h1, h2⟩ := frame _ ht
    unfold mermaidWired at h2
    rw [h1] at h2
    cases h2
    rfl

theorem device_label (header : LongTplHeader) (l : List Char) (hl : l ∈ deviceLabels header) :
    ∃ k, DiagramLine.node 8 (devId k) l ∈ (deviceLines header).1 := by
  obtain ⟨k, hk, rfl⟩ := List.mem_iff_getElem.1 hl
  refine ⟨1 + k, ?_⟩
  unfold deviceLines
  simp only [List.mem_append]
  left; left; right
  rw [List.mem_map]
  refine ⟨(devId (1 + k), _), ?_, rfl⟩
  rw [List.mem_iff_getElem]
  refine ⟨k, by simp [hk], ?_⟩
  simp

theorem device_labels (header : LongTplHeader) (ls : List DiagramLine) (h : ∀ l ∈ (deviceLines header).1, l ∈ ls) :
    ∀ l ∈ deviceLabels header, l ∈ ls.filterMap oldLabel := by
  intro l hl
  rw [List.mem_filterMap]
  obtain ⟨k, hk⟩ := device_label _ l hl
  exact ⟨_, h _ hk, rfl⟩

/-- C111: below a long header the diagram states the identification number, version, device type, access number, status
and manufacturer of the meter, and what is known of the manufacturer. -/
theorem C111_device (cfg : Cfg) (rt : UInt32 → List Char) (data : List UInt8) (fn : Function) (a : Address)
    (i0 i1 i2 i3 m0 m1 version device acc st c0 c1 : UInt8) (d : List UInt8) (hb : AllBcd [i0, i1, i2, i3])
    (ls : List DiagramLine)
    (ht : WiredTelegram data (.longFrame fn a ([0x72, i0, i1, i2, i3, m0, m1, version, device, acc, st, c0, c1] ++ d)))
    (h : mermaidOld cfg rt data = .ok ls) :
    (∀ l ∈ ["ID: ".toList ++ hexString [i3, i2, i1, i0], "Version: ".toList ++ natText version.toNat,
      "Device Type: ".toList ++ (DeviceType.fromByte device).debug, "Access Number: ".toList ++ natText acc.toNat,
      "Status: ".toList ++ statusDisplay st], l ∈ ls.filterMap oldLabel) ∧
    ∀ code, ManufacturerCode.fromId (le16 m0 m1) = .ok code →
      "Manufacturer: ".toList ++ mermaidEscapeOld code.display ∈ ls.filterMap oldLabel ∧
      ∀ info, lookupManufacturer code.display = some info →
        ∀ l ∈ ["Name: ".toList ++ mermaidEscapeOld info.name.toList,
          "Website: ".toList ++ mermaidEscapeOld info.website.toList,
          mermaidEscapeOld info.description.toList], l ∈ ls.filterMap oldLabel := by
  have blk := Block.long false i0 i1 i2 i3 m0 m1 version device acc st c0 c1 d hb
  have h1 := (wired_parsed cfg rt data fn a _ ls ht h).2 _ _ _ blk
  have key := device_labels _ ls h1
  refine ⟨?_, ?_⟩
  · intro l hl
    refine key l ?_
    simp only [List.mem_cons, List.not_mem_nil, or_false] at hl
    unfold deviceLabels
    simp only [List.mem_append, List.mem_cons, List.not_mem_nil, or_false]
    rcases hl with rfl | rfl | rfl | rfl | rfl
    · left; left
      rw [show idBytes false i0 i1 i2 i3 = [i0, i1, i2, i3] from rfl, idDisplay_bcd _ _ _ _ hb, escape_plain (unquoted_hexString _)]
    · simp
    · left; right; right; right; left
      rw [escape_plain (unquoted_deviceDebug _)]
    · simp
    · left; right; right; right; right; right
      rw [escape_plain (unquoted_status _)]
  · intro code hc
    refine ⟨key _ ?_, ?_⟩
    · unfold deviceLabels
      rw [hc]
      exact List.mem_append_left _ (.tail _ (.head _))
    · intro info hi l hl
      refine key l ?_
      unfold deviceLabels
      refine List.mem_append_right _ ?_
      have hi' : lookupManufacturer (manufacturerText (ManufacturerCode.fromId (le16 m0 m1))) = some info := by
        rw [hc]; exact hi
      rw [hi']
      exact hl

/-- C111: the diagram of a wireless telegram states the meter address of its link layer, and what is known of the
manufacturer. -/
theorem C111_wireless (cfg : Cfg) (rt : UInt32 → List Char) (data frame : List UInt8) (f : WirelessFrame)
    (ls : List DiagramLine) (hw : ∀ g, ¬ WiredTelegram data g) (hn : Normalized data frame)
    (ht : WirelessTelegram frame f) (h : mermaidOld cfg rt data = .ok ls) :
    (∀ l ∈ ["Wireless Frame".toList, "Function: ".toList ++ functionDebug f.function,
      "Manufacturer: ".toList ++ mermaidEscapeOld f.manufacturerId.manufacturerCode.display,
      "ID: IdentificationNumber { number: ".toList ++ natText f.manufacturerId.identificationNumber ++ " }".toList,
      "Device Type: ".toList ++ f.manufacturerId.deviceType.debug,
      "Version: ".toList ++ natText f.manufacturerId.version.toNat], l ∈ ls.filterMap oldLabel) ∧
    ∀ info, lookupManufacturer f.manufacturerId.manufacturerCode.display = some info →
      ∀ l ∈ ["Name: ".toList ++ mermaidEscapeOld info.name.toList,
        "Website: ".toList ++ mermaidEscapeOld info.website.toList,
        mermaidEscapeOld info.description.toList], l ∈ ls.filterMap oldLabel := by
  unfold mermaidOld at h
  cases hm : MbusData.tryFromWired cfg data with
  | panic => rw [hm] at h; cases h
  | ok m =>
    exfalso
    unfold MbusData.tryFromWired at hm
    rw [Res.bind_eq_ok] at hm
    obtain ⟨g, h1, _⟩ := hm
    exact hw g ((C01_wired_accepts_exactly_telegrams cfg _ _).1 h1)
  | err e =>
    rw [hm, (withoutFormatA_iff _ _).2 hn, Res.bind_ok] at h
    have h1 := (C12_wireless_accepts_exactly_telegrams _ _).2 ht
    cases hmw : MbusData.tryFromWireless frame with
    | panic => rw [hmw] at h; cases h
    | err e =>
      exfalso
      unfold MbusData.tryFromWireless at hmw
      rw [h1, Res.bind_ok] at hmw
      unfold MbusData.ofPayload at hmw
      revert hmw
      split <;> intro hm <;> cases hm
    | ok m =>
      have hf : m.frame = f := by
        unfold MbusData.tryFromWireless at hmw
        rw [h1, Res.bind_ok] at hmw
        unfold MbusData.ofPayload at hmw
        revert hmw
        split <;> intro hm <;> cases hm <;> rfl
      rw [hmw] at h
      obtain ⟨rs, _, hls⟩ := (wireless_lines cfg rt m ls).1 h
      rw [hf] at hls
      have key : ∀ n ∈ wirelessNodes f, n.2 ∈ ls.filterMap oldLabel := by
        intro n hn
        rw [List.mem_filterMap]
        refine ⟨.node 8 n.1 n.2, ?_, rfl⟩
        rw [hls]
        simp only [List.mem_append]
        left; left; left; left; left; right
        exact List.mem_map.2 ⟨n, hn, rfl⟩
      refine ⟨?_, ?_⟩
      · intro l hl
        rw [List.mem_cons] at hl
        rcases hl with rfl | hl
        · rw [List.mem_filterMap]
          exact ⟨.subgraph "FRAME_SG".toList _, by rw [hls]; simp, rfl⟩
        · have : ∃ id, (id, l) ∈ wirelessNodes f := by
            simp only [List.mem_cons, List.not_mem_nil, or_false] at hl
            unfold wirelessNodes
            rcases hl with rfl | rfl | rfl | rfl | rfl
            · exact ⟨"FUNC".toList, List.mem_append_left _ (.head _)⟩
            · exact ⟨"MFR".toList, List.mem_append_left _ (.tail _ (.head _))⟩
            · exact ⟨"ID".toList, List.mem_append_left _ (.tail _ (.tail _ (.head _)))⟩
            · exact ⟨"DEVT".toList, List.mem_append_left _ (.tail _ (.tail _ (.tail _ (.head _))))⟩
            · exact ⟨"VER".toList, List.mem_append_left _ (.tail _ (.tail _ (.tail _ (.tail _ (.head _)))))⟩
          obtain ⟨id, hid⟩ := this
          exact key _ hid
      · intro info hi l hl
        have : ∃ id, (id, l) ∈ wirelessNodes f := by
          simp only [List.mem_cons, List.not_mem_nil, or_false] at hl
          unfold wirelessNodes
          simp only [hi]
          rcases hl with rfl | rfl | rfl
          · exact ⟨"MFRNAME".toList, List.mem_append_right _ (.head _)⟩
          · exact ⟨"MFRWEB".toList, List.mem_append_right _ (.tail _ (.head _))⟩
          · exact ⟨"MFRDESC".toList, List.mem_append_right _ (.tail _ (.tail _ (.head _)))⟩
        obtain ⟨id, hid⟩ := this
        exact key _ hid

/-- The hypotheses of these theorems are met: a telegram with a long header and a reading, as text. -/
example : ∃ text, parseToMermaid ⟨false, false⟩ (fun _ => []) (hexString (olderWired 0 [0x01, 0x13, 0x05])) none = .ok text ∧
    text.length > 1000 :=
  checked _ (fun text : List Char => text.length > 1000) (by decide +kernel)

example : (∃ ls, mermaidOld ⟨false, false⟩ (fun _ => []) (cleanAndConvert (hexString (olderWired 0 [0x01, 0x13, 0x05]))) = .ok ls ∧
      ∀ l ∈ ls, ∀ label, oldLabel l = some label → '\n' ∉ label) ∧
    WiredTelegram (olderWired 0 [0x01, 0x13, 0x05]) (.longFrame (.rspUd false false) (.primary 5)
      ([0x72, 0x78, 0x56, 0x34, 0x12, 0x93, 0x15, 0x33, 0x03, 0x2A, 0x00, 0x00, 0x00] ++ [0x01, 0x13, 0x05])) ∧
    AllBcd [0x78, 0x56, 0x34, 0x12] := by
  refine ⟨?_, (C01_wired_accepts_exactly_telegrams ⟨false, false⟩ _ _).1 (by decide +kernel), by decide +kernel⟩
  have : ∃ ls, mermaidOld ⟨false, false⟩ (fun _ => []) (cleanAndConvert (hexString (olderWired 0 [0x01, 0x13, 0x05]))) = .ok ls ∧
      ∀ label ∈ ls.filterMap oldLabel, '\n' ∉ label :=
    checked _ (fun ls : List DiagramLine => ∀ label ∈ ls.filterMap oldLabel, '\n' ∉ label) (by decide +kernel)
  obtain ⟨ls, h1, h2⟩ := this
  exact ⟨ls, h1, fun l hl label e => h2 label (List.mem_filterMap.2 ⟨l, hl, e⟩)⟩

/-- The labels of the diagram of a wireless telegram. -/
example : ∃ ls, mermaidOld ⟨false, false⟩ (fun _ => []) (olderWireless [0x78, 0x01, 0x13, 0x05]) = .ok ls ∧
    "Version: 51".toList ∈ ls.filterMap oldLabel :=
  checked _ (fun ls : List DiagramLine => "Version: 51".toList ∈ ls.filterMap oldLabel) (by decide +kernel)

end MBus
