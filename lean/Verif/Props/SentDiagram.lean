import Verif.Lemmas.SentDiagram
import Verif.Props.Diagram
import Verif.Props.SentTable
/-!
# C142: what a meter sends is in the diagram
-/
namespace MBus
open MBus.Spec

theorem escape_nat (n : Nat) : mermaidEscape (natText n) = natText n := by
  have key : ∀ l : List Char, (∀ c ∈ l, c ∉ ['&', '"', '<', '>', '\n']) → mermaidEscape l = l := by
    intro l
    induction l with
    | nil => intro _; rfl
    | cons c t ih =>
      intro h
      rw [show c :: t = [c] ++ t from rfl, mermaidEscape_append, mermaidEscape_plain c (h c (by simp)),
        ih (fun x hx => h x (by simp [hx]))]
  refine key _ (fun c hc hm => ?_)
  revert hc
  simp only [List.mem_cons, List.not_mem_nil, or_false] at hm
  rcases hm with rfl | rfl | rfl | rfl | rfl <;> exact natText_only n _ (by decide)

/-- Escaped. -/
def escaped (f : List Char × List Char) : List Char × List Char := (f.1, mermaidEscape f.2)

theorem frame_facts (o : DecodedOutput) : frameNodes o = (frameFacts o).map escaped := by
  have e1 : mermaidEscape " · ".toList = " · ".toList := by decide +kernel
  have e2 : mermaidEscape "Function · ".toList = "Function · ".toList := by decide +kernel
  have e3 : mermaidEscape "Address · ".toList = "Address · ".toList := by decide +kernel
  unfold frameNodes frameFacts
  cases o.frame.function <;> cases o.frame.address <;>
    simp only [List.map_append, List.map_cons, List.map_nil, Option.toList_some, Option.toList_none, Option.map_some,
      Option.map_none, escaped, mermaidEscape_append, e1, e2, e3]

theorem meter_facts (i : MeterIdentity) : meterNodes i = (meterFacts i).map escaped := by
  have e1 : mermaidEscape "ID · ".toList = "ID · ".toList := by decide +kernel
  have e2 : mermaidEscape "Manufacturer · ".toList = "Manufacturer · ".toList := by decide +kernel
  have e3 : mermaidEscape "Type · ".toList = "Type · ".toList := by decide +kernel
  have e4 : mermaidEscape "Version · ".toList = "Version · ".toList := by decide +kernel
  unfold meterNodes meterFacts
  simp only [← natText_toString]
  cases i.deviceType <;> cases i.version <;>
    simp only [List.map_append, List.map_cons, List.map_nil, Option.toList_some, Option.toList_none, Option.map_some,
      Option.map_none, escaped, mermaidEscape_append, e1, e2, e3, e4, escape_nat]

theorem record_facts (env : TextEnv) (o : DecodedOutput) : recordNodes env o = (recordFacts env o).map escaped := by
  simp only [recordNodes, recordFacts, List.map_map, Function.comp_def, escaped, recordNode, natText_toString, reading_texts]

theorem map_escaped_ids (l : List (List Char × List Char)) : (l.map escaped).map (·.1) = l.map (·.1) := by
  simp [escaped]

theorem nodes_skip (g : Option (List Char)) (ss rest : List Stmt)
    (h : ∀ s ∈ ss, (∀ id label, s ≠ .subgraph id label) ∧ s ≠ .close ∧ ∀ n id label, s ≠ .node n id label) :
    nodesIn g (ss ++ rest) = nodesIn g rest := by
  induction ss with
  | nil => rfl
  | cons s ss ih =>
    have hs := h s (by simp)
    rw [← ih (fun x hx => h x (by simp [hx])), List.cons_append]
    cases s with
    | subgraph id label => exact absurd rfl (hs.1 id label)
    | close => exact absurd rfl hs.2.1
    | node n id label => exact absurd rfl (hs.2.2 n id label)
    | _ => rfl

theorem nodes_here (g : Option (List Char)) (nodes : List (List Char × List Char)) (rest : List Stmt) :
    nodesIn g (nodes.map (fun n => .node 8 n.1 n.2) ++ rest) = nodes.map (fun n => (g, n.1, n.2)) ++ nodesIn g rest := by
  induction nodes with
  | nil => rfl
  | cons n nodes ih =>
    exact congrArg ((g, n.1, n.2) :: ·) ih

theorem nodes_block (id label : List Char) (nodes : List (List Char × List Char)) (visible : Bool) (rest : List Stmt) :
    nodesIn none (blockStmts id label nodes visible ++ rest) =
      nodes.map (fun n => (some id, n.1, n.2)) ++ nodesIn none rest := by
  have : blockStmts id label nodes visible ++ rest =
      .subgraph id label :: .direction :: (nodes.map (fun n => .node 8 n.1 n.2)
        ++ (chainStmts visible (nodes.map (·.1)) ++ .close :: rest)) := by
    simp [blockStmts]
  rw [this]
  show nodesIn (some id) (nodes.map (fun n => .node 8 n.1 n.2) ++ _) = _
  rw [nodes_here, nodes_skip]
  · rfl
  · intro s hs
    obtain ⟨a, b, rfl, _, _⟩ := chain_shape visible _ s hs
    exact ⟨fun _ _ => by simp, by simp, fun _ _ _ => by simp⟩

theorem diagram_nodes_in (env : TextEnv) (o : DecodedOutput) : nodesIn none (diagram env o) =
    (telegramPicture env o).nodes.map (fun n => (n.1, n.2.1, mermaidEscape n.2.2)) := by
  have hrest : nodesIn none ([Stmt.blank] ++ classDefs.map (fun c => Stmt.classDef c.1.toList c.2.toList)
      ++ (classStmts o ++ styleStmts o)) = [] := by
    let f : Stmt → Option Unit := fun s => match s with
      | .subgraph _ _ => some ()
      | .close => some ()
      | .node _ _ _ => some ()
      | _ => none
    have := rest_none f rfl (fun _ _ => rfl) (fun _ _ => rfl) (fun _ _ => rfl) o
    rw [List.filterMap_eq_nil_iff] at this
    have h := nodes_skip none _ [] (fun s hs => by
      have := this s hs
      refine ⟨?_, ?_, ?_⟩
      · rintro id label rfl; simp [f] at this
      · rintro rfl; simp [f] at this
      · rintro n id label rfl; simp [f] at this)
    rw [List.append_nil] at h
    exact h
  have h1 : ∀ rest, nodesIn none (meterStmts o ++ rest) = o.meter.identity.toList.flatMap (fun i =>
      (meterNodes i).map (fun n => (some "METER_SG".toList, n.1, n.2))) ++ nodesIn none rest := by
    intro rest
    unfold meterStmts
    cases o.meter.identity with
    | none => rfl
    | some i =>
      rw [List.append_assoc, nodes_block]
      simp only [Option.toList_some, List.flatMap_cons, List.flatMap_nil, List.append_nil]
      rfl
  have h2 : ∀ rest, nodesIn none (recordStmts env o ++ rest) =
      (recordNodes env o).map (fun n => (some "RECORDS_SG".toList, n.1, n.2)) ++ nodesIn none rest := by
    intro rest
    unfold recordStmts
    split
    · rename_i h
      simp only [recordNodes, h, List.map_nil, List.nil_append]
    · rw [List.append_assoc, nodes_block]
      rfl
  have h3 : ∀ rest, nodesIn none (diagnosticStmts o ++ rest) = o.diagnostics.head?.toList.map (fun d =>
      (none, "DIAG".toList, mermaidEscape ((toString o.diagnostics.length).toList ++ " diagnostic(s) · ".toList ++ d.code)))
      ++ nodesIn none rest := by
    intro rest
    have e : mermaidEscape " diagnostic(s) · ".toList = " diagnostic(s) · ".toList := by decide +kernel
    simp only [← natText_toString, mermaidEscape_append, e, escape_nat]
    unfold diagnosticStmts
    cases o.diagnostics with
    | nil => rfl
    | cons d ds => rfl
  have h4 : ∀ rest, nodesIn none ([.edge 4 true "FRAME_SG".toList "SECURITY_SG".toList] ++ rest) = nodesIn none rest :=
    fun _ => rfl
  rw [diagram_eq, declStmts]
  simp only [List.append_assoc]
  rw [nodes_block, h1, nodes_block, h4, h2, h3]
  simp only [List.append_assoc] at hrest
  rw [hrest, frame_facts, record_facts]
  simp only [meter_facts]
  simp only [telegramPicture, List.map_append, List.map_map, List.map_flatMap, Function.comp_def, escaped, List.append_assoc,
    List.append_nil, securityNodes, List.map_cons, List.map_nil]

theorem links_chain (visible : Bool) (ids : List (List Char)) : linksIn (chainStmts visible ids) = linkAll visible ids := by
  induction ids with
  | nil => rfl
  | cons a rest ih =>
    cases rest with
    | nil => rfl
    | cons b rest =>
      show (visible, a, b) :: linksIn (chainStmts visible (b :: rest)) = _
      rw [ih]
      rfl

theorem links_append (a b : List Stmt) : linksIn (a ++ b) = linksIn a ++ linksIn b := by
  unfold linksIn
  rw [List.filterMap_append]

theorem links_block (id label : List Char) (nodes : List (List Char × List Char)) (visible : Bool) :
    linksIn (blockStmts id label nodes visible) = linkAll visible (nodes.map (·.1)) := by
  have : linksIn (nodes.map (fun n => Stmt.node 8 n.1 n.2)) = [] := by
    unfold linksIn
    rw [List.filterMap_eq_nil_iff]
    intro s hs
    rw [List.mem_map] at hs
    obtain ⟨_, _, rfl⟩ := hs
    rfl
  rw [blockStmts, links_append, links_append, links_append, this, links_chain]
  show [] ++ [] ++ _ ++ [] = _
  simp

theorem diagram_links (env : TextEnv) (o : DecodedOutput) :
    linksIn (diagram env o) = (telegramPicture env o).links := by
  have h1 : linksIn (meterStmts o) = o.meter.identity.toList.flatMap (fun i => linkAll true ((meterFacts i).map (·.1)) ++
      [(true, "FRAME_SG".toList, "METER_SG".toList)]) := by
    unfold meterStmts
    cases o.meter.identity with
    | none => rfl
    | some i =>
      simp only [links_append, links_block, meter_facts, map_escaped_ids, Option.toList_some, List.flatMap_cons,
        List.flatMap_nil, List.append_nil]
      rfl
  have h2 : linksIn (recordStmts env o) = (if o.records = [] then [] else [()]).flatMap (fun _ =>
      linkAll false ((recordFacts env o).map (·.1)) ++
        [(true, (if o.meter.identity.toList = [] then "FRAME_SG" else "METER_SG").toList, "RECORDS_SG".toList)]) := by
    unfold recordStmts
    split
    · rfl
    · cases o.meter.identity <;>
      · simp only [links_append, links_block, record_facts, map_escaped_ids, List.flatMap_cons, List.flatMap_nil,
          List.append_nil]
        rfl
  have h3 : linksIn (diagnosticStmts o) = o.diagnostics.head?.toList.map (fun _ =>
      (true, "FRAME_SG".toList, "DIAG".toList)) := by
    unfold diagnosticStmts
    cases o.diagnostics with
    | nil => rfl
    | cons d ds => rfl
  rw [diagram_eq, links_append]
  have h0 : linksIn ([Stmt.blank] ++ classDefs.map (fun c => Stmt.classDef c.1.toList c.2.toList)
      ++ (classStmts o ++ styleStmts o)) = [] :=
    rest_none _ rfl (fun _ _ => rfl) (fun _ _ => rfl) (fun _ _ => rfl) o
  rw [h0, List.append_nil]
  simp only [declStmts, links_append, links_block, h1, h2, h3, frame_facts, map_escaped_ids]
  simp only [telegramPicture, List.append_assoc, securityNodes, List.map_cons, List.map_nil]
  rfl

theorem groups_append (a b : List Stmt) : groupsIn (a ++ b) = groupsIn a ++ groupsIn b := by
  unfold groupsIn
  rw [List.filterMap_append]

theorem groups_block (id label : List Char) (nodes : List (List Char × List Char)) (visible : Bool) :
    groupsIn (blockStmts id label nodes visible) = [(id, label)] := by
  have h1 : groupsIn (nodes.map (fun n => Stmt.node 8 n.1 n.2)) = [] := by
    unfold groupsIn
    rw [List.filterMap_eq_nil_iff]
    intro s hs
    rw [List.mem_map] at hs
    obtain ⟨_, _, rfl⟩ := hs
    rfl
  have h2 : groupsIn (chainStmts visible (nodes.map (·.1))) = [] := filterMap_chain _ (fun _ _ _ _ => rfl) _ _
  rw [blockStmts, groups_append, groups_append, groups_append, h1, h2]
  rfl

theorem diagram_groups (env : TextEnv) (o : DecodedOutput) :
    groupsIn (diagram env o) = (telegramPicture env o).groups := by
  have h1 : groupsIn (meterStmts o) = o.meter.identity.toList.map (fun _ => ("METER_SG".toList, "Meter".toList)) := by
    unfold meterStmts
    cases o.meter.identity with
    | none => rfl
    | some i =>
      simp only [groups_append, groups_block]
      rfl
  have h2 : groupsIn (recordStmts env o) = (if o.records = [] then [] else [()]).map (fun _ =>
      ("RECORDS_SG".toList, "Data Records · ".toList ++ (toString o.records.length).toList)) := by
    unfold recordStmts
    split
    · rfl
    · simp only [groups_append, groups_block, natText_toString]
      rfl
  have h3 : groupsIn (diagnosticStmts o) = [] := by
    unfold diagnosticStmts
    cases o.diagnostics with
    | nil => rfl
    | cons d ds => rfl
  rw [diagram_eq, groups_append]
  have h0 : groupsIn ([Stmt.blank] ++ classDefs.map (fun c => Stmt.classDef c.1.toList c.2.toList)
      ++ (classStmts o ++ styleStmts o)) = [] :=
    rest_none _ rfl (fun _ _ => rfl) (fun _ _ => rfl) (fun _ _ => rfl) o
  rw [h0, List.append_nil]
  simp only [declStmts, groups_append, groups_block, h1, h2, h3]
  have h4 : groupsIn [Stmt.edge 4 true "FRAME_SG".toList "SECURITY_SG".toList] = [] := rfl
  simp only [telegramPicture, List.append_assoc, h4, List.append_nil]

theorem classes_append (a b : List Stmt) : classesIn (a ++ b) = classesIn a ++ classesIn b := by
  unfold classesIn
  rw [List.flatMap_append]

theorem classes_none (ss : List Stmt) (h : ss.flatMap Stmt.classified = []) : classesIn ss = [] := by
  rw [List.flatMap_eq_nil_iff] at h
  unfold classesIn
  rw [List.flatMap_eq_nil_iff]
  intro s hs
  have := h s hs
  cases s with
  | classes ids name =>
    simp only [Stmt.classified] at this
    simp [this]
  | _ => rfl

theorem record_class (r : RecordOutput) : recordClassName r = "record".toList ++ (toString (r.index % 8)).toList := by
  rw [← natText_toString]
  have h : r.index % 8 < 8 := Nat.mod_lt _ (by decide)
  show ((recordClasses[r.index % 8]?.getD "record0").toList) = _
  generalize r.index % 8 = k at h
  interval_cases k <;> decide +kernel

theorem diagram_classes (env : TextEnv) (o : DecodedOutput) :
    classesIn (diagram env o) = (telegramPicture env o).classes := by
  have h0 : classesIn (declStmts env o) = [] := by
    apply classes_none
    have h1 : (meterStmts o).flatMap Stmt.classified = [] := by
      unfold meterStmts
      cases o.meter.identity with
      | none => rfl
      | some i => simp only [List.flatMap_append, block_classified]; rfl
    have h2 : (recordStmts env o).flatMap Stmt.classified = [] := by
      unfold recordStmts
      split
      · rfl
      · simp only [List.flatMap_append, block_classified]; rfl
    have h3 : (diagnosticStmts o).flatMap Stmt.classified = [] := by
      unfold diagnosticStmts
      cases o.diagnostics with
      | nil => rfl
      | cons d ds => rfl
    simp only [declStmts, List.flatMap_append, block_classified, h1, h2, h3]
    rfl
  have h4 : classesIn ([Stmt.blank] ++ classDefs.map (fun c => Stmt.classDef c.1.toList c.2.toList)) = [] := by
    apply classes_none
    rw [List.flatMap_eq_nil_iff]
    intro s hs
    simp only [List.mem_append, List.mem_singleton, List.mem_map] at hs
    rcases hs with rfl | ⟨c, _, rfl⟩ <;> rfl
  have h5 : classesIn (styleStmts o) = [] := by
    apply classes_none
    unfold styleStmts
    by_cases h1 : o.meter.identity.isSome = true <;> by_cases h2 : o.records = [] <;>
      simp only [h1, h2, List.flatMap_append, List.flatMap_cons, List.flatMap_nil, if_true, if_false,
        Stmt.classified, List.append_nil, Bool.false_eq_true]
  have h6 : classesIn (meterClasses o) = o.meter.identity.toList.flatMap (fun i =>
      (meterFacts i).map (fun f => (f.1, "meter".toList))) := by
    unfold meterClasses
    cases o.meter.identity with
    | none => rfl
    | some i =>
      obtain ⟨a, b, c, version, type, k⟩ := i
      cases version <;> cases type <;> rfl
  have h7 : classesIn (o.records.map (fun r => Stmt.classes [recordNode r] (recordClassName r))) = o.records.map (fun r =>
      ('R' :: (toString r.index).toList, "record".toList ++ (toString (r.index % 8)).toList)) := by
    unfold classesIn
    rw [List.flatMap_map, List.map_eq_flatMap]
    simp only [record_class, recordNode, natText_toString, List.map_cons, List.map_nil]
  have h8 : classesIn (if o.diagnostics = [] then [] else [Stmt.classes ["DIAG".toList] "diagnostic".toList]) =
      o.diagnostics.head?.toList.map (fun _ => ("DIAG".toList, "diagnostic".toList)) := by
    cases o.diagnostics <;> rfl
  have h9 : ∀ ids name, classesIn [Stmt.classes ids name] = ids.map (fun id => (id, name)) := by
    intro ids name
    simp [classesIn]
  rw [diagram_eq, classes_append, h0, List.nil_append, classes_append, h4, List.nil_append, classes_append, h5,
    List.append_nil]
  simp only [classStmts, classes_append, h6, h7, h8, h9, frame_facts, List.map_map, Function.comp_def]
  simp only [telegramPicture, List.append_assoc, List.map_cons, List.map_nil, escaped]

theorem diagram_tidy (env : TextEnv) (o : DecodedOutput) : ∀ s ∈ diagram env o, s.Tidy := by
  have key : ∀ ss : List Stmt, (∀ s ∈ ss, (∀ a b, s ≠ .classDef a b) ∧ (∀ a b, s ≠ .classes a b) ∧ ∀ a b, s ≠ .style a b) →
      ∀ s ∈ ss, s.Tidy := by
    intro ss h s hs
    have := h s hs
    cases s with
    | classDef a b => exact absurd rfl (this.1 a b)
    | classes a b => exact absurd rfl (this.2.1 a b)
    | style a b => exact absurd rfl (this.2.2 a b)
    | _ => trivial
  have hb : ∀ id label nodes visible, ∀ s ∈ blockStmts id label nodes visible, s.Tidy := by
    intro id label nodes visible s hs
    simp only [blockStmts, List.mem_append, List.mem_cons, List.not_mem_nil, or_false, List.mem_map] at hs
    rcases hs with (((rfl | rfl) | ⟨_, _, rfl⟩) | hs) | rfl <;> try trivial
    obtain ⟨a, b, rfl, _, _⟩ := chain_shape visible _ s hs
    trivial
  have hm : ∀ s ∈ meterStmts o, s.Tidy := by
    unfold meterStmts
    cases o.meter.identity with
    | none => simp
    | some i =>
      intro s hs
      rw [List.mem_append, List.mem_singleton] at hs
      rcases hs with hs | rfl
      · exact hb _ _ _ _ s hs
      · trivial
  have hr : ∀ s ∈ recordStmts env o, s.Tidy := by
    unfold recordStmts
    split
    · simp
    · intro s hs
      rw [List.mem_append, List.mem_singleton] at hs
      rcases hs with hs | rfl
      · exact hb _ _ _ _ s hs
      · trivial
  have hd : ∀ s ∈ diagnosticStmts o, s.Tidy := by
    unfold diagnosticStmts
    cases o.diagnostics with
    | nil => simp
    | cons d ds =>
      intro s hs
      simp only [List.mem_cons, List.not_mem_nil, or_false] at hs
      rcases hs with rfl | rfl <;> trivial
  have hdefs : ∀ c ∈ classDefs, ' ' ∉ c.1.toList ∧ '\n' ∉ c.1.toList ∧ '\n' ∉ c.2.toList := by decide +kernel
  have hcl : ∀ s ∈ classStmts o, s.Tidy := by
    intro s hs
    simp only [classStmts, List.mem_append, List.mem_singleton, List.mem_map] at hs
    rcases hs with (((rfl | hs) | rfl) | ⟨r, _, rfl⟩) | hs
    · show '\n' ∉ "frame".toList; decide
    · have hmeter : '\n' ∉ "meter".toList := by decide
      unfold meterClasses at hs
      cases hi : o.meter.identity with
      | none => rw [hi] at hs; simp at hs
      | some i =>
        rw [hi] at hs
        simp only [List.mem_append, List.mem_singleton] at hs
        rcases hs with (rfl | hs) | hs
        · exact hmeter
        · split at hs
          · rw [List.mem_singleton] at hs; subst hs; exact hmeter
          · simp at hs
        · split at hs
          · rw [List.mem_singleton] at hs; subst hs; exact hmeter
          · simp at hs
    · show '\n' ∉ "security".toList; decide
    · show '\n' ∉ recordClassName r
      rw [record_class, List.mem_append]
      rintro (h | h)
      · revert h; decide
      · rw [← natText_toString] at h
        exact natText_only _ _ (by decide) h
    · split at hs
      · simp at hs
      · rw [List.mem_singleton] at hs; subst hs
        show '\n' ∉ "diagnostic".toList; decide
  have hst : ∀ s ∈ styleStmts o, s.Tidy := by
    intro s hs
    simp only [styleStmts, List.mem_append, List.mem_singleton] at hs
    rcases hs with ((rfl | hs) | rfl) | hs
    · show '\n' ∉ "fill:#e8f1fb,stroke:#1565c0,color:#0d1117".toList; decide +kernel
    · split at hs
      · rw [List.mem_singleton] at hs; subst hs
        show '\n' ∉ "fill:#e8f5e9,stroke:#2e7d32,color:#0d1117".toList; decide +kernel
      · simp at hs
    · show '\n' ∉ "fill:#fff3e0,stroke:#e65100,color:#0d1117".toList; decide +kernel
    · split at hs
      · simp at hs
      · rw [List.mem_singleton] at hs; subst hs
        show '\n' ∉ "fill:#f3e5f5,stroke:#6a1b9a,color:#0d1117".toList; decide +kernel
  intro s hs
  rw [diagram_eq, declStmts] at hs
  simp only [List.mem_append] at hs
  rcases hs with (((((hs | hs) | hs) | hs) | hs) | hs) | (hs | hs) | hs | hs
  · exact hb _ _ _ _ s hs
  · exact hm s hs
  · exact hb _ _ _ _ s hs
  · rw [List.mem_singleton] at hs; subst hs; trivial
  · exact hr s hs
  · exact hd s hs
  · rw [List.mem_singleton] at hs; subst hs; trivial
  · rw [List.mem_map] at hs
    obtain ⟨c, hc, rfl⟩ := hs
    exact hdefs c hc
  · exact hcl s hs
  · exact hst s hs

theorem diagram_flowchart (env : TextEnv) (o : DecodedOutput) (hi : (o.records.map (·.index)).Nodup) :
    Flowchart (renderMermaid env o) (diagram env o) := by
  refine ⟨by rw [renderMermaid, diagram_text]; rfl, ?_, diagram_tidy env o⟩
  have hok := diagram_ok env o
  refine ⟨diagram_nested env o, declared_nodup env o hi, declared_identifiers env o, ?_, ?_, ?_, ?_, ?_⟩
  · rintro s hs n id label (rfl | rfl)
    · exact hok _ hs
    · exact hok _ hs
  · rintro s hs n v a b rfl
    exact hok _ hs
  · rintro s hs ids name rfl
    exact hok _ hs
  · rw [diagram_classified, diagram_nodes]
  · rintro s hs id a rfl
    exact hok _ hs

/-- C142: the diagram of every decoded telegram shows exactly its frame, meter, security, records and first diagnostic. -/
theorem C142_picture (cfg : Cfg) (env : TextEnv) (aes : AesBlock) (data : List UInt8) (options : DecodeOptions)
    (o : DecodedOutput) (h : decodeBytes cfg aes data options = .ok o) :
    Depicts (telegramPicture env o) (renderMermaid env o) := by
  have hi : (o.records.map (·.index)).Nodup := by
    rw [C89_indices cfg aes data options o h]
    exact List.nodup_range
  refine ⟨diagram env o, diagram_flowchart env o hi, diagram_groups env o, diagram_links env o, diagram_classes env o, ?_⟩
  rw [diagram_nodes_in, List.forall₂_map_right_iff, List.forall₂_same]
  exact fun n _ => ⟨rfl, rfl, C52_shows _⟩

/-- The picture of a telegram with two records: nodes for the frame, the meter, the security and the records. -/
example : (match decodeBytes cfgRelease (fun _ b => b)
      (wiredLong [0x72, 0x78, 0x56, 0x34, 0x12, 0x24, 0x40, 0x01, 0x07, 0x55, 0x00, 0x00, 0x00,
        0x04, 0x13, 0x39, 0x30, 0x00, 0x00, 0x44, 0x06, 0x01, 0x00, 0x00, 0x00]) ⟨none, false⟩ with
    | .ok o => decide ((telegramPicture plainEnv o).nodes.length = 11 ∧ (telegramPicture plainEnv o).links.length = 10 ∧
        (some "RECORDS_SG".toList, "R0".toList, "Volume: 12.345 m3".toList) ∈ (telegramPicture plainEnv o).nodes ∧
        ("R1".toList, "record1".toList) ∈ (telegramPicture plainEnv o).classes)
    | _ => false) = true := by decide +kernel

/-- C142: a diagram can be read back: it determines subgraphs, headings, links, classes, and the text of each node, but
for newlines, which it shows as blanks. -/
theorem C142_read (p p' : Picture) (text : List Char) (h : Depicts p text) (h' : Depicts p' text) :
    p.groups = p'.groups ∧ p.links = p'.links ∧ p.classes = p'.classes ∧
      List.Forall₂ (fun n n' => n.1 = n'.1 ∧ n.2.1 = n'.2.1 ∧
        n.2.2.map (fun c => if c = '\n' then ' ' else c) = n'.2.2.map (fun c => if c = '\n' then ' ' else c))
        p.nodes p'.nodes := by
  obtain ⟨ss, f, g, l, c, n⟩ := h
  obtain ⟨ss', f', g', l', c', n'⟩ := h'
  cases flowchart_unique f f'
  refine ⟨g.symm.trans g', l.symm.trans l', c.symm.trans c', ?_⟩
  rw [List.forall₂_iff_get] at n n' ⊢
  refine ⟨n.1.trans n'.1.symm, fun i h1 h2 => ?_⟩
  have a := n.2 i h1 (n.1 ▸ h1)
  have b := n'.2 i h2 (n.1 ▸ h1)
  exact ⟨a.1.symm.trans b.1, a.2.1.symm.trans b.2.1, shows_unique a.2.2 b.2.2⟩

/-! ## The readings and the meter -/

theorem filter_other (t s : List Char) (h : s ≠ t) (l : List (List Char × List Char)) :
    (l.map (fun f => (some s, f.1, f.2))).filter (fun n => n.1 = some t) = [] := by
  rw [List.filter_eq_nil_iff]
  intro n hn
  obtain ⟨f, -, rfl⟩ := List.mem_map.1 hn
  simpa using h

theorem filter_same (t : List Char) (l : List (List Char × List Char)) :
    (l.map (fun f => (some t, f.1, f.2))).filter (fun n => n.1 = some t) = l.map (fun f => (some t, f.1, f.2)) := by
  rw [List.filter_eq_self]
  intro n hn
  obtain ⟨f, -, rfl⟩ := List.mem_map.1 hn
  simp

theorem filter_single {α : Type} (t : List Char) (l : List α) (f : α → List Char × List Char) :
    (l.map (fun d => ((none : Option (List Char)), f d))).filter (fun n => n.1 = some t) = [] := by
  simp [List.filter_eq_nil_iff]

theorem picture_records (env : TextEnv) (o : DecodedOutput) :
    (telegramPicture env o).nodes.filter (fun n => n.1 = some "RECORDS_SG".toList) =
      (recordFacts env o).map (fun f => (some "RECORDS_SG".toList, f.1, f.2)) := by
  have h2 : ∀ ms : List MeterIdentity, (ms.flatMap (fun i => (meterFacts i).map (fun f =>
      (some "METER_SG".toList, f.1, f.2)))).filter (fun n => n.1 = some "RECORDS_SG".toList) = [] := by
    intro ms
    rw [List.filter_flatMap, List.flatMap_eq_nil_iff]
    exact fun i _ => filter_other _ _ (by decide) _
  simp only [telegramPicture]
  rw [List.filter_append, List.filter_append, List.filter_append, List.filter_append, filter_other _ _ (by decide), h2,
    filter_other _ _ (by decide), filter_same, filter_single]
  simp only [List.nil_append, List.append_nil]

theorem picture_meter (env : TextEnv) (o : DecodedOutput) :
    (telegramPicture env o).nodes.filter (fun n => n.1 = some "METER_SG".toList) =
      o.meter.identity.toList.flatMap (fun i => (meterFacts i).map (fun f => (some "METER_SG".toList, f.1, f.2))) := by
  have h2 : ∀ ms : List MeterIdentity, (ms.flatMap (fun i => (meterFacts i).map (fun f =>
      (some "METER_SG".toList, f.1, f.2)))).filter (fun n => n.1 = some "METER_SG".toList) =
      ms.flatMap (fun i => (meterFacts i).map (fun f => (some "METER_SG".toList, f.1, f.2))) := by
    intro ms
    rw [List.filter_flatMap]
    simp only [filter_same]
  simp only [telegramPicture]
  rw [List.filter_append, List.filter_append, List.filter_append, List.filter_append, filter_other _ _ (by decide), h2,
    filter_other _ _ (by decide), filter_other _ _ (by decide), filter_single]
  simp only [List.nil_append, List.append_nil]

theorem decoded_diagram (cfg : Cfg) (env : TextEnv) (aes : AesBlock) (data : List UInt8) (options : DecodeOptions)
    (readings : List MeterReading) (o : DecodedOutput) (h : decodeBytes cfg aes data options = .ok o)
    (hr : List.Forall₂ Shown readings o.records) : DiagramReadings env.realText readings (renderMermaid env o) := by
  refine ⟨telegramPicture env o, C142_picture cfg env aes data options o h, ?_⟩
  have hidx := C89_indices cfg aes data options o h
  rw [picture_records, recordFacts, List.map_map, List.forall₂_map_right_iff, List.forall₂_iff_get]
  refine ⟨by rw [List.length_zipIdx, hr.length_eq], fun i h1 h2 => ?_⟩
  have hl : i < readings.length := by simpa using h1
  have hxi : o.records[i].index = i := by
    have := congrArg (fun l => l[i]?) hidx
    simp [h2] at this
    exact this
  have := shown_texts env _ _ (List.Forall₂.get hr hl h2)
  simp only [List.get_eq_getElem] at this
  simp only [List.get_eq_getElem, List.getElem_zipIdx, Function.comp_apply, hxi, Nat.zero_add, true_and]
  exact this.reading

theorem diagram_everywhere (cfg : Cfg) (env : CliEnv) (aes : AesBlock) (text : List Char) (data : List UInt8)
    (keyText : Option (List Char)) (key : Option (List UInt8)) (enrichment : Bool) (readings : List MeterReading)
    (ht : Spelled text data) (hk : KeyGiven keyText key)
    (h : ∃ o, decodeBytes cfg aes data ⟨key, enrichment⟩ = .ok o ∧ o.decodeState = "complete".toList ∧
      List.Forall₂ Shown readings o.records) :
    AnsweredWell cfg env aes text keyText enrichment "mermaid" (DiagramReadings env.front.text.realText readings) := by
  obtain ⟨o, h1, -, h3⟩ := h
  refine answered_well cfg env aes text data keyText key enrichment "mermaid" .mermaid (by decide +kernel) _ ht hk
    (fun width => ⟨renderMermaid env.front.text o, ?_, decoded_diagram cfg _ aes data ⟨key, enrichment⟩ readings o h1 h3⟩)
  simp [renderBytes, h1, renderDecoded, Res.mapErr]

/-- C142: for a telegram with unencrypted data, given as text in any spelling, the command line program, JavaScript and
Python give a diagram whose records are exactly the readings the meter sent.  Missing are the readings that are shown
wrong (`C123_fails`). -/
theorem C142_clear_partial (cfg : Cfg) (env : CliEnv) (aes : AesBlock) (text : List Char)
    (data : List UInt8) (link : Option ManufacturerId) (payload d : List UInt8) (keyText : Option (List Char))
    (key : Option (List UInt8)) (enrichment : Bool) (readings : List MeterReading) (hx : Spelled text data)
    (hk : KeyGiven keyText key) (ht : Telegram data link payload) (hd : ClearData payload d) (hm : Message 7 readings d)
    (hr : ∀ r ∈ readings, Readable r) :
    AnsweredWell cfg env aes text keyText enrichment "mermaid" (DiagramReadings env.front.text.realText readings) :=
  diagram_everywhere cfg env aes text data keyText key enrichment readings hx hk
    (C123_clear_partial cfg aes data link payload d ⟨key, enrichment⟩ readings ht hd hm hr)

/-- The readings of `sentReadings` in a telegram typed as pairs of digits, without a key. -/
example (cfg : Cfg) (front : FrontEnv) (aes : AesBlock) (enrichment : Bool) :
    AnsweredWell cfg (oneFile front "t.hex".toList []) aes (hexString (olderWired 0 sentData)) none enrichment "mermaid"
      (DiagramReadings front.text.realText sentReadings) :=
  C142_clear_partial cfg _ aes _ (olderWired 0 sentData) none
    _ sentData none none enrichment sentReadings
    ((decode_iff _ _).1 (by decide +kernel)) .none
    (wired_telegram _ ([0x72, 0x78, 0x56, 0x34, 0x12, 0x93, 0x15, 0x33, 0x03, 0x2A, 0x00, 0x00, 0] ++ sentData)
      (.rspUd false false) (.primary 5) (by decide +kernel))
    (.long false 0x78 0x56 0x34 0x12 0x93 0x15 0x33 0x03 0x2A 0x00 0x00 0 _ (by decide +kernel) (by decide))
    sent_example (by decide +kernel)

/-- C142 for telegrams with a long header whose data the meter encrypted with AES-128 in mode 5 or 7. -/
theorem C142_aes_partial (cfg : Cfg) (env : CliEnv) (text keyText : List Char)
    (key : List UInt8) (hkey : KeyText keyText key)
    (i0 i1 i2 i3 m0 m1 version device acc st c0 c1 : UInt8) (hb : AllBcd [i0, i1, i2, i3])
    (code : ManufacturerCode) (hcode : ManufacturerCode.fromId (le16 m0 m1) = .ok code)
    (iv : List UInt8) (hiv : CbcIv (c1.toNat % 32) m0 m1 [i0, i1, i2, i3] version device acc iv)
    (blocks : List (List UInt8)) (hbl : ∀ b ∈ blocks, b.length = 16) (hne : blocks ≠ [])
    (tail : List UInt8) (ht : tail.length < 16) (data : List UInt8) (link : Option ManufacturerId)
    (hx : Spelled text data)
    (hs' : Telegram data link ([0x72, i0, i1, i2, i3, m0, m1, version, device, acc, st, c0, c1] ++
        (cbcEncrypt Aes.encrypt key iv blocks ++ tail)))
    (readings : List MeterReading) (hm : Message 7 readings (blocks.flatten ++ tail))
    (hr : ∀ r ∈ readings, Readable r) (enrich : Bool) :
    AnsweredWell cfg env Aes.aes128 text (some keyText) enrich "mermaid"
      (DiagramReadings env.front.text.realText readings) :=
  diagram_everywhere cfg env _ text data _ (some key) enrich readings hx (.key keyText key hkey)
    (C123_aes_partial cfg key hkey.1 i0 i1 i2 i3 m0 m1 version device acc st c0 c1 hb code hcode iv hiv blocks hbl hne tail
      ht data link hs' readings hm hr enrich)

set_option maxRecDepth 20000 in
/-- The same readings encrypted with the key of the project's tests, typed with blanks between the bytes. -/
example (cfg : Cfg) (front : FrontEnv) :
    AnsweredWell cfg (oneFile front "t.hex".toList []) Aes.aes128
      (hexSpaced (olderWired 5 (cbcEncrypt Aes.encrypt exampleKey (headerIv 0x93 0x15 [0x78, 0x56, 0x34, 0x12] 0x33 0x03 0x2A)
        [sentData.take 16, (sentData.drop 16).take 16] ++ sentData.drop 32)))
      (some "0102030405060708090a0B0c0D0E0F11".toList) true "mermaid"
      (DiagramReadings front.text.realText sentReadings) :=
  C142_aes_partial cfg _ _ _ exampleKey
    (((C115_cli_key _).1 _).1 (by decide +kernel))
    0x78 0x56 0x34 0x12 0x93 0x15 0x33 0x03 0x2A 0 0 5 (by decide +kernel) ⟨69, 76, 83⟩ (by decide +kernel) _ (.address rfl)
    [sentData.take 16, (sentData.drop 16).take 16] (by decide) (by simp) (sentData.drop 32) (by decide)
    (olderWired 5 (cbcEncrypt Aes.encrypt exampleKey (headerIv 0x93 0x15 [0x78, 0x56, 0x34, 0x12] 0x33 0x03 0x2A)
        [sentData.take 16, (sentData.drop 16).take 16] ++ sentData.drop 32)) none
    ((decode_iff _ _).1 (by decide +kernel))
    (wired_telegram _ _ (.rspUd false false) (.primary 5) (by decide +kernel))
    sentReadings (by simpa [sentData] using sent_example) (by decide +kernel) true

/-- C142 for encrypted wireless telegrams with a short header. -/
theorem C142_aes_short_partial (cfg : Cfg) (env : CliEnv) (text keyText : List Char)
    (key : List UInt8)
    (hkey : KeyText keyText key) (ci acc st c0 c1 : UInt8) (hci : isShortCi ci)
    (link : ManufacturerId) (m0 m1 d0 d1 d2 d3 device : UInt8) (hb : AllBcd [d0, d1, d2, d3])
    (hcode : ManufacturerCode.fromId (le16 m0 m1) = .ok link.manufacturerCode)
    (hid : link.identificationNumber = bcdValue [d0, d1, d2, d3])
    (hdev : link.deviceType = DeviceType.fromByte device)
    (iv : List UInt8) (hiv : CbcIv (c1.toNat % 32) m0 m1 [d0, d1, d2, d3] link.version device acc iv)
    (blocks : List (List UInt8)) (hbl : ∀ b ∈ blocks, b.length = 16) (hne : blocks ≠ [])
    (tail : List UInt8) (ht : tail.length < 16) (data : List UInt8) (hx : Spelled text data)
    (hs' : Telegram data (some link)
      ([ci, acc, st, c0, c1] ++ (cbcEncrypt Aes.encrypt key iv blocks ++ tail)))
    (readings : List MeterReading) (hm : Message 7 readings (blocks.flatten ++ tail))
    (hr : ∀ r ∈ readings, Readable r) (enrich : Bool) :
    AnsweredWell cfg env Aes.aes128 text (some keyText) enrich "mermaid"
      (DiagramReadings env.front.text.realText readings) :=
  diagram_everywhere cfg env _ text data _ (some key) enrich readings hx (.key keyText key hkey)
    (C123_aes_short_partial cfg key hkey.1 ci acc st c0 c1 hci link m0 m1 d0 d1 d2 d3 device hb hcode hid hdev iv hiv
      blocks hbl hne tail ht data hs' readings hm hr enrich)

set_option maxRecDepth 20000 in
example (cfg : Cfg) (front : FrontEnv) :
    AnsweredWell cfg (oneFile front "t.hex".toList []) Aes.aes128 (hexString sealedWireless)
      (some "0102030405060708090a0B0c0D0E0F11".toList) true "mermaid"
      (DiagramReadings front.text.realText sentReadings) :=
  C142_aes_short_partial cfg _ _ _ exampleKey
    (((C115_cli_key _).1 _).1 (by decide +kernel))
    0x7A 0x2A 0 0x20 0x05 (Or.inl rfl)
    ⟨⟨71, 87, 70⟩, 12345678, .waterMeter, 0x3C, false⟩ 0xE6 0x1E 0x78 0x56 0x34 0x12 0x07
    (by decide +kernel) (by decide +kernel) (by decide +kernel) (by decide +kernel) _ (.address rfl)
    [sentData.take 16, (sentData.drop 16).take 16] (by decide) (by simp) (sentData.drop 32) (by decide) sealedWireless
    ((decode_iff _ _).1 (by decide +kernel)) (isWireless_telegram _ _ _ (by decide +kernel))
    sentReadings (by simpa [sentData] using sent_example) (by decide +kernel) true

/-- C142: for a telegram from a meter that is decoded, with or without a key, the diagrams of all front ends name the
meter. -/
theorem C142_meter (cfg : Cfg) (env : CliEnv) (aes : AesBlock) (text : List Char)
    (data : List UInt8) (keyText : Option (List Char)) (key : Option (List UInt8)) (enrichment : Bool) (m : SentMeter)
    (source : String) (hx : Spelled text data) (hk : KeyGiven keyText key) (hm : m.Valid) (hsent : SentBy m source data)
    (h : ∃ o, decodeBytes cfg aes data ⟨key, enrichment⟩ = .ok o) :
    AnsweredWell cfg env aes text keyText enrichment "mermaid" (DiagramMeter m) := by
  obtain ⟨o, ho⟩ := h
  obtain ⟨i, hi, hn⟩ := C139_decoded cfg aes data _ o ho m hm source hsent
  refine answered_well cfg env aes text data keyText key enrichment "mermaid" .mermaid (by decide +kernel) _ hx hk
    (fun width => ⟨renderMermaid env.front.text o, by simp [renderBytes, ho, renderDecoded, Res.mapErr],
      telegramPicture env.front.text o, C142_picture cfg _ aes data ⟨key, enrichment⟩ o ho, ?_⟩)
  rw [picture_meter, hi]
  simp only [meterFacts, hn.id, hn.maker, hn.name, hn.version, Option.getD_some, Option.toList_some, List.flatMap_cons,
    List.flatMap_nil, List.append_nil, List.map_cons, List.map_nil, List.cons_append, List.nil_append]

example (cfg : Cfg) (front : FrontEnv) (aes : AesBlock) (enrichment : Bool) :
    AnsweredWell cfg (oneFile front "t.hex".toList []) aes (hexString (olderWired 0 sentData)) none enrichment "mermaid"
      (DiagramMeter ⟨12345678, 5, 12, 19, 0x33, 0x03⟩) := by
  have ht := wired_telegram (olderWired 0 sentData)
    ([0x72, 0x78, 0x56, 0x34, 0x12, 0x93, 0x15, 0x33, 0x03, 0x2A, 0x00, 0x00, 0] ++ sentData)
    (.rspUd false false) (.primary 5) (by decide +kernel)
  obtain ⟨o, ho, -⟩ := C123_clear_partial cfg aes _ none _ sentData ⟨none, enrichment⟩ sentReadings ht
    (.long false 0x78 0x56 0x34 0x12 0x93 0x15 0x33 0x03 0x2A 0x00 0x00 0 _ (by decide +kernel) (by decide))
    sent_example (by decide +kernel)
  exact C142_meter cfg _ aes _ (olderWired 0 sentData) none
    none enrichment ⟨12345678, 5, 12, 19, 0x33, 0x03⟩ "tpl.long" ((decode_iff _ _).1 (by decide +kernel)) .none
    ⟨by norm_num, by constructor <;> norm_num, by constructor <;> norm_num, by constructor <;> norm_num⟩
    (.long _ none 0x2A 0 0 0 sentData ht) ⟨o, ho⟩

end MBus
