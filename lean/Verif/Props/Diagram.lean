import Verif.Props.Render
/-!
# Properties of the Mermaid rendering
-/
namespace MBus
open Spec
open scoped List

/-! ## C94: diagrams -/

/-- The statements of `chainLines`. -/
def chainStmts (visible : Bool) : List (List Char) → List Stmt
  | a :: b :: rest => .edge 8 visible a b :: chainStmts visible (b :: rest)
  | _ => []

/-- The statements of `subgraphLines`. -/
def blockStmts (id label : List Char) (nodes : List (List Char × List Char)) (visible : Bool) : List Stmt :=
  [.subgraph id label, .direction] ++ nodes.map (fun n => .node 8 n.1 n.2)
  ++ chainStmts visible (nodes.map (·.1)) ++ [.close]

theorem chain_text (visible : Bool) (ids : List (List Char)) :
    (chainStmts visible ids).map Stmt.text =
      chainLines (if visible then " --> " else " ~~~ ").toList ids := by
  induction ids with
  | nil => rfl
  | cons a rest ih =>
    cases rest with
    | nil => rfl
    | cons b rest => rw [chainStmts, chainLines, List.map_cons, ih]; rfl

theorem block_text (id label : List Char) (nodes : List (List Char × List Char)) (visible : Bool) :
    (blockStmts id label nodes visible).map Stmt.text =
      subgraphLines id label nodes (if visible then " --> " else " ~~~ ").toList := by
  simp only [blockStmts, List.map_append, chain_text, subgraphLines, List.map_map]
  rfl

theorem chain_shape (visible : Bool) (ids : List (List Char)) : ∀ s ∈ chainStmts visible ids,
    ∃ a b, s = .edge 8 visible a b ∧ a ∈ ids ∧ b ∈ ids := by
  induction ids with
  | nil => simp [chainStmts]
  | cons a rest ih =>
    cases rest with
    | nil => simp [chainStmts]
    | cons b rest =>
      intro s hs
      rw [chainStmts, List.mem_cons] at hs
      rcases hs with rfl | hs
      · exact ⟨a, b, rfl, by simp, by simp⟩
      · obtain ⟨x, y, h1, h2, h3⟩ := ih s hs
        exact ⟨x, y, h1, by simp only [List.mem_cons] at h2 ⊢; tauto,
          by simp only [List.mem_cons] at h3 ⊢; tauto⟩

theorem filterMap_chain {β : Type} (f : Stmt → Option β) (hf : ∀ n v a b, f (.edge n v a b) = none)
    (visible : Bool) (ids : List (List Char)) : (chainStmts visible ids).filterMap f = [] := by
  rw [List.filterMap_eq_nil_iff]
  intro s hs
  obtain ⟨a, b, rfl, _, _⟩ := chain_shape visible ids s hs
  exact hf _ _ _ _

theorem block_declared (id label : List Char) (nodes : List (List Char × List Char)) (visible : Bool) :
    (blockStmts id label nodes visible).filterMap Stmt.declared = id :: nodes.map (·.1) := by
  simp only [blockStmts, List.filterMap_append, filterMap_chain Stmt.declared (fun _ _ _ _ => rfl),
    List.filterMap_map]
  simp only [List.filterMap_cons, Stmt.declared, List.filterMap_nil, List.append_nil, List.cons_append,
    List.nil_append, Function.comp_def]
  rw [← List.filterMap_eq_map]; rfl

theorem block_nodeId (id label : List Char) (nodes : List (List Char × List Char)) (visible : Bool) :
    (blockStmts id label nodes visible).filterMap Stmt.nodeId = nodes.map (·.1) := by
  simp only [blockStmts, List.filterMap_append, filterMap_chain Stmt.nodeId (fun _ _ _ _ => rfl),
    List.filterMap_map]
  simp only [List.filterMap_cons, Stmt.nodeId, List.filterMap_nil, List.append_nil,
    List.nil_append, Function.comp_def]
  rw [← List.filterMap_eq_map]; rfl

theorem block_className (id label : List Char) (nodes : List (List Char × List Char)) (visible : Bool) :
    (blockStmts id label nodes visible).filterMap Stmt.className = [] := by
  simp only [blockStmts, List.filterMap_append, filterMap_chain Stmt.className (fun _ _ _ _ => rfl),
    List.filterMap_map]
  simp [Stmt.className, Function.comp_def]

theorem block_classified (id label : List Char) (nodes : List (List Char × List Char)) (visible : Bool) :
    (blockStmts id label nodes visible).flatMap Stmt.classified = [] := by
  rw [List.flatMap_eq_nil_iff]
  intro s hs
  simp only [blockStmts, List.mem_append, List.mem_cons, List.not_mem_nil, or_false, List.mem_map] at hs
  rcases hs with (((rfl | rfl) | ⟨_, _, rfl⟩) | hs) | rfl <;> try rfl
  obtain ⟨a, b, rfl, _, _⟩ := chain_shape visible _ s hs
  rfl

theorem nested_skip (inside : Bool) (ss rest : List Stmt)
    (h : ∀ s ∈ ss, (∀ id label, s ≠ .subgraph id label) ∧ s ≠ .close) :
    Nested inside (ss ++ rest) ↔ Nested inside rest := by
  induction ss with
  | nil => rfl
  | cons s ss ih =>
    have hs := h s (by simp)
    rw [← ih (fun x hx => h x (by simp [hx])), List.cons_append]
    cases s with
    | subgraph id label => exact absurd rfl (hs.1 id label)
    | close => exact absurd rfl hs.2
    | _ => rfl

theorem block_nested (id label : List Char) (nodes : List (List Char × List Char)) (visible : Bool)
    (rest : List Stmt) : Nested false (blockStmts id label nodes visible ++ rest) ↔ Nested false rest := by
  have : blockStmts id label nodes visible ++ rest =
      .subgraph id label :: .direction :: ((nodes.map (fun n => .node 8 n.1 n.2)
        ++ chainStmts visible (nodes.map (·.1))) ++ .close :: rest) := by
    simp [blockStmts]
  rw [this]
  show false = false ∧ Nested true _ ↔ _
  have hd : ∀ x, Nested true (.direction :: x) ↔ Nested true x := fun _ => Iff.rfl
  rw [hd, nested_skip]
  · exact ⟨fun h => h.2.2, fun h => ⟨rfl, rfl, h⟩⟩
  · intro s hs
    rw [List.mem_append] at hs
    rcases hs with hs | hs
    · rw [List.mem_map] at hs
      obtain ⟨_, _, rfl⟩ := hs
      exact ⟨fun _ _ => by simp, by simp⟩
    · obtain ⟨a, b, rfl, _, _⟩ := chain_shape visible _ s hs
      exact ⟨fun _ _ => by simp, by simp⟩

/-- The nodes of the records. -/
def recordNodes (env : TextEnv) (o : DecodedOutput) : List (List Char × List Char) :=
  o.records.map (fun r => (recordNode r, mermaidEscape (reading env r)))

/-- The nodes of the security section. -/
def securityNodes (o : DecodedOutput) : List (List Char × List Char) :=
  [ ("SECURITY_MODE".toList, mermaidEscape o.security.payloadProtection),
    ("SECURITY_STATE".toList, mermaidEscape o.security.decryptionState) ]

/-- The statements of the meter. -/
def meterStmts (o : DecodedOutput) : List Stmt :=
  match o.meter.identity with
  | some identity => blockStmts "METER_SG".toList "Meter".toList (meterNodes identity) true
    ++ [.edge 4 true "FRAME_SG".toList "METER_SG".toList]
  | none => []

def recordStmts (env : TextEnv) (o : DecodedOutput) : List Stmt :=
  if o.records = [] then []
  else blockStmts "RECORDS_SG".toList ("Data Records · ".toList ++ natText o.records.length)
      (recordNodes env o) false
    ++ [.edge 4 true (if o.meter.identity.isSome then "METER_SG".toList else "FRAME_SG".toList)
      "RECORDS_SG".toList]

def diagnosticStmts (o : DecodedOutput) : List Stmt :=
  match o.diagnostics with
  | d :: _ =>
    [ .node 4 "DIAG".toList (natText o.diagnostics.length ++ " diagnostic(s) · ".toList
        ++ mermaidEscape d.code), .edge 4 true "FRAME_SG".toList "DIAG".toList ]
  | [] => []

def meterClasses (o : DecodedOutput) : List Stmt :=
  match o.meter.identity with
  | some identity =>
    [.classes ["METER_ID".toList, "METER_MANUFACTURER".toList] "meter".toList]
    ++ (if identity.deviceType.isSome then [.classes ["METER_TYPE".toList] "meter".toList] else [])
    ++ (if identity.version.isSome then [.classes ["METER_VERSION".toList] "meter".toList] else [])
  | none => []

def recordClassName (r : RecordOutput) : List Char :=
  (recordClasses[r.index % recordClasses.length]?.getD "record0").toList

def classStmts (o : DecodedOutput) : List Stmt :=
  [.classes ((frameNodes o).map (·.1)) "frame".toList] ++ meterClasses o
  ++ [.classes ["SECURITY_MODE".toList, "SECURITY_STATE".toList] "security".toList]
  ++ o.records.map (fun r => .classes [recordNode r] (recordClassName r))
  ++ (if o.diagnostics = [] then [] else [.classes ["DIAG".toList] "diagnostic".toList])

def styleStmts (o : DecodedOutput) : List Stmt :=
  [.style "FRAME_SG".toList "fill:#e8f1fb,stroke:#1565c0,color:#0d1117".toList]
  ++ (if o.meter.identity.isSome then
      [.style "METER_SG".toList "fill:#e8f5e9,stroke:#2e7d32,color:#0d1117".toList] else [])
  ++ [.style "SECURITY_SG".toList "fill:#fff3e0,stroke:#e65100,color:#0d1117".toList]
  ++ (if o.records = [] then []
    else [.style "RECORDS_SG".toList "fill:#f3e5f5,stroke:#6a1b9a,color:#0d1117".toList])

/-- The statements of a diagram: declarations, then classes and styles. -/
def diagram (env : TextEnv) (o : DecodedOutput) : List Stmt :=
  (blockStmts "FRAME_SG".toList "Frame".toList (frameNodes o) true ++ meterStmts o
  ++ blockStmts "SECURITY_SG".toList "Security".toList (securityNodes o) true
  ++ [.edge 4 true "FRAME_SG".toList "SECURITY_SG".toList] ++ recordStmts env o ++ diagnosticStmts o)
  ++ ([.blank] ++ classDefs.map (fun c => .classDef c.1.toList c.2.toList) ++ classStmts o ++ styleStmts o)

theorem text_FRAME_SG_METER_SG : (Stmt.edge 4 true "FRAME_SG".toList "METER_SG".toList).text = "    FRAME_SG --> METER_SG".toList := by
  decide +kernel
theorem text_FRAME_SG_SECURITY_SG : (Stmt.edge 4 true "FRAME_SG".toList "SECURITY_SG".toList).text = "    FRAME_SG --> SECURITY_SG".toList := by
  decide +kernel
theorem text_METER_SG_RECORDS_SG : (Stmt.edge 4 true "METER_SG".toList "RECORDS_SG".toList).text = "    METER_SG --> RECORDS_SG".toList := by
  decide +kernel
theorem text_FRAME_SG_RECORDS_SG : (Stmt.edge 4 true "FRAME_SG".toList "RECORDS_SG".toList).text = "    FRAME_SG --> RECORDS_SG".toList := by
  decide +kernel
theorem text_FRAME_SG_DIAG : (Stmt.edge 4 true "FRAME_SG".toList "DIAG".toList).text = "    FRAME_SG --> DIAG".toList := by
  decide +kernel
theorem text_class_0 : (Stmt.classes ["METER_ID".toList, "METER_MANUFACTURER".toList] "meter".toList).text =
    "    class METER_ID,METER_MANUFACTURER meter".toList := by decide +kernel
theorem text_class_1 : (Stmt.classes ["METER_TYPE".toList] "meter".toList).text =
    "    class METER_TYPE meter".toList := by decide +kernel
theorem text_class_2 : (Stmt.classes ["METER_VERSION".toList] "meter".toList).text =
    "    class METER_VERSION meter".toList := by decide +kernel
theorem text_class_3 : (Stmt.classes ["SECURITY_MODE".toList, "SECURITY_STATE".toList] "security".toList).text =
    "    class SECURITY_MODE,SECURITY_STATE security".toList := by decide +kernel
theorem text_class_4 : (Stmt.classes ["DIAG".toList] "diagnostic".toList).text =
    "    class DIAG diagnostic".toList := by decide +kernel
theorem text_style_0 : (Stmt.style "FRAME_SG".toList "fill:#e8f1fb,stroke:#1565c0,color:#0d1117".toList).text =
    "    style FRAME_SG fill:#e8f1fb,stroke:#1565c0,color:#0d1117".toList := by decide +kernel
theorem text_style_1 : (Stmt.style "METER_SG".toList "fill:#e8f5e9,stroke:#2e7d32,color:#0d1117".toList).text =
    "    style METER_SG fill:#e8f5e9,stroke:#2e7d32,color:#0d1117".toList := by decide +kernel
theorem text_style_2 : (Stmt.style "SECURITY_SG".toList "fill:#fff3e0,stroke:#e65100,color:#0d1117".toList).text =
    "    style SECURITY_SG fill:#fff3e0,stroke:#e65100,color:#0d1117".toList := by decide +kernel
theorem text_style_3 : (Stmt.style "RECORDS_SG".toList "fill:#f3e5f5,stroke:#6a1b9a,color:#0d1117".toList).text =
    "    style RECORDS_SG fill:#f3e5f5,stroke:#6a1b9a,color:#0d1117".toList := by decide +kernel
theorem text_diag (a b : List Char) : (Stmt.node 4 "DIAG".toList (a ++ " diagnostic(s) · ".toList ++ b)).text =
    "    DIAG[\"".toList ++ a ++ " diagnostic(s) · ".toList ++ b ++ "\"]".toList := by
  have : List.replicate 4 ' ' ++ "DIAG".toList ++ "[\"".toList = "    DIAG[\"".toList := by decide +kernel
  have h : ∀ n id label, (Stmt.node n id label).text =
      List.replicate n ' ' ++ id ++ "[\"".toList ++ label ++ "\"]".toList := fun _ _ _ => rfl
  rw [h, this]
  generalize "    DIAG[\"".toList = x
  generalize " diagnostic(s) · ".toList = y
  generalize "\"]".toList = z
  simp only [List.append_assoc]

theorem text_class_single (id name : List Char) : (Stmt.classes [id] name).text =
    "    class ".toList ++ id ++ [' '] ++ name := by
  have h : ∀ ids name, (Stmt.classes ids name).text =
      "    class ".toList ++ [','].intercalate ids ++ [' '] ++ name := fun _ _ => rfl
  have h1 : [','].intercalate [id] = id := by simp [List.intercalate]
  rw [h, h1]

theorem diagram_text (env : TextEnv) (o : DecodedOutput) :
    mermaidLines env o = "flowchart TD".toList :: (diagram env o).map Stmt.text := by
  have h1 : (meterStmts o).map Stmt.text = (match o.meter.identity with
    | some identity =>
      subgraphLines "METER_SG".toList "Meter".toList (meterNodes identity) " --> ".toList
      ++ ["    FRAME_SG --> METER_SG".toList]
    | none => []) := by
    unfold meterStmts
    cases o.meter.identity with
    | none => rfl
    | some i =>
      simp only [List.map_append, block_text, List.map_cons, List.map_nil, if_true, text_FRAME_SG_METER_SG]
  have h2 : (recordStmts env o).map Stmt.text = (if o.records = [] then []
    else subgraphLines "RECORDS_SG".toList ("Data Records · ".toList ++ natText o.records.length)
        (o.records.map (fun r => (recordNode r, mermaidEscape (reading env r)))) " ~~~ ".toList
      ++ [if o.meter.identity.isSome then "    METER_SG --> RECORDS_SG".toList
        else "    FRAME_SG --> RECORDS_SG".toList]) := by
    unfold recordStmts
    split
    · rfl
    · cases o.meter.identity <;>
        simp only [List.map_append, block_text, List.map_cons, List.map_nil, Option.isSome_none,
          Option.isSome_some, Bool.false_eq_true, if_false, if_true, text_METER_SG_RECORDS_SG,
          text_FRAME_SG_RECORDS_SG, recordNodes]
  have h3 : (diagnosticStmts o).map Stmt.text = (match o.diagnostics with
    | d :: _ =>
      [ "    DIAG[\"".toList ++ natText o.diagnostics.length ++ " diagnostic(s) · ".toList
          ++ mermaidEscape d.code ++ "\"]".toList,
        "    FRAME_SG --> DIAG".toList ]
    | [] => []) := by
    unfold diagnosticStmts
    cases o.diagnostics with
    | nil => rfl
    | cons d ds =>
      simp only [List.map_cons, List.map_nil, text_diag, text_FRAME_SG_DIAG]
  have h4 : (meterClasses o).map Stmt.text = (match o.meter.identity with
    | some identity =>
      ["    class METER_ID,METER_MANUFACTURER meter".toList]
      ++ (if identity.deviceType.isSome then ["    class METER_TYPE meter".toList] else [])
      ++ (if identity.version.isSome then ["    class METER_VERSION meter".toList] else [])
    | none => []) := by
    unfold meterClasses
    cases o.meter.identity with
    | none => rfl
    | some i =>
      simp only [List.map_append, List.map_cons, List.map_nil, text_class_0]
      by_cases h1 : i.deviceType.isSome = true <;> by_cases h2 : i.version.isSome = true <;>
        simp only [h1, h2, List.map_cons, List.map_nil, Bool.false_eq_true, if_false, if_true, text_class_1,
          text_class_2]
  have h5 : (o.records.map (fun r => Stmt.classes [recordNode r] (recordClassName r))).map Stmt.text =
      o.records.map (fun r => "    class ".toList ++ recordNode r ++ [' ']
        ++ (recordClasses[r.index % recordClasses.length]?.getD "record0").toList) := by
    rw [List.map_map]
    apply List.map_congr_left
    intro r _
    rw [Function.comp_apply, text_class_single, recordClassName]
  have h6 : (if o.diagnostics = [] then [] else [Stmt.classes ["DIAG".toList] "diagnostic".toList]).map Stmt.text
      = (if o.diagnostics = [] then [] else ["    class DIAG diagnostic".toList]) := by
    split <;> simp only [List.map_cons, List.map_nil, text_class_4]
  have h7 : (styleStmts o).map Stmt.text =
    ["    style FRAME_SG fill:#e8f1fb,stroke:#1565c0,color:#0d1117".toList]
    ++ (if o.meter.identity.isSome then
        ["    style METER_SG fill:#e8f5e9,stroke:#2e7d32,color:#0d1117".toList] else [])
    ++ ["    style SECURITY_SG fill:#fff3e0,stroke:#e65100,color:#0d1117".toList]
    ++ (if o.records = [] then []
      else ["    style RECORDS_SG fill:#f3e5f5,stroke:#6a1b9a,color:#0d1117".toList]) := by
    unfold styleStmts
    by_cases h1 : o.meter.identity.isSome = true <;> by_cases h2 : o.records = [] <;>
      simp only [h1, h2, List.map_append, List.map_cons, List.map_nil, Bool.false_eq_true, if_false, if_true,
        text_style_0, text_style_1, text_style_2, text_style_3]
  have h8 : (classDefs.map (fun c => Stmt.classDef c.1.toList c.2.toList)).map Stmt.text =
      classDefs.map (fun c => "    classDef ".toList ++ c.1.toList ++ [' '] ++ c.2.toList) := by
    rw [List.map_map]
    rfl
  have h9 : (Stmt.classes ((frameNodes o).map (·.1)) "frame".toList).text =
      "    class ".toList ++ [','].intercalate ((frameNodes o).map (·.1)) ++ " frame".toList := by
    have : " frame".toList = [' '] ++ "frame".toList := by decide
    rw [this, ← List.append_assoc]
    rfl
  simp only [diagram, classStmts, List.map_append, block_text, h1, h2, h3, h4, h5, h6, h7, h8, h9,
    List.map_cons, List.map_nil, text_FRAME_SG_SECURITY_SG, text_class_3, if_true, securityNodes]
  simp only [mermaidLines, List.append_assoc, List.cons_append, List.nil_append]
  rfl

/-- The identifiers of the meter's nodes. -/
def meterIds (o : DecodedOutput) : List (List Char) :=
  match o.meter.identity with
  | some identity => (meterNodes identity).map (·.1)
  | none => []

def diagIds (o : DecodedOutput) : List (List Char) := if o.diagnostics = [] then [] else ["DIAG".toList]

theorem no_decl {β : Type} (f : Stmt → Option β) (hb : f .blank = none)
    (hc : ∀ ids name, f (.classes ids name) = none) (hs : ∀ id a, f (.style id a) = none)
    (o : DecodedOutput) : (classStmts o ++ styleStmts o).filterMap f = [] := by
  rw [List.filterMap_eq_nil_iff]
  intro s h
  simp only [classStmts, meterClasses, styleStmts, List.mem_append, List.mem_map] at h
  have key : (∃ ids name, s = .classes ids name) ∨ (∃ id a, s = .style id a) := by
    rcases h with ((((h | h) | h) | ⟨r, _, rfl⟩) | h) | (((h | h) | h) | h)
    · rw [List.mem_singleton] at h; exact .inl ⟨_, _, h⟩
    · split at h
      · simp only [List.mem_append] at h
        rcases h with (h | h) | h
        · rw [List.mem_singleton] at h; exact .inl ⟨_, _, h⟩
        · split at h
          · rw [List.mem_singleton] at h; exact .inl ⟨_, _, h⟩
          · simp at h
        · split at h
          · rw [List.mem_singleton] at h; exact .inl ⟨_, _, h⟩
          · simp at h
      · simp at h
    · rw [List.mem_singleton] at h; exact .inl ⟨_, _, h⟩
    · exact .inl ⟨_, _, rfl⟩
    · split at h
      · simp at h
      · rw [List.mem_singleton] at h; exact .inl ⟨_, _, h⟩
    · rw [List.mem_singleton] at h; exact .inr ⟨_, _, h⟩
    · split at h
      · rw [List.mem_singleton] at h; exact .inr ⟨_, _, h⟩
      · simp at h
    · rw [List.mem_singleton] at h; exact .inr ⟨_, _, h⟩
    · split at h
      · simp at h
      · rw [List.mem_singleton] at h; exact .inr ⟨_, _, h⟩
  rcases key with ⟨_, _, rfl⟩ | ⟨_, _, rfl⟩
  · exact hc _ _
  · exact hs _ _

/-- The part of a diagram with the declarations. -/
def declStmts (env : TextEnv) (o : DecodedOutput) : List Stmt :=
  blockStmts "FRAME_SG".toList "Frame".toList (frameNodes o) true ++ meterStmts o
  ++ blockStmts "SECURITY_SG".toList "Security".toList (securityNodes o) true
  ++ [.edge 4 true "FRAME_SG".toList "SECURITY_SG".toList] ++ recordStmts env o ++ diagnosticStmts o

theorem diagram_eq (env : TextEnv) (o : DecodedOutput) : diagram env o = declStmts env o ++
    ([.blank] ++ classDefs.map (fun c => .classDef c.1.toList c.2.toList)
      ++ (classStmts o ++ styleStmts o)) := by
  simp only [diagram, declStmts, List.append_assoc]

theorem rest_none {β : Type} (f : Stmt → Option β) (hb : f .blank = none)
    (hd : ∀ name a, f (.classDef name a) = none)
    (hc : ∀ ids name, f (.classes ids name) = none) (hs : ∀ id a, f (.style id a) = none)
    (o : DecodedOutput) : ([Stmt.blank] ++ classDefs.map (fun c => Stmt.classDef c.1.toList c.2.toList)
      ++ (classStmts o ++ styleStmts o)).filterMap f = [] := by
  rw [List.filterMap_append, no_decl f hb hc hs, List.append_nil, List.filterMap_append,
    List.filterMap_cons, hb]
  simp only [List.filterMap_nil, List.nil_append, List.filterMap_map]
  rw [List.filterMap_eq_nil_iff]
  intro c _
  exact hd _ _

theorem diagram_declared (env : TextEnv) (o : DecodedOutput) :
    (diagram env o).filterMap Stmt.declared =
      ["FRAME_SG".toList] ++ (frameNodes o).map (·.1)
      ++ (if o.meter.identity.isSome then ["METER_SG".toList] else []) ++ meterIds o
      ++ ["SECURITY_SG".toList, "SECURITY_MODE".toList, "SECURITY_STATE".toList]
      ++ (if o.records = [] then [] else ["RECORDS_SG".toList]) ++ o.records.map recordNode
      ++ diagIds o := by
  have h1 : (meterStmts o).filterMap Stmt.declared =
      (if o.meter.identity.isSome then ["METER_SG".toList] else []) ++ meterIds o := by
    unfold meterStmts meterIds
    cases o.meter.identity with
    | none => rfl
    | some i =>
      simp only [List.filterMap_append, block_declared]
      simp only [List.filterMap_cons, Stmt.declared, List.filterMap_nil, List.append_nil]
      rfl
  have h2 : (recordStmts env o).filterMap Stmt.declared =
      (if o.records = [] then [] else ["RECORDS_SG".toList]) ++ o.records.map recordNode := by
    unfold recordStmts
    split
    · rename_i h; rw [h]; rfl
    · simp only [List.filterMap_append, block_declared, recordNodes, List.map_map]
      simp only [List.filterMap_cons, Stmt.declared, List.filterMap_nil, List.append_nil]
      rfl
  have h3 : (diagnosticStmts o).filterMap Stmt.declared = diagIds o := by
    unfold diagnosticStmts diagIds
    cases o.diagnostics with
    | nil => rfl
    | cons d ds => rfl
  rw [diagram_eq, List.filterMap_append,
    rest_none Stmt.declared rfl (fun _ _ => rfl) (fun _ _ => rfl) (fun _ _ => rfl), List.append_nil]
  simp only [declStmts, List.filterMap_append, block_declared, h1, h2, h3, List.append_assoc]
  rfl

theorem diagram_nodes (env : TextEnv) (o : DecodedOutput) :
    (diagram env o).filterMap Stmt.nodeId =
      (frameNodes o).map (·.1) ++ meterIds o ++ ["SECURITY_MODE".toList, "SECURITY_STATE".toList]
      ++ o.records.map recordNode ++ diagIds o := by
  have h1 : (meterStmts o).filterMap Stmt.nodeId = meterIds o := by
    unfold meterStmts meterIds
    cases o.meter.identity with
    | none => rfl
    | some i =>
      simp only [List.filterMap_append, block_nodeId]
      simp only [List.filterMap_cons, Stmt.nodeId, List.filterMap_nil, List.append_nil]
  have h2 : (recordStmts env o).filterMap Stmt.nodeId = o.records.map recordNode := by
    unfold recordStmts
    split
    · rename_i h; rw [h]; rfl
    · simp only [List.filterMap_append, block_nodeId, recordNodes, List.map_map]
      simp only [List.filterMap_cons, Stmt.nodeId, List.filterMap_nil, List.append_nil]
      rfl
  have h3 : (diagnosticStmts o).filterMap Stmt.nodeId = diagIds o := by
    unfold diagnosticStmts diagIds
    cases o.diagnostics with
    | nil => rfl
    | cons d ds => rfl
  rw [diagram_eq, List.filterMap_append,
    rest_none Stmt.nodeId rfl (fun _ _ => rfl) (fun _ _ => rfl) (fun _ _ => rfl), List.append_nil]
  simp only [declStmts, List.filterMap_append, block_nodeId, h1, h2, h3, List.append_assoc]
  rfl

theorem diagram_classNames (env : TextEnv) (o : DecodedOutput) :
    (diagram env o).filterMap Stmt.className = classDefs.map (·.1.toList) := by
  have h1 : (meterStmts o).filterMap Stmt.className = [] := by
    unfold meterStmts
    cases o.meter.identity with
    | none => rfl
    | some i => simp only [List.filterMap_append, block_className]; rfl
  have h2 : (recordStmts env o).filterMap Stmt.className = [] := by
    unfold recordStmts
    split
    · rfl
    · simp only [List.filterMap_append, block_className]; rfl
  have h3 : (diagnosticStmts o).filterMap Stmt.className = [] := by
    unfold diagnosticStmts
    cases o.diagnostics with
    | nil => rfl
    | cons d ds => rfl
  rw [diagram_eq, List.filterMap_append]
  have h0 : (declStmts env o).filterMap Stmt.className = [] := by
    simp only [declStmts, List.filterMap_append, block_className, h1, h2, h3]
    rfl
  rw [h0, List.nil_append, List.filterMap_append,
    no_decl Stmt.className rfl (fun _ _ => rfl) (fun _ _ => rfl), List.append_nil, List.filterMap_append,
    List.filterMap_map]
  simp only [List.filterMap_cons, Stmt.className, List.filterMap_nil, List.nil_append, Function.comp_def]
  rw [← List.filterMap_eq_map]; rfl

theorem diagram_classified (env : TextEnv) (o : DecodedOutput) :
    (diagram env o).flatMap Stmt.classified =
      (frameNodes o).map (·.1) ++ meterIds o ++ ["SECURITY_MODE".toList, "SECURITY_STATE".toList]
      ++ o.records.map recordNode ++ diagIds o := by
  have h1 : (meterStmts o).flatMap Stmt.classified = [] := by
    unfold meterStmts
    cases o.meter.identity with
    | none => rfl
    | some i => simp only [List.flatMap_append, block_classified]; rfl
  have h2 : (recordStmts env o).flatMap Stmt.classified = [] := by
    unfold recordStmts
    split
    · rfl
    · simp only [List.flatMap_append, block_classified]; rfl
  have h3 : (diagnosticStmts o).flatMap Stmt.classified = [] := by
    unfold diagnosticStmts
    cases o.diagnostics with
    | nil => rfl
    | cons d ds => rfl
  have h0 : (declStmts env o).flatMap Stmt.classified = [] := by
    simp only [declStmts, List.flatMap_append, block_classified, h1, h2, h3]
    rfl
  have h4 : ([Stmt.blank] ++ classDefs.map (fun c => Stmt.classDef c.1.toList c.2.toList)).flatMap
      Stmt.classified = [] := by
    rw [List.flatMap_eq_nil_iff]
    intro s hs
    simp only [List.mem_append, List.mem_singleton, List.mem_map] at hs
    rcases hs with rfl | ⟨c, _, rfl⟩ <;> rfl
  have h5 : (styleStmts o).flatMap Stmt.classified = [] := by
    unfold styleStmts
    by_cases h1 : o.meter.identity.isSome = true <;> by_cases h2 : o.records = [] <;>
      simp only [h1, h2, List.flatMap_append, List.flatMap_cons, List.flatMap_nil, if_true, if_false,
        Stmt.classified, List.append_nil, Bool.false_eq_true]
  have h6 : (meterClasses o).flatMap Stmt.classified = meterIds o := by
    unfold meterClasses meterIds
    cases o.meter.identity with
    | none => rfl
    | some i =>
      obtain ⟨a, b, c, version, type, k⟩ := i
      cases version <;> cases type <;> rfl
  have h7 : (o.records.map (fun r => Stmt.classes [recordNode r] (recordClassName r))).flatMap
      Stmt.classified = o.records.map recordNode := by
    rw [List.flatMap_map]
    simp only [Stmt.classified]
    rw [List.map_eq_flatMap]
  have h8 : (if o.diagnostics = [] then [] else [Stmt.classes ["DIAG".toList] "diagnostic".toList]).flatMap
      Stmt.classified = diagIds o := by
    unfold diagIds
    split <;> rfl
  rw [diagram_eq, List.flatMap_append, h0, List.nil_append, List.flatMap_append, h4, List.nil_append,
    List.flatMap_append, h5, List.append_nil]
  simp only [classStmts, List.flatMap_append, h6, h7, h8]
  simp only [List.flatMap_cons, List.flatMap_nil, Stmt.classified, List.append_nil]

/-- The identifiers other than those of records. -/
def fixedIds : List (List Char) :=
  ["FRAME_SG".toList] ++ ["FRAME_KIND".toList, "FRAME_FUNCTION".toList, "FRAME_ADDRESS".toList]
  ++ ["METER_SG".toList]
  ++ ["METER_ID".toList, "METER_MANUFACTURER".toList, "METER_TYPE".toList, "METER_VERSION".toList]
  ++ ["SECURITY_SG".toList, "SECURITY_MODE".toList, "SECURITY_STATE".toList] ++ ["RECORDS_SG".toList]
  ++ ["DIAG".toList]

theorem frame_sub (o : DecodedOutput) : (frameNodes o).map (·.1) <+
    ["FRAME_KIND".toList, "FRAME_FUNCTION".toList, "FRAME_ADDRESS".toList] := by
  have h : (frameNodes o).map (·.1) = ["FRAME_KIND".toList]
      ++ (o.frame.function.map (fun _ => "FRAME_FUNCTION".toList)).toList
      ++ (o.frame.address.map (fun _ => "FRAME_ADDRESS".toList)).toList := by
    unfold frameNodes
    cases o.frame.function <;> cases o.frame.address <;> rfl
  rw [h]
  cases o.frame.function <;> cases o.frame.address <;>
    simp only [Option.map_none, Option.map_some, Option.toList_none, Option.toList_some] <;>
    decide +kernel

theorem meter_sub (o : DecodedOutput) : meterIds o <+
    ["METER_ID".toList, "METER_MANUFACTURER".toList, "METER_TYPE".toList, "METER_VERSION".toList] := by
  unfold meterIds
  cases o.meter.identity with
  | none => exact List.nil_sublist _
  | some i =>
    have h : (meterNodes i).map (·.1) = ["METER_ID".toList, "METER_MANUFACTURER".toList]
        ++ (i.deviceType.map (fun _ => "METER_TYPE".toList)).toList
        ++ (i.version.map (fun _ => "METER_VERSION".toList)).toList := by
      unfold meterNodes
      cases i.deviceType <;> cases i.version <;> rfl
    simp only [h]
    cases i.deviceType <;> cases i.version <;>
      simp only [Option.map_none, Option.map_some, Option.toList_none, Option.toList_some] <;>
      decide +kernel

theorem if_sub {α : Type} (c : Prop) [Decidable c] (l : List α) :
    (if c then l else []) <+ l ∧ (if c then [] else l) <+ l := by
  by_cases h : c <;> simp [h]

theorem fixed_sub (o : DecodedOutput) :
    ["FRAME_SG".toList] ++ (frameNodes o).map (·.1)
      ++ (if o.meter.identity.isSome then ["METER_SG".toList] else []) ++ meterIds o
      ++ ["SECURITY_SG".toList, "SECURITY_MODE".toList, "SECURITY_STATE".toList]
      ++ (if o.records = [] then [] else ["RECORDS_SG".toList]) ++ diagIds o <+ fixedIds := by
  unfold fixedIds
  refine ((((((List.Sublist.refl _).append (frame_sub o)).append (if_sub _ _).1).append
    (meter_sub o)).append (List.Sublist.refl _)).append (if_sub _ _).2).append ?_
  exact (if_sub _ _).2

theorem recordNode_digit (r : RecordOutput) : ∃ d t, recordNode r = 'R' :: d :: t ∧ '0' ≤ d ∧ d ≤ '9' := by
  unfold recordNode
  cases hx : natText r.index with
  | nil =>
    have : natText r.index ≠ [] := by
      unfold natText
      exact List.ne_nil_of_length_pos Nat.length_toDigits_pos
    exact absurd hx this
  | cons d t =>
    have := decimal_digits r.index d (by rw [← toDigits_eq, ← natText, hx]; simp)
    exact ⟨d, t, rfl, this⟩

theorem recordNode_fixed (r : RecordOutput) : recordNode r ∉ fixedIds := by
  have h : ∀ x ∈ fixedIds, x[0]? = some 'R' → x[1]? = some 'E' := by decide +kernel
  intro hm
  obtain ⟨d, t, h1, h2⟩ := recordNode_digit r
  rw [h1] at hm
  have := h _ hm rfl
  simp only [List.getElem?_cons_succ, List.getElem?_cons_zero, Option.some.injEq] at this
  subst this
  exact absurd h2 (by decide)

theorem declared_nodup (env : TextEnv) (o : DecodedOutput) (hi : (o.records.map (·.index)).Nodup) :
    ((diagram env o).filterMap Stmt.declared).Nodup := by
  rw [diagram_declared]
  have hr : (o.records.map recordNode).Nodup := by
    rw [List.Nodup, List.pairwise_map] at hi ⊢
    refine hi.imp ?_
    intro a b hab he
    apply hab
    unfold recordNode at he
    rw [List.cons.injEq] at he
    have := congrArg natOf he.2
    rwa [natText, natText, toDigits_eq, toDigits_eq, natOf_decimal, natOf_decimal] at this
  have hf : fixedIds.Nodup := by decide +kernel
  have hs := fixed_sub o
  have hn := hf.sublist hs
  generalize hA : ["FRAME_SG".toList] ++ (frameNodes o).map (·.1)
      ++ (if o.meter.identity.isSome then ["METER_SG".toList] else []) ++ meterIds o
      ++ ["SECURITY_SG".toList, "SECURITY_MODE".toList, "SECURITY_STATE".toList]
      ++ (if o.records = [] then [] else ["RECORDS_SG".toList]) = A at hn hs ⊢
  have hp : A ++ o.records.map recordNode ++ diagIds o |>.Perm ((A ++ diagIds o) ++ o.records.map recordNode) := by
    rw [List.append_assoc, List.append_assoc]
    exact List.Perm.append_left A List.perm_append_comm
  rw [hp.nodup_iff, List.nodup_append]
  refine ⟨hn, hr, ?_⟩
  intro a ha b hb hab
  subst hab
  rw [List.mem_map] at hb
  obtain ⟨r, _, rfl⟩ := hb
  exact recordNode_fixed r (hs.subset ha)

theorem declared_identifiers (env : TextEnv) (o : DecodedOutput) :
    ∀ id ∈ (diagram env o).filterMap Stmt.declared, Identifier id := by
  have hf : ∀ x ∈ fixedIds, x ≠ [] ∧
      ∀ c ∈ x, ('A' ≤ c ∧ c ≤ 'Z') ∨ ('0' ≤ c ∧ c ≤ '9') ∨ c = '_' := by decide +kernel
  intro id h
  rw [diagram_declared] at h
  by_cases hr : id ∈ o.records.map recordNode
  · rw [List.mem_map] at hr
    obtain ⟨r, _, rfl⟩ := hr
    refine ⟨by simp [recordNode], ?_⟩
    intro c hc
    rw [recordNode, List.mem_cons] at hc
    rcases hc with rfl | hc
    · exact .inl (by decide)
    · rw [natText, toDigits_eq] at hc
      exact .inr (.inl (decimal_digits _ c hc))
  · apply hf
    apply (fixed_sub o).subset
    rw [List.mem_append] at h ⊢
    rcases h with h | h
    · rw [List.mem_append] at h
      rcases h with h | h
      · exact .inl h
      · exact absurd h hr
    · exact .inr h

/-- What is required of a single statement. -/
def StmtOk (D C : List (List Char)) : Stmt → Prop
  | .node _ _ label => SafeLabel label
  | .subgraph _ label => SafeLabel label
  | .edge _ _ a b => a ∈ D ∧ b ∈ D
  | .classes ids name => ids ≠ [] ∧ name ∈ C
  | .style id _ => id ∈ D
  | _ => True

theorem block_ok (D C : List (List Char)) (id label : List Char) (nodes : List (List Char × List Char))
    (visible : Bool) (hl : SafeLabel label) (hn : ∀ n ∈ nodes, SafeLabel n.2) (hd : ∀ n ∈ nodes, n.1 ∈ D) :
    ∀ s ∈ blockStmts id label nodes visible, StmtOk D C s := by
  intro s hs
  simp only [blockStmts, List.mem_append, List.mem_cons, List.not_mem_nil, or_false, List.mem_map] at hs
  rcases hs with (((rfl | rfl) | ⟨n, h, rfl⟩) | hs) | rfl
  · exact hl
  · trivial
  · exact hn n h
  · obtain ⟨a, b, rfl, ha, hb⟩ := chain_shape visible _ s hs
    rw [List.mem_map] at ha hb
    obtain ⟨na, h1, rfl⟩ := ha
    obtain ⟨nb, h2, rfl⟩ := hb
    exact ⟨hd _ h1, hd _ h2⟩
  · trivial

theorem SafeLabel_append {a b : List Char} (ha : SafeLabel a) (hb : SafeLabel b) : SafeLabel (a ++ b) := by
  intro c hc
  rw [List.mem_append] at hc
  rcases hc with hc | hc
  · exact ha c hc
  · exact hb c hc

theorem SafeLabel_nat (n : Nat) : SafeLabel (natText n) := by
  intro c hc
  rw [natText, toDigits_eq] at hc
  have := decimal_digits n c hc
  intro h
  simp only [List.mem_cons, List.not_mem_nil, or_false] at h
  rcases h with rfl | rfl | rfl | rfl <;> exact absurd this (by decide)

theorem frame_safe (o : DecodedOutput) : ∀ n ∈ frameNodes o, SafeLabel n.2 := by
  have h1 : SafeLabel " · ".toList := by unfold SafeLabel; decide
  have h2 : SafeLabel "Function · ".toList := by unfold SafeLabel; decide
  have h3 : SafeLabel "Address · ".toList := by unfold SafeLabel; decide
  intro n hn
  simp only [frameNodes, List.mem_append, List.mem_singleton, Option.mem_toList, Option.map_eq_some_iff] at hn
  rcases hn with (rfl | ⟨f, _, rfl⟩) | ⟨a, _, rfl⟩
  · exact SafeLabel_append (SafeLabel_append (C52_safe _) h1) (C52_safe _)
  · exact SafeLabel_append h2 (C52_safe _)
  · exact SafeLabel_append h3 (C52_safe _)

theorem meter_safe (i : MeterIdentity) : ∀ n ∈ meterNodes i, SafeLabel n.2 := by
  have h1 : SafeLabel "ID · ".toList := by unfold SafeLabel; decide
  have h2 : SafeLabel "Manufacturer · ".toList := by unfold SafeLabel; decide
  have h3 : SafeLabel "Type · ".toList := by unfold SafeLabel; decide
  have h4 : SafeLabel "Version · ".toList := by unfold SafeLabel; decide
  intro n hn
  simp only [meterNodes, List.mem_append, List.mem_cons, List.not_mem_nil, or_false, Option.mem_toList,
    Option.map_eq_some_iff] at hn
  rcases hn with ((rfl | rfl) | ⟨f, _, rfl⟩) | ⟨a, _, rfl⟩
  · exact SafeLabel_append h1 (C52_safe _)
  · exact SafeLabel_append h2 (C52_safe _)
  · exact SafeLabel_append h3 (C52_safe _)
  · exact SafeLabel_append h4 (SafeLabel_nat _)

theorem diagram_ok (env : TextEnv) (o : DecodedOutput) : ∀ s ∈ diagram env o,
    StmtOk ((diagram env o).filterMap Stmt.declared) ((diagram env o).filterMap Stmt.className) s := by
  rw [diagram_classNames]
  have hD := diagram_declared env o
  generalize (diagram env o).filterMap Stmt.declared = D at hD
  have inD : ∀ x, x ∈ D ↔ x = "FRAME_SG".toList ∨ x ∈ (frameNodes o).map (·.1)
      ∨ (o.meter.identity.isSome = true ∧ x = "METER_SG".toList) ∨ x ∈ meterIds o
      ∨ x = "SECURITY_SG".toList ∨ x = "SECURITY_MODE".toList ∨ x = "SECURITY_STATE".toList
      ∨ (o.records ≠ [] ∧ x = "RECORDS_SG".toList) ∨ x ∈ o.records.map recordNode
      ∨ (o.diagnostics ≠ [] ∧ x = "DIAG".toList) := by
    intro x
    rw [hD]
    simp only [List.mem_append, List.mem_cons, List.not_mem_nil, or_false, diagIds]
    have e1 : x ∈ (if o.meter.identity.isSome = true then ["METER_SG".toList] else []) ↔
        (o.meter.identity.isSome = true ∧ x = "METER_SG".toList) := by
      by_cases h : o.meter.identity.isSome = true <;> simp only [h, if_true, if_false, List.mem_singleton,
        List.not_mem_nil, true_and, false_and, Bool.false_eq_true]
    have e2 : x ∈ (if o.records = [] then [] else ["RECORDS_SG".toList]) ↔
        (o.records ≠ [] ∧ x = "RECORDS_SG".toList) := by
      by_cases h : o.records = [] <;> simp only [h, if_true, if_false, List.mem_singleton,
        List.not_mem_nil, true_and, false_and, ne_eq, not_true, not_false_iff]
    have e3 : x ∈ (if o.diagnostics = [] then [] else ["DIAG".toList]) ↔
        (o.diagnostics ≠ [] ∧ x = "DIAG".toList) := by
      by_cases h : o.diagnostics = [] <;> simp only [h, if_true, if_false, List.mem_singleton,
        List.not_mem_nil, true_and, false_and, ne_eq, not_true, not_false_iff]
    rw [e1, e2, e3]
    simp only [or_assoc]
  have hframe : "FRAME_SG".toList ∈ D := (inD _).2 (.inl rfl)
  intro s hs
  rw [diagram_eq, declStmts] at hs
  simp only [List.mem_append, List.mem_singleton] at hs
  rcases hs with (((((hs | hs) | hs) | hs) | hs) | hs) | ((hs | hs) | (hs | hs))
  · refine block_ok D _ _ _ _ _ (by unfold SafeLabel; decide) (frame_safe o) ?_ s hs
    intro n hn
    exact (inD _).2 (.inr (.inl (List.mem_map.2 ⟨n, hn, rfl⟩)))
  · unfold meterStmts at hs
    cases hm : o.meter.identity with
    | none => simp only [hm, List.not_mem_nil] at hs
    | some i =>
      simp only [hm, List.mem_append, List.mem_singleton] at hs
      rcases hs with hs | rfl
      · refine block_ok D _ _ _ _ _ (by unfold SafeLabel; decide) (meter_safe i) ?_ s hs
        intro n hn
        refine (inD _).2 (.inr (.inr (.inr (.inl ?_))))
        simp only [meterIds, hm]
        exact List.mem_map.2 ⟨n, hn, rfl⟩
      · exact ⟨hframe, (inD _).2 (.inr (.inr (.inl ⟨by rw [hm]; rfl, rfl⟩)))⟩
  · refine block_ok D _ _ _ _ _ (by unfold SafeLabel; decide) ?_ ?_ s hs
    · intro n hn
      simp only [securityNodes, List.mem_cons, List.not_mem_nil, or_false] at hn
      rcases hn with rfl | rfl <;> exact C52_safe _
    · intro n hn
      simp only [securityNodes, List.mem_cons, List.not_mem_nil, or_false] at hn
      rw [inD]
      rcases hn with rfl | rfl
      · exact .inr (.inr (.inr (.inr (.inr (.inl rfl)))))
      · exact .inr (.inr (.inr (.inr (.inr (.inr (.inl rfl))))))
  · subst hs
    exact ⟨hframe, (inD _).2 (.inr (.inr (.inr (.inr (.inl rfl)))))⟩
  · unfold recordStmts at hs
    split at hs
    · simp at hs
    · rename_i hne
      rw [List.mem_append, List.mem_singleton] at hs
      rcases hs with hs | rfl
      · refine block_ok D _ _ _ _ _ (SafeLabel_append (by unfold SafeLabel; decide) (SafeLabel_nat _)) ?_ ?_ s hs
        · intro n hn
          rw [recordNodes, List.mem_map] at hn
          obtain ⟨r, _, rfl⟩ := hn
          exact C52_safe _
        · intro n hn
          rw [recordNodes, List.mem_map] at hn
          obtain ⟨r, hr, rfl⟩ := hn
          rw [inD]
          exact .inr (.inr (.inr (.inr (.inr (.inr (.inr (.inr (.inl (List.mem_map.2 ⟨r, hr, rfl⟩)))))))))
      · refine ⟨?_, (inD _).2 (.inr (.inr (.inr (.inr (.inr (.inr (.inr (.inl ⟨hne, rfl⟩))))))))⟩
        split
        · rename_i h
          exact (inD _).2 (.inr (.inr (.inl ⟨h, rfl⟩)))
        · exact hframe
  · unfold diagnosticStmts at hs
    cases hd : o.diagnostics with
    | nil => simp only [hd, List.not_mem_nil] at hs
    | cons d ds =>
      simp only [hd, List.mem_cons, List.not_mem_nil, or_false] at hs
      rcases hs with rfl | rfl
      · exact SafeLabel_append (SafeLabel_append (SafeLabel_nat _) (by unfold SafeLabel; decide)) (C52_safe _)
      · exact ⟨hframe, (inD _).2 (.inr (.inr (.inr (.inr (.inr (.inr (.inr (.inr (.inr
          ⟨by rw [hd]; simp, rfl⟩)))))))))⟩
  · subst hs; trivial
  · rw [List.mem_map] at hs
    obtain ⟨c, _, rfl⟩ := hs
    trivial
  · have hc : ∀ n ∈ ["frame", "meter", "security", "diagnostic"], n.toList ∈ classDefs.map (·.1.toList) := by
      decide +kernel
    simp only [classStmts, List.mem_append, List.mem_singleton, List.mem_map] at hs
    rcases hs with (((rfl | hs) | rfl) | ⟨r, _, rfl⟩) | hs
    · exact ⟨by simp [frameNodes], hc "frame" (by simp)⟩
    · unfold meterClasses at hs
      split at hs
      · simp only [List.mem_append, List.mem_singleton] at hs
        rcases hs with (rfl | hs) | hs
        · exact ⟨by simp, hc "meter" (by simp)⟩
        · split at hs
          · rw [List.mem_singleton] at hs; subst hs; exact ⟨by simp, hc "meter" (by simp)⟩
          · simp at hs
        · split at hs
          · rw [List.mem_singleton] at hs; subst hs; exact ⟨by simp, hc "meter" (by simp)⟩
          · simp at hs
      · simp at hs
    · exact ⟨by simp, hc "security" (by simp)⟩
    · refine ⟨by simp, ?_⟩
      have hr : ∀ k < 8, (recordClasses[k]?.getD "record0").toList ∈ classDefs.map (·.1.toList) := by
        decide +kernel
      exact hr _ (Nat.mod_lt _ (by decide))
    · split at hs
      · simp at hs
      · rw [List.mem_singleton] at hs; subst hs; exact ⟨by simp, hc "diagnostic" (by simp)⟩
  · simp only [styleStmts, List.mem_append, List.mem_singleton] at hs
    rcases hs with ((rfl | hs) | rfl) | hs
    · exact hframe
    · split at hs
      · rename_i h
        rw [List.mem_singleton] at hs; subst hs
        exact (inD _).2 (.inr (.inr (.inl ⟨h, rfl⟩)))
      · simp at hs
    · exact (inD _).2 (.inr (.inr (.inr (.inr (.inl rfl)))))
    · split at hs
      · simp at hs
      · rename_i h
        rw [List.mem_singleton] at hs; subst hs
        exact (inD _).2 (.inr (.inr (.inr (.inr (.inr (.inr (.inr (.inl ⟨h, rfl⟩))))))))

theorem rest_skip (o : DecodedOutput) : ∀ s ∈ [Stmt.blank] ++ classDefs.map
    (fun c => Stmt.classDef c.1.toList c.2.toList) ++ (classStmts o ++ styleStmts o),
    (∀ id label, s ≠ .subgraph id label) ∧ s ≠ .close := by
  let f : Stmt → Option Unit := fun s => match s with
    | .subgraph _ _ => some ()
    | .close => some ()
    | _ => none
  have := rest_none f rfl (fun _ _ => rfl) (fun _ _ => rfl) (fun _ _ => rfl) o
  rw [List.filterMap_eq_nil_iff] at this
  intro s hs
  have := this s hs
  constructor
  · rintro id label rfl; simp [f] at this
  · rintro rfl; simp [f] at this

theorem diagram_nested (env : TextEnv) (o : DecodedOutput) : Nested false (diagram env o) := by
  rw [diagram_eq, declStmts]
  simp only [List.append_assoc]
  rw [block_nested]
  have h1 : ∀ rest, Nested false (meterStmts o ++ rest) ↔ Nested false rest := by
    intro rest
    unfold meterStmts
    cases o.meter.identity with
    | none => rfl
    | some i => simp only [List.append_assoc]; rw [block_nested]; rfl
  have h2 : ∀ rest, Nested false (recordStmts env o ++ rest) ↔ Nested false rest := by
    intro rest
    unfold recordStmts
    split
    · rfl
    · simp only [List.append_assoc]; rw [block_nested]; rfl
  have h3 : ∀ rest, Nested false (diagnosticStmts o ++ rest) ↔ Nested false rest := by
    intro rest
    unfold diagnosticStmts
    cases o.diagnostics <;> rfl
  have h4 : ∀ rest, Nested false ([.edge 4 true "FRAME_SG".toList "SECURITY_SG".toList] ++ rest) ↔
      Nested false rest := fun _ => Iff.rfl
  rw [h1, block_nested, h4, h2, h3]
  have := nested_skip false _ [] (rest_skip o)
  simp only [List.append_assoc, List.append_nil] at this
  rw [this]
  rfl

/-- C94: the diagram of every decoded telegram is a well-formed flowchart; the indices of its records do
not repeat (C89_indices). -/
theorem C94_well_formed (env : TextEnv) (o : DecodedOutput) (hi : (o.records.map (·.index)).Nodup) :
    ∃ ss : List Stmt, renderMermaid env o = unlines ("flowchart TD".toList :: ss.map Stmt.text) ∧
      WellFormed ss ∧
      (∀ r ∈ o.records, ∃ label, Stmt.node 8 ('R' :: (toString r.index).toList) label ∈ ss ∧
        Shows label (reading env r)) ∧
      (∀ i, o.meter.identity = some i → ∀ id, i.id = some id →
        ∃ label, Stmt.node 8 "METER_ID".toList ("ID · ".toList ++ label) ∈ ss ∧ Shows label id) := by
  refine ⟨diagram env o, by rw [renderMermaid, diagram_text], ?_, ?_, ?_⟩
  · have hok := diagram_ok env o
    refine ⟨diagram_nested env o, declared_nodup env o hi, declared_identifiers env o, ?_, ?_, ?_, ?_, ?_⟩
    · rintro s hs n id label (rfl | rfl)
      · exact hok _ hs
      · exact hok _ hs
    · rintro s hs n v a b rfl
      exact hok _ hs
    · rintro s hs ids name rfl
      exact hok _ hs
    · rw [diagram_classified, diagram_nodes]
    · rintro s hs id a rfl
      exact hok _ hs
  · intro r hr
    refine ⟨mermaidEscape (reading env r), ?_, C52_shows _⟩
    have hne : o.records ≠ [] := List.ne_nil_of_mem hr
    have hid : 'R' :: (toString r.index).toList = recordNode r := by
      rw [recordNode, Nat.toString_eq_ofList_toDigits]
      simp [natText]
    rw [hid, diagram_eq, declStmts]
    have : Stmt.node 8 (recordNode r) (mermaidEscape (reading env r)) ∈ recordStmts env o := by
      unfold recordStmts
      rw [if_neg hne]
      simp only [blockStmts, List.mem_append, List.mem_map]
      exact .inl (.inl (.inl (.inr ⟨(recordNode r, mermaidEscape (reading env r)),
        List.mem_map.2 ⟨r, hr, rfl⟩, rfl⟩)))
    simp only [List.mem_append]
    exact .inl (.inl (.inr this))
  · intro i hi id hid
    refine ⟨mermaidEscape id, ?_, C52_shows _⟩
    rw [diagram_eq, declStmts]
    have : Stmt.node 8 "METER_ID".toList ("ID · ".toList ++ mermaidEscape id) ∈ meterStmts o := by
      unfold meterStmts
      simp only [hi, blockStmts, List.mem_append, List.mem_map]
      refine .inl (.inl (.inl (.inr ⟨("METER_ID".toList, "ID · ".toList ++ mermaidEscape id), ?_, rfl⟩)))
      simp only [meterNodes, hid, Option.getD_some, List.mem_append]
      exact .inl (.inl List.mem_cons_self)
    simp only [List.mem_append]
    exact .inl (.inl (.inl (.inl (.inl (.inr this)))))

/-- The diagram of a telegram with two records. -/
example : (match decodeBytes cfgRelease (fun _ b => b)
      (wiredLong [0x72, 0x78, 0x56, 0x34, 0x12, 0x24, 0x40, 0x01, 0x07, 0x55, 0x00, 0x00, 0x00,
        0x04, 0x13, 0x39, 0x30, 0x00, 0x00, 0x44, 0x06, 0x01, 0x00, 0x00, 0x00]) ⟨none, false⟩ with
    | .ok o => decide ((o.records.map (·.index)).Nodup ∧ o.records.length = 2 ∧
        45 < (mermaidLines plainEnv o).length ∧
        "        R0[\"Volume: 12.345 m3\"]".toList ∈ mermaidLines plainEnv o)
    | _ => false) = true := by decide +kernel

end MBus
