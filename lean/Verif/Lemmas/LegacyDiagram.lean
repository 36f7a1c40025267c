import Verif.Lemmas.Display
import Verif.Props.Render
import Verif.Spec.LegacyDiagram
/-!
# Lemmas about the older diagrams
-/
namespace MBus
open Spec

/-! ## Labels -/

/-- No quotation marks and brackets. -/
def Unquoted (l : List Char) : Prop := ∀ c ∈ l, c ∉ ['"', '[', ']']

instance (l : List Char) : Decidable (Unquoted l) := inferInstanceAs (Decidable (∀ c ∈ l, c ∉ ['"', '[', ']']))

theorem Unquoted.append {a b : List Char} (ha : Unquoted a) (hb : Unquoted b) : Unquoted (a ++ b) := by
  intro c hc
  rw [List.mem_append] at hc
  exact hc.elim (ha c) (hb c)

theorem unquoted_escape (t : List Char) : Unquoted (mermaidEscapeOld t) := C52_old_partial t

theorem unquoted_digits {t : List Char} (h : Digits t) : Unquoted t := by
  intro c hc
  have := h c hc
  simp only [List.mem_cons, List.not_mem_nil, or_false]
  rintro (rfl | rfl | rfl) <;> revert this <;> decide

theorem unquoted_nat (n : Nat) : Unquoted (natText n) := unquoted_digits (natText_digits n)

theorem unquoted_bool (b : Bool) : Unquoted (boolDisplay b) := by cases b <;> decide

theorem unquoted_functionDebug (f : Option Function) : Unquoted (functionDebug f) := by
  cases f with
  | none => decide +kernel
  | some f =>
    refine ((by decide +kernel : Unquoted "Some(".toList).append ?_).append (by decide)
    cases f with
    | sndNk b => cases b <;> decide +kernel
    | sndUd b => cases b <;> decide +kernel
    | reqUd1 b => cases b <;> decide +kernel
    | reqUd2 b => cases b <;> decide +kernel
    | rspUd a b => cases a <;> cases b <;> decide +kernel
    | _ => decide +kernel

theorem unquoted_call (a : List Char) (n : Nat) (h : Unquoted a) : Unquoted (a ++ natText n ++ [')']) :=
  (h.append (unquoted_nat n)).append (by decide)

theorem unquoted_deviceDebug (d : DeviceType) : Unquoted d.debug := by
  cases d with
  | reservedSensor c => exact unquoted_call _ _ (by decide +kernel)
  | reservedSwitch c => exact unquoted_call _ _ (by decide +kernel)
  | reservedCustomer c => exact unquoted_call _ _ (by decide +kernel)
  | reservedEnvironmental c => exact unquoted_call _ _ (by decide +kernel)
  | reservedSystem c => exact unquoted_call _ _ (by decide +kernel)
  | reserved c => exact unquoted_call _ _ (by decide +kernel)
  | _ => decide +kernel

theorem unquoted_hex (b : UInt8) : Unquoted (hexString [b]) := by
  have : ∀ b : Fin 256, Unquoted (hexString [UInt8.ofNat b.val]) := by decide +kernel
  have h := this ⟨b.toNat, b.toNat_lt⟩
  simpa using h

/-! ## Parts of a diagram -/

/-- A closed part of a diagram that declares `ids` and mentions `uses` besides. -/
structure Part (ids uses : List (List Char)) (ls : List DiagramLine) : Prop where
  declared : ls.filterMap oldDeclared = ids
  labels : ∀ l ∈ ls, ∀ n id label, l = .node n id label ∨ l = .subgraph id label → Unquoted label
  edges : ∀ l ∈ ls, ∀ a b, l = .chain a b ∨ l = .arrow a b → a ∈ ids ++ uses ∧ b ∈ ids ++ uses
  styles : ∀ l ∈ ls, ∀ id attributes, l = .style id attributes → id ∈ ids ++ uses

theorem Part.append {i u j v : List (List Char)} {a b : List DiagramLine} (ha : Part i u a)
    (hb : Part j v b) : Part (i ++ j) (u ++ v) (a ++ b) where
  declared := by rw [List.filterMap_append, ha.declared, hb.declared]
  labels l hl := (List.mem_append.mp hl).elim (ha.labels l) (hb.labels l)
  edges l hl x y h := by
    rcases List.mem_append.mp hl with hl | hl
    · have := ha.edges l hl x y h
      simp only [List.mem_append] at this ⊢; tauto
    · have := hb.edges l hl x y h
      simp only [List.mem_append] at this ⊢; tauto
  styles l hl x y h := by
    rcases List.mem_append.mp hl with hl | hl
    · have := ha.styles l hl x y h
      simp only [List.mem_append] at this ⊢; tauto
    · have := hb.styles l hl x y h
      simp only [List.mem_append] at this ⊢; tauto

theorem Part.mono {i u v : List (List Char)} {a : List DiagramLine} (ha : Part i u a)
    (h : ∀ x ∈ u, x ∈ i ++ v) : Part i v a where
  declared := ha.declared
  labels := ha.labels
  edges l hl x y e := by
    have := ha.edges l hl x y e
    simp only [List.mem_append] at this h ⊢
    exact ⟨this.1.elim .inl (h x), this.2.elim .inl (h y)⟩
  styles l hl x y e := by
    have := ha.styles l hl x y e
    simp only [List.mem_append] at this h ⊢
    exact this.elim .inl (h x)

theorem Part.nil : Part [] [] [] where
  declared := rfl
  labels := by simp
  edges := by simp
  styles := by simp

theorem Part.node (n : Nat) (id label : List Char) (h : Unquoted label) : Part [id] [] [.node n id label] where
  declared := rfl
  labels l hl k i t e := by
    rw [List.mem_singleton] at hl; subst hl
    rcases e with e | e <;> cases e
    exact h
  edges l hl a b e := by
    rw [List.mem_singleton] at hl; subst hl
    rcases e with e | e <;> cases e
  styles l hl a b e := by
    rw [List.mem_singleton] at hl; subst hl; cases e

theorem Part.subgraph (id label : List Char) (h : Unquoted label) : Part [id] [] [.subgraph id label] where
  declared := rfl
  labels l hl k i t e := by
    rw [List.mem_singleton] at hl; subst hl
    rcases e with e | e <;> cases e
    exact h
  edges l hl a b e := by
    rw [List.mem_singleton] at hl; subst hl
    rcases e with e | e <;> cases e
  styles l hl a b e := by
    rw [List.mem_singleton] at hl; subst hl; cases e

theorem Part.close : Part [] [] [.close] where
  declared := rfl
  labels l hl k i t e := by
    rw [List.mem_singleton] at hl; subst hl
    rcases e with e | e <;> cases e
  edges l hl a b e := by
    rw [List.mem_singleton] at hl; subst hl
    rcases e with e | e <;> cases e
  styles l hl a b e := by
    rw [List.mem_singleton] at hl; subst hl; cases e

theorem Part.arrow (a b : List Char) : Part [] [a, b] [.arrow a b] where
  declared := rfl
  labels l hl k i t e := by
    rw [List.mem_singleton] at hl; subst hl
    rcases e with e | e <;> cases e
  edges l hl x y e := by
    rw [List.mem_singleton] at hl; subst hl
    rcases e with e | e <;> cases e
    simp
  styles l hl a b e := by
    rw [List.mem_singleton] at hl; subst hl; cases e

theorem Part.styleAll (ids : List (List Char)) (f : List Char → List Char) :
    Part [] ids (ids.map (fun id => .style id (f id))) where
  declared := by
    rw [List.filterMap_eq_nil_iff]; simp only [List.mem_map]; rintro _ ⟨_, _, rfl⟩; rfl
  labels l hl k i t e := by
    rw [List.mem_map] at hl; obtain ⟨_, _, rfl⟩ := hl
    rcases e with e | e <;> cases e
  edges l hl x y e := by
    rw [List.mem_map] at hl; obtain ⟨_, _, rfl⟩ := hl
    rcases e with e | e <;> cases e
  styles l hl a b e := by
    rw [List.mem_map] at hl; obtain ⟨i, hi, rfl⟩ := hl; cases e
    simpa using hi

theorem Part.style (id a : List Char) : Part [] [id] [.style id a] := Part.styleAll [id] (fun _ => a)

theorem Part.nodes (ns : List (List Char × List Char)) (h : ∀ n ∈ ns, Unquoted n.2) :
    Part (ns.map (·.1)) [] (ns.map (fun (id, label) => .node 8 id label)) where
  declared := by
    rw [List.filterMap_map, ← List.filterMap_eq_map]; rfl
  labels l hl k i t e := by
    rw [List.mem_map] at hl; obtain ⟨n, hn, rfl⟩ := hl
    rcases e with e | e <;> cases e
    exact h n hn
  edges l hl x y e := by
    rw [List.mem_map] at hl; obtain ⟨_, _, rfl⟩ := hl
    rcases e with e | e <;> cases e
  styles l hl a b e := by
    rw [List.mem_map] at hl; obtain ⟨_, _, rfl⟩ := hl; cases e

theorem Part.rowChain (ids : List (List Char)) : Part [] ids (rowChain ids) := by
  induction ids with
  | nil => exact Part.nil
  | cons a rest ih =>
    cases rest with
    | nil => exact Part.nil.mono (by simp)
    | cons b rest =>
      constructor
      · rw [MBus.rowChain]
        show (MBus.rowChain (b :: rest)).filterMap oldDeclared = []
        exact ih.declared
      · intro l hl k i t e
        rw [MBus.rowChain, List.mem_cons] at hl
        rcases hl with rfl | hl
        · rcases e with e | e <;> cases e
        · exact ih.labels l hl k i t e
      · intro l hl x y e
        rw [MBus.rowChain, List.mem_cons] at hl
        rcases hl with rfl | hl
        · rcases e with e | e <;> cases e
          simp
        · have := ih.edges l hl x y e
          simp only [List.nil_append, List.mem_cons] at this ⊢; tauto
      · intro l hl x y e
        rw [MBus.rowChain, List.mem_cons] at hl
        rcases hl with rfl | hl
        · cases e
        · have := ih.styles l hl x y e
          simp only [List.nil_append, List.mem_cons] at this ⊢; tauto

/-! ## Rows -/

theorem padIds_append (pad : List Char) (s a b : Nat) :
    padIds pad s a ++ padIds pad (s + a) b = padIds pad s (a + b) := by
  rw [padIds, padIds, padIds, ← List.map_append, List.range'_append_1]

/-- An incomplete row. -/
theorem centered_last (pad : List Char) (chunk : List (List Char)) (h : chunk.length < 4) (i : Nat) :
    Part (padIds pad i (4 - chunk.length)) chunk (centeredLoop pad [chunk] i).1 ∧
      (centeredLoop pad [chunk] i).2 = (padIds pad i (4 - chunk.length)).map
        (fun id => .style id "fill:none,stroke:none,color:none".toList) := by
  have hp : padIds pad i ((4 - chunk.length) / 2) ++ padIds pad (i + (4 - chunk.length) / 2)
      (4 - chunk.length - (4 - chunk.length) / 2) = padIds pad i (4 - chunk.length) := by
    rw [padIds_append]; congr 1; omega
  have hne : chunk.length ≠ 4 := by omega
  simp only [centeredLoop, if_neg hne, List.append_nil]
  constructor
  · have h1 := Part.nodes ((padIds pad i (4 - chunk.length)).map (fun id => (id, [' ']))) (by
      simp only [List.mem_map]; rintro _ ⟨_, _, rfl⟩; exact (by decide : Unquoted [' ']))
    simp only [List.map_map, Function.comp_def, List.map_id'] at h1
    have h2 := h1.append (Part.rowChain (padIds pad i ((4 - chunk.length) / 2) ++ chunk
      ++ padIds pad (i + (4 - chunk.length) / 2) (4 - chunk.length - (4 - chunk.length) / 2)))
    rw [← hp] at h2 ⊢
    rw [List.append_nil] at h2
    refine h2.mono ?_
    intro x hx
    simp only [List.mem_append, List.nil_append] at hx ⊢
    tauto
  · rw [← hp]

theorem chunks4_induction {P : List (List Char) → Prop} (small : ∀ l, l.length < 4 → P l)
    (step : ∀ a b c d rest, P rest → P (a :: b :: c :: d :: rest)) (l : List (List Char)) : P l := by
  match l with
  | [] => exact small _ (by simp)
  | [_] => exact small _ (by simp)
  | [_, _] => exact small _ (by simp)
  | [_, _, _] => exact small _ (by simp)
  | a :: b :: c :: d :: rest => exact step a b c d rest (chunks4_induction small step rest)

/-- The rows of a subgraph: padding nodes, numbered from 0, fewer than four of them. -/
theorem centered (pad : List Char) (ids : List (List Char)) : ∃ k < 4,
    Part (padIds pad 0 k) ids (centeredChains ids pad).1 ∧
      (centeredChains ids pad).2 = (padIds pad 0 k).map
        (fun id => .style id "fill:none,stroke:none,color:none".toList) := by
  unfold centeredChains
  induction ids using chunks4_induction with
  | small l hl =>
    match l, hl with
    | [], _ => exact ⟨0, by omega, Part.nil, rfl⟩
    | [a], h => exact ⟨3, by omega, centered_last pad [a] h 0⟩
    | [a, b], h => exact ⟨2, by omega, centered_last pad [a, b] h 0⟩
    | [a, b, c], h => exact ⟨1, by omega, centered_last pad [a, b, c] h 0⟩
  | step a b c d rest ih =>
    obtain ⟨k, hk, h1, h2⟩ := ih
    refine ⟨k, hk, ?_, ?_⟩
    · have h3 := (Part.rowChain [a, b, c, d]).append h1
      exact h3
    · exact h2

/-! ## Nesting -/

/-- Lines that neither open nor close a subgraph. -/
def Flat (ls : List DiagramLine) : Prop :=
  ∀ l ∈ ls, (∀ id label, l ≠ .subgraph id label) ∧ l ≠ .close

theorem Flat.append {a b : List DiagramLine} (ha : Flat a) (hb : Flat b) : Flat (a ++ b) :=
  fun l hl => (List.mem_append.mp hl).elim (ha l) (hb l)

theorem Flat.nil : Flat [] := by simp [Flat]

theorem flat_nodes (ns : List (List Char × List Char)) :
    Flat (ns.map (fun (id, label) => DiagramLine.node 8 id label)) := by
  intro l hl
  rw [List.mem_map] at hl
  obtain ⟨_, _, rfl⟩ := hl
  exact ⟨by simp, by simp⟩

theorem flat_styles (ids : List (List Char)) (f : List Char → List Char) :
    Flat (ids.map (fun id => DiagramLine.style id (f id))) := by
  intro l hl
  rw [List.mem_map] at hl
  obtain ⟨_, _, rfl⟩ := hl
  exact ⟨by simp, by simp⟩

theorem flat_rowChain (ids : List (List Char)) : Flat (rowChain ids) := by
  induction ids with
  | nil => exact Flat.nil
  | cons a rest ih =>
    cases rest with
    | nil => exact Flat.nil
    | cons b rest =>
      intro l hl
      rw [rowChain, List.mem_cons] at hl
      rcases hl with rfl | hl
      · exact ⟨by simp, by simp⟩
      · exact ih l hl

theorem flat_centeredLoop (pad : List Char) (chunks : List (List (List Char))) (i : Nat) :
    Flat (centeredLoop pad chunks i).1 := by
  induction chunks generalizing i with
  | nil => exact Flat.nil
  | cons c rest ih =>
    rw [centeredLoop]
    split
    · exact (flat_rowChain c).append (ih i)
    · refine Flat.append (Flat.append ?_ (flat_rowChain _)) (ih _)
      intro l hl
      rw [List.mem_map] at hl
      obtain ⟨_, _, rfl⟩ := hl
      exact ⟨by simp, by simp⟩

theorem flat_centered (ids : List (List Char)) (pad : List Char) : Flat (centeredChains ids pad).1 :=
  flat_centeredLoop pad _ 0

theorem nested_flat (inside : Bool) (ss rest : List DiagramLine) (h : Flat ss) :
    OldNested inside (ss ++ rest) ↔ OldNested inside rest := by
  induction ss with
  | nil => rfl
  | cons s ss ih =>
    have hs := h s (by simp)
    rw [← ih (fun x hx => h x (by simp [hx])), List.cons_append]
    cases s with
    | subgraph id label => exact absurd rfl (hs.1 id label)
    | close => exact absurd rfl hs.2
    | _ => rfl

theorem nested_block (id label : List Char) (body rest : List DiagramLine) (h : Flat body) :
    OldNested false ([.subgraph id label] ++ body ++ [.close] ++ rest) ↔ OldNested false rest := by
  simp only [List.append_assoc, List.cons_append, List.nil_append]
  show false = false ∧ OldNested true _ ↔ _
  rw [nested_flat _ _ _ h]
  exact ⟨fun h => h.2.2, fun h => ⟨rfl, rfl, h⟩⟩

theorem nested_end (ss : List DiagramLine) (h : Flat ss) : OldNested false ss := by
  have := (nested_flat false ss [] h).mpr rfl
  rwa [List.append_nil] at this

/-- From parts to diagrams. -/
theorem Part.diagram {ids uses missing : List (List Char)} {ls : List DiagramLine} (h : Part ids uses ls)
    (hn : OldNested false ls) (hd : ids.Nodup) (hi : ∀ id ∈ ids, OldIdentifier id)
    (hu : ∀ x ∈ uses, x ∈ ids ++ missing) : OldDiagram missing ls where
  nested := hn
  distinct := by rw [h.declared]; exact hd
  identifiers := by rw [h.declared]; exact hi
  labels := h.labels
  edges := by rw [h.declared]; exact (h.mono hu).edges
  styles := by rw [h.declared]; exact (h.mono hu).styles

/-! ## The parts -/

theorem long_part (f : Function) (a : Address) : ∃ k < 4,
    Part (["FRAME_SG".toList, "FTYPE".toList, "FUNC".toList, "ADDR".toList] ++ padIds "FP".toList 0 k)
      ["FTYPE".toList, "FUNC".toList, "ADDR".toList] (longFrameLines f a).1 ∧
    Part [] (["FRAME_SG".toList, "FTYPE".toList, "FUNC".toList, "ADDR".toList] ++ padIds "FP".toList 0 k)
      (longFrameLines f a).2 ∧
    (∀ rest, OldNested false ((longFrameLines f a).1 ++ rest) ↔ OldNested false rest) ∧
    Flat (longFrameLines f a).2 := by
  obtain ⟨k, hk, h1, h2⟩ := centered "FP".toList ["FTYPE".toList, "FUNC".toList, "ADDR".toList]
  refine ⟨k, hk, ?_, ?_, ?_, ?_⟩
  · have h3 := Part.nodes [("FTYPE".toList, "Long Frame".toList),
      ("FUNC".toList, "Function: ".toList ++ mermaidEscapeOld f.display),
      ("ADDR".toList, "Address: ".toList ++ mermaidEscapeOld a.display)] (by
        simp only [List.forall_mem_cons, List.not_mem_nil, false_imp_iff, implies_true, and_true]
        exact ⟨by decide +kernel, (by decide +kernel : Unquoted "Function: ".toList).append (unquoted_escape _),
          (by decide +kernel : Unquoted "Address: ".toList).append (unquoted_escape _)⟩)
    have h4 := (((Part.subgraph "FRAME_SG".toList "Frame Header".toList (by decide +kernel)).append h3).append
      h1).append Part.close
    simp only [List.append_nil, List.nil_append, List.map_cons, List.map_nil, List.cons_append] at h4
    simpa only [longFrameLines, List.cons_append, List.nil_append] using h4
  · have h3 := ((Part.styleAll (padIds "FP".toList 0 k)
      (fun _ => "fill:none,stroke:none,color:none".toList)).append
      (Part.style "FRAME_SG".toList "fill:#2e86c1,color:#fff,stroke:#1a5276".toList)).append
      (Part.styleAll ["FTYPE".toList, "FUNC".toList, "ADDR".toList]
        (fun _ => "fill:#2980b9,color:#fff,stroke:#1a5276".toList))
    rw [← h2] at h3
    refine Part.mono h3 ?_
    intro x hx
    simp only [List.mem_append, List.mem_cons, List.not_mem_nil, or_false, List.nil_append] at hx ⊢
    tauto
  · intro rest
    have := nested_block "FRAME_SG".toList "Frame Header".toList
      ([.node 8 "FTYPE".toList "Long Frame".toList,
        .node 8 "FUNC".toList ("Function: ".toList ++ mermaidEscapeOld f.display),
        .node 8 "ADDR".toList ("Address: ".toList ++ mermaidEscapeOld a.display)]
        ++ (centeredChains ["FTYPE".toList, "FUNC".toList, "ADDR".toList] "FP".toList).1) rest
      (Flat.append (flat_nodes [("FTYPE".toList, "Long Frame".toList),
        ("FUNC".toList, "Function: ".toList ++ mermaidEscapeOld f.display),
        ("ADDR".toList, "Address: ".toList ++ mermaidEscapeOld a.display)]) (flat_centered _ _))
    simpa only [longFrameLines, List.cons_append, List.nil_append, List.append_assoc] using this
  · have : (longFrameLines f a).2 = (centeredChains ["FTYPE".toList, "FUNC".toList, "ADDR".toList] "FP".toList).2
        ++ (["FRAME_SG".toList].map (fun id => DiagramLine.style id "fill:#2e86c1,color:#fff,stroke:#1a5276".toList))
        ++ ["FTYPE".toList, "FUNC".toList, "ADDR".toList].map
          (fun id => .style id "fill:#2980b9,color:#fff,stroke:#1a5276".toList) := rfl
    rw [this, h2]
    exact ((flat_styles _ _).append (flat_styles _ _)).append (flat_styles _ _)

theorem unquoted_deviceLabels (h : LongTplHeader) : ∀ l ∈ deviceLabels h, Unquoted l := by
  intro l hl
  simp only [deviceLabels, List.mem_append, List.mem_cons, List.not_mem_nil, or_false] at hl
  rcases hl with (rfl | rfl | rfl | rfl | rfl | rfl) | hl
  · exact (by decide +kernel : Unquoted "ID: ".toList).append (unquoted_escape _)
  · exact (by decide +kernel : Unquoted "Manufacturer: ".toList).append (unquoted_escape _)
  · exact (by decide +kernel : Unquoted "Version: ".toList).append (unquoted_nat _)
  · exact (by decide +kernel : Unquoted "Device Type: ".toList).append (unquoted_escape _)
  · exact (by decide +kernel : Unquoted "Access Number: ".toList).append (unquoted_nat _)
  · exact (by decide +kernel : Unquoted "Status: ".toList).append (unquoted_escape _)
  · split at hl
    · simp only [List.mem_cons, List.not_mem_nil, or_false] at hl
      rcases hl with rfl | rfl | rfl
      · exact (by decide +kernel : Unquoted "Name: ".toList).append (unquoted_escape _)
      · exact (by decide +kernel : Unquoted "Website: ".toList).append (unquoted_escape _)
      · exact unquoted_escape _
    · simp at hl

theorem deviceLabels_length (h : LongTplHeader) :
    (deviceLabels h).length = 6 ∨ (deviceLabels h).length = 9 := by
  unfold deviceLabels
  simp only
  split <;> simp

theorem device_part (h : LongTplHeader) : ∃ n k, (n = 6 ∨ n = 9) ∧ k < 4 ∧
    Part ("DEV_SG".toList :: (List.range' 1 n).map devId ++ padIds "DP".toList 0 k)
      ("FRAME_SG".toList :: "DEV_SG".toList :: (List.range' 1 n).map devId) (deviceLines h).1 ∧
    Part [] ("DEV_SG".toList :: (List.range' 1 n).map devId ++ padIds "DP".toList 0 k) (deviceLines h).2 ∧
    (∀ rest, OldNested false ((deviceLines h).1 ++ rest) ↔ OldNested false rest) ∧
    Flat (deviceLines h).2 := by
  obtain ⟨k, hk, h1, h2⟩ := centered "DP".toList ((List.range' 1 (deviceLabels h).length).map devId)
  refine ⟨(deviceLabels h).length, k, deviceLabels_length h, hk, ?_, ?_, ?_, ?_⟩
  · have h3 := Part.nodes (((List.range' 1 (deviceLabels h).length).map devId).zip (deviceLabels h)) (by
      intro n hn
      exact unquoted_deviceLabels h _ (List.of_mem_zip hn).2)
    rw [List.map_fst_zip (by simp)] at h3
    have h4 := ((((Part.subgraph "DEV_SG".toList "Device Info".toList (by decide +kernel)).append h3).append
      h1).append Part.close).append (Part.arrow "FRAME_SG".toList "DEV_SG".toList)
    simp only [List.append_nil, List.nil_append, List.cons_append] at h4
    simp only [deviceLines, List.cons_append, List.nil_append]
    have h5 := h4.mono (v := "FRAME_SG".toList :: "DEV_SG".toList ::
      (List.range' 1 (deviceLabels h).length).map devId) (by
        intro x hx
        simp only [List.mem_append, List.mem_cons, List.not_mem_nil, or_false] at hx ⊢
        tauto)
    simpa only [List.append_assoc, List.cons_append, List.nil_append] using h5
  · have h3 := ((Part.styleAll (padIds "DP".toList 0 k)
      (fun _ => "fill:none,stroke:none,color:none".toList)).append
      (Part.style "DEV_SG".toList "fill:#1e8449,color:#fff,stroke:#145a32".toList)).append
      (Part.styleAll ((List.range' 1 (deviceLabels h).length).map devId)
        (fun _ => "fill:#27ae60,color:#fff,stroke:#145a32".toList))
    rw [← h2] at h3
    refine Part.mono h3 ?_
    intro x hx
    simp only [List.mem_append, List.mem_cons, List.not_mem_nil, or_false, List.nil_append] at hx ⊢
    tauto
  · intro rest
    have := nested_block "DEV_SG".toList "Device Info".toList
      ((((List.range' 1 (deviceLabels h).length).map devId).zip (deviceLabels h)).map
        (fun (id, label) => .node 8 id label)
        ++ (centeredChains ((List.range' 1 (deviceLabels h).length).map devId) "DP".toList).1)
      (.arrow "FRAME_SG".toList "DEV_SG".toList :: rest)
      (Flat.append (flat_nodes _) (flat_centered _ _))
    have he : OldNested false (.arrow "FRAME_SG".toList "DEV_SG".toList :: rest) ↔ OldNested false rest :=
      Iff.rfl
    rw [he] at this
    simpa only [deviceLines, List.cons_append, List.nil_append, List.append_assoc] using this
  · have : (deviceLines h).2 =
        (centeredChains ((List.range' 1 (deviceLabels h).length).map devId) "DP".toList).2
        ++ (["DEV_SG".toList].map (fun id => DiagramLine.style id "fill:#1e8449,color:#fff,stroke:#145a32".toList))
        ++ ((List.range' 1 (deviceLabels h).length).map devId).map
          (fun id => .style id "fill:#27ae60,color:#fff,stroke:#145a32".toList) := rfl
    rw [this, h2]
    exact ((flat_styles _ _).append (flat_styles _ _)).append (flat_styles _ _)

theorem oldRecordNodes_eq (rt : UInt32 → List Char) (rs : List DataRecord) :
    rs.zipIdx.map (fun (r, i) => oldRecordNode rt r i) =
      (rs.zipIdx.map (fun (r, i) => (oldRecordId i, oldRecordLabel rt r))).map
        (fun (id, label) => .node 8 id label) := by
  rw [List.map_map]; rfl

theorem recordIds_eq (rt : UInt32 → List Char) (rs : List DataRecord) :
    (rs.zipIdx.map (fun (r, i) => (oldRecordId i, oldRecordLabel rt r))).map (·.1) =
      (List.range rs.length).map oldRecordId := by
  have : rs.zipIdx.map Prod.snd = List.range rs.length := by
    rw [List.zipIdx_map_snd, List.range_eq_range']
  rw [← this, List.map_map, List.map_map]
  rfl

theorem record_nodes_part (rt : UInt32 → List Char) (rs : List DataRecord) :
    Part ((List.range rs.length).map oldRecordId) []
      (rs.zipIdx.map (fun (r, i) => oldRecordNode rt r i)) := by
  rw [oldRecordNodes_eq, ← recordIds_eq rt rs]
  apply Part.nodes
  simp only [List.mem_map]
  rintro _ ⟨⟨r, i⟩, _, rfl⟩
  exact unquoted_escape _

theorem record_styles (n : Nat) : ∃ f : List Char → List Char, True ∧ ∀ i < n, oldRecordStyle i = .style (oldRecordId i) (f (oldRecordId i)) := by
  refine ⟨fun id => match (List.range n).find? (fun i => oldRecordId i = id) with
    | some i => (match oldRecordStyle i with | .style _ a => a | _ => [])
    | none => [], trivial, ?_⟩
  intro i hi
  have : (List.range n).find? (fun j => oldRecordId j = oldRecordId i) = some i := by
    rw [List.find?_eq_some_iff_append]
    refine ⟨by simp, List.range i, List.range' (i + 1) (n - i - 1), ?_, ?_⟩
    · rw [List.range_eq_range', List.range_eq_range', ← List.range'_succ]
      have := List.range'_append_1 (s := 0) (m := i) (n := n - i - 1 + 1)
      simp only [Nat.zero_add] at this
      rw [this]; congr 1; omega
    · intro a ha
      simp only [List.mem_range] at ha
      simp only [Bool.not_eq_true', decide_eq_false_iff_not, oldRecordId, List.cons.injEq, true_and]
      intro he
      have := natText_inj he
      omega
  simp only [this]
  rfl

theorem record_styles_part (n : Nat) : Part [] ((List.range n).map oldRecordId)
    ((List.range n).map oldRecordStyle) ∧ Flat ((List.range n).map oldRecordStyle) := by
  obtain ⟨f, -, hf⟩ := record_styles n
  have : (List.range n).map oldRecordStyle =
      ((List.range n).map oldRecordId).map (fun id => .style id (f id)) := by
    rw [List.map_map]
    apply List.map_congr_left
    intro i hi
    exact hf i (List.mem_range.mp hi)
  rw [this]
  exact ⟨Part.styleAll _ _, flat_styles _ _⟩

theorem wired_records_part (rt : UInt32 → List Char) (rs : List DataRecord) : ∃ k < 4,
    Part ("REC_SG".toList :: (List.range rs.length).map oldRecordId ++ padIds "RP".toList 0 k)
      ("DEV_SG".toList :: "REC_SG".toList :: (List.range rs.length).map oldRecordId)
      (wiredRecordLines rt rs).1 ∧
    Part [] ("REC_SG".toList :: (List.range rs.length).map oldRecordId ++ padIds "RP".toList 0 k)
      (wiredRecordLines rt rs).2 ∧
    (∀ rest, OldNested false ((wiredRecordLines rt rs).1 ++ rest) ↔ OldNested false rest) ∧
    Flat (wiredRecordLines rt rs).2 := by
  obtain ⟨k, hk, h1, h2⟩ := centered "RP".toList ((List.range rs.length).map oldRecordId)
  refine ⟨k, hk, ?_, ?_, ?_, ?_⟩
  · have h4 := ((((Part.subgraph "REC_SG".toList "Data Records".toList (by decide +kernel)).append
      (record_nodes_part rt rs)).append h1).append Part.close).append
        (Part.arrow "DEV_SG".toList "REC_SG".toList)
    simp only [List.append_nil, List.nil_append, List.cons_append] at h4
    simp only [wiredRecordLines, List.cons_append, List.nil_append]
    have h5 := h4.mono (v := "DEV_SG".toList :: "REC_SG".toList ::
      (List.range rs.length).map oldRecordId) (by
        intro x hx
        simp only [List.mem_append, List.mem_cons, List.not_mem_nil, or_false] at hx ⊢
        tauto)
    simpa only [List.append_assoc, List.cons_append, List.nil_append] using h5
  · have h3 := ((record_styles_part rs.length).1.append
      (Part.style "REC_SG".toList "fill:#6c3483,color:#fff,stroke:#4a235a".toList)).append
      (Part.styleAll (padIds "RP".toList 0 k) (fun _ => "fill:none,stroke:none,color:none".toList))
    rw [← h2] at h3
    refine Part.mono h3 ?_
    intro x hx
    simp only [List.mem_append, List.mem_cons, List.not_mem_nil, or_false, List.nil_append] at hx ⊢
    tauto
  · intro rest
    have := nested_block "REC_SG".toList "Data Records".toList
      (rs.zipIdx.map (fun (r, i) => oldRecordNode rt r i)
        ++ (centeredChains ((List.range rs.length).map oldRecordId) "RP".toList).1)
      (.arrow "DEV_SG".toList "REC_SG".toList :: rest)
      (Flat.append (by rw [oldRecordNodes_eq]; exact flat_nodes _) (flat_centered _ _))
    have he : OldNested false (.arrow "DEV_SG".toList "REC_SG".toList :: rest) ↔ OldNested false rest :=
      Iff.rfl
    rw [he] at this
    simpa only [wiredRecordLines, List.cons_append, List.nil_append, List.append_assoc] using this
  · have : (wiredRecordLines rt rs).2 = (List.range rs.length).map oldRecordStyle
        ++ (["REC_SG".toList].map (fun id => DiagramLine.style id "fill:#6c3483,color:#fff,stroke:#4a235a".toList))
        ++ (centeredChains ((List.range rs.length).map oldRecordId) "RP".toList).2 := rfl
    rw [this, h2]
    exact ((record_styles_part _).2.append (flat_styles _ _)).append (flat_styles _ _)

theorem wireless_records_part (rt : UInt32 → List Char) (rs : List DataRecord) :
    Part ("REC_SG".toList :: (List.range rs.length).map oldRecordId)
      ["FRAME_SG".toList, "REC_SG".toList] (wirelessRecordLines rt rs).1 ∧
    Part [] ("REC_SG".toList :: (List.range rs.length).map oldRecordId) (wirelessRecordLines rt rs).2 ∧
    (∀ rest, OldNested false ((wirelessRecordLines rt rs).1 ++ rest) ↔ OldNested false rest) ∧
    Flat (wirelessRecordLines rt rs).2 := by
  refine ⟨?_, ?_, ?_, ?_⟩
  · have h4 := (((Part.subgraph "REC_SG".toList "Data Records".toList (by decide +kernel)).append
      (record_nodes_part rt rs)).append Part.close).append
        (Part.arrow "FRAME_SG".toList "REC_SG".toList)
    simp only [List.append_nil, List.nil_append, List.cons_append] at h4
    simp only [wirelessRecordLines, List.cons_append, List.nil_append]
    simpa only [List.append_assoc, List.cons_append, List.nil_append] using h4
  · have h3 := (record_styles_part rs.length).1.append
      (Part.style "REC_SG".toList "fill:#6c3483,color:#fff,stroke:#4a235a".toList)
    refine Part.mono h3 ?_
    intro x hx
    simp only [List.mem_append, List.mem_cons, List.not_mem_nil, or_false, List.nil_append] at hx ⊢
    tauto
  · intro rest
    have := nested_block "REC_SG".toList "Data Records".toList
      (rs.zipIdx.map (fun (r, i) => oldRecordNode rt r i))
      (.arrow "FRAME_SG".toList "REC_SG".toList :: rest) (by rw [oldRecordNodes_eq]; exact flat_nodes _)
    have he : OldNested false (.arrow "FRAME_SG".toList "REC_SG".toList :: rest) ↔ OldNested false rest :=
      Iff.rfl
    rw [he] at this
    simpa only [wirelessRecordLines, List.cons_append, List.nil_append, List.append_assoc] using this
  · have : (wirelessRecordLines rt rs).2 = (List.range rs.length).map oldRecordStyle
        ++ (["REC_SG".toList].map (fun id => DiagramLine.style id "fill:#6c3483,color:#fff,stroke:#4a235a".toList)) := rfl
    rw [this]
    exact (record_styles_part _).2.append (flat_styles _ _)

/-! ## Identifiers -/

theorem identifier_of (t : List Char) (h : t ≠ [] ∧ ∀ c ∈ t, ('A' ≤ c ∧ c ≤ 'Z') ∨ ('0' ≤ c ∧ c ≤ '9') ∨ c = '_') :
    OldIdentifier t := h

theorem identifier_number (a : List Char) (n : Nat)
    (h : ∀ c ∈ a, ('A' ≤ c ∧ c ≤ 'Z') ∨ ('0' ≤ c ∧ c ≤ '9') ∨ c = '_') : OldIdentifier (a ++ natText n) := by
  refine ⟨by simp [natText_ne_nil], ?_⟩
  intro c hc
  rw [List.mem_append] at hc
  rcases hc with hc | hc
  · exact h c hc
  · exact .inr (.inl (natText_digits n c hc))

theorem pad_identifier (a : List Char) (k : Nat)
    (h : ∀ c ∈ a, ('A' ≤ c ∧ c ≤ 'Z') ∨ ('0' ≤ c ∧ c ≤ '9') ∨ c = '_') :
    ∀ id ∈ padIds a 0 k, OldIdentifier id := by
  intro id hid
  rw [padIds, List.mem_map] at hid
  obtain ⟨i, _, rfl⟩ := hid
  have := identifier_number (a ++ ['P']) i (by
    intro c hc
    rw [List.mem_append] at hc
    rcases hc with hc | hc
    · exact h c hc
    · rw [List.mem_singleton] at hc; subst hc; decide)
  simpa using this

end MBus
