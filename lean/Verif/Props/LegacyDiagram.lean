import Verif.Lemmas.LegacyDiagram
import Verif.Props.Legacy
/-!
# C111: the older diagrams
-/
namespace MBus
open Spec

instance (id : List Char) : Decidable (OldIdentifier id) :=
  inferInstanceAs (Decidable (id ≠ [] ∧ ∀ c ∈ id, ('A' ≤ c ∧ c ≤ 'Z') ∨ ('0' ≤ c ∧ c ≤ '9') ∨ c = '_'))

/-- Identifiers that can be declared beside those of the records. -/
structure Fixed (ids : List (List Char)) : Prop where
  distinct : ids.Nodup
  identifiers : ∀ id ∈ ids, OldIdentifier id
  other : ∀ id ∈ ids, id.head? ≠ some 'R'

theorem fixed_long : ∀ k : Fin 4, Fixed
    (["FRAME_SG".toList, "FTYPE".toList, "FUNC".toList, "ADDR".toList] ++ padIds "FP".toList 0 k) := by
  have h : ∀ k : Fin 4, (["FRAME_SG".toList, "FTYPE".toList, "FUNC".toList, "ADDR".toList]
        ++ padIds "FP".toList 0 k).Nodup ∧
      (∀ id ∈ ["FRAME_SG".toList, "FTYPE".toList, "FUNC".toList, "ADDR".toList] ++ padIds "FP".toList 0 k,
        OldIdentifier id ∧ id.head? ≠ some 'R') := by decide +kernel
  exact fun k => ⟨(h k).1, fun id hid => ((h k).2 id hid).1, fun id hid => ((h k).2 id hid).2⟩

theorem fixed_device : ∀ k l : Fin 4, ∀ n ∈ [6, 9], Fixed
    (["FRAME_SG".toList, "FTYPE".toList, "FUNC".toList, "ADDR".toList] ++ padIds "FP".toList 0 k
      ++ ("DEV_SG".toList :: (List.range' 1 n).map devId ++ padIds "DP".toList 0 l)) := by
  have h : ∀ k l : Fin 4, ∀ n ∈ [6, 9], (["FRAME_SG".toList, "FTYPE".toList, "FUNC".toList, "ADDR".toList]
        ++ padIds "FP".toList 0 k
        ++ ("DEV_SG".toList :: (List.range' 1 n).map devId ++ padIds "DP".toList 0 l)).Nodup ∧
      (∀ id ∈ ["FRAME_SG".toList, "FTYPE".toList, "FUNC".toList, "ADDR".toList]
        ++ padIds "FP".toList 0 k
        ++ ("DEV_SG".toList :: (List.range' 1 n).map devId ++ padIds "DP".toList 0 l),
        OldIdentifier id ∧ id.head? ≠ some 'R') := by decide +kernel
  exact fun k l n hn => ⟨(h k l n hn).1, fun id hid => ((h k l n hn).2 id hid).1,
    fun id hid => ((h k l n hn).2 id hid).2⟩

theorem record_ids (n k : Nat) (hk : k < 4) :
    ("REC_SG".toList :: (List.range n).map oldRecordId ++ padIds "RP".toList 0 k).Nodup ∧
    ∀ id ∈ "REC_SG".toList :: (List.range n).map oldRecordId ++ padIds "RP".toList 0 k,
      OldIdentifier id ∧ id.head? = some 'R' := by
  have hp : ∀ k : Fin 4, (padIds "RP".toList 0 k).Nodup ∧ ∀ id ∈ padIds "RP".toList 0 k,
      OldIdentifier id ∧ id.take 2 = ['R', 'P'] := by decide +kernel
  obtain ⟨p1, p2⟩ := hp ⟨k, hk⟩
  simp only at p1 p2
  have hr : ∀ id ∈ (List.range n).map oldRecordId, OldIdentifier id ∧ id.head? = some 'R' ∧
      ∀ c, id.take 2 = ['R', c] → '0' ≤ c ∧ c ≤ '9' := by
    intro id hid
    rw [List.mem_map] at hid
    obtain ⟨i, _, rfl⟩ := hid
    refine ⟨identifier_number ['R'] i (by decide), rfl, ?_⟩
    intro c hc
    have hd := natText_digits i
    unfold oldRecordId at hc
    cases ht : natText i with
    | nil => exact absurd ht (natText_ne_nil i)
    | cons d t =>
      rw [ht] at hc hd
      simp only [List.take_succ_cons, List.take_zero, List.cons.injEq, and_true, true_and] at hc
      subst hc
      exact hd d (by simp)
  refine ⟨?_, ?_⟩
  · rw [List.cons_append, List.nodup_cons, List.nodup_append]
    refine ⟨?_, ?_, p1, ?_⟩
    · rw [List.mem_append]
      rintro (h | h)
      · have := (hr _ h).2.2 'E' (by decide); revert this; decide
      · have := (p2 _ h).2; revert this; decide
    · rw [List.nodup_map_iff_inj_on List.nodup_range]
      intro a _ b _ h
      simp only [oldRecordId, List.cons.injEq, true_and] at h
      exact natText_inj h
    · intro a ha b hb e
      subst e
      have := (hr _ ha).2.2 'P' (p2 _ hb).2
      revert this; decide
  · intro id hid
    rw [List.cons_append, List.mem_cons, List.mem_append] at hid
    rcases hid with rfl | h | h
    · exact ⟨by decide +kernel, by decide⟩
    · exact ⟨(hr _ h).1, (hr _ h).2.1⟩
    · refine ⟨(p2 _ h).1, ?_⟩
      have := (p2 _ h).2
      cases id with
      | nil => cases this
      | cons x t => simp only [List.take_succ_cons, List.cons.injEq] at this; simp [this.1]

theorem Fixed.records {ids rs : List (List Char)} (h : Fixed ids) (hr : rs.Nodup)
    (hi : ∀ id ∈ rs, OldIdentifier id ∧ id.head? = some 'R') :
    (ids ++ rs).Nodup ∧ ∀ id ∈ ids ++ rs, OldIdentifier id := by
  refine ⟨?_, ?_⟩
  · rw [List.nodup_append]
    refine ⟨h.distinct, hr, ?_⟩
    rintro a ha b hb rfl
    exact h.other a ha (hi a hb).2
  · intro id hid
    rw [List.mem_append] at hid
    exact hid.elim (h.identifiers id) (fun h => (hi id h).1)

theorem fixed_wireless (f : WirelessFrame) : Fixed ("FRAME_SG".toList :: (wirelessNodes f).map (·.1)) ∧
    ∀ n ∈ wirelessNodes f, Unquoted n.2 := by
  have h1 : Fixed ["FRAME_SG".toList, "FUNC".toList, "MFR".toList, "ID".toList, "DEVT".toList, "VER".toList] :=
    ⟨by decide +kernel, by decide +kernel, by decide +kernel⟩
  have h2 : Fixed ["FRAME_SG".toList, "FUNC".toList, "MFR".toList, "ID".toList, "DEVT".toList, "VER".toList,
      "MFRNAME".toList, "MFRWEB".toList, "MFRDESC".toList] :=
    ⟨by decide +kernel, by decide +kernel, by decide +kernel⟩
  unfold wirelessNodes
  simp only
  have hb : ∀ n ∈ [("FUNC".toList, "Function: ".toList ++ functionDebug f.function),
      ("MFR".toList, "Manufacturer: ".toList ++ mermaidEscapeOld f.manufacturerId.manufacturerCode.display),
      ("ID".toList, "ID: IdentificationNumber { number: ".toList
        ++ natText f.manufacturerId.identificationNumber ++ " }".toList),
      ("DEVT".toList, "Device Type: ".toList ++ f.manufacturerId.deviceType.debug),
      ("VER".toList, "Version: ".toList ++ natText f.manufacturerId.version.toNat)], Unquoted n.2 := by
    simp only [List.forall_mem_cons, List.not_mem_nil, false_imp_iff, implies_true, and_true]
    exact ⟨(by decide +kernel : Unquoted "Function: ".toList).append (unquoted_functionDebug _),
      (by decide +kernel : Unquoted "Manufacturer: ".toList).append (unquoted_escape _),
      ((by decide +kernel : Unquoted "ID: IdentificationNumber { number: ".toList).append (unquoted_nat _)).append
        (by decide +kernel),
      (by decide +kernel : Unquoted "Device Type: ".toList).append (unquoted_deviceDebug _),
      (by decide +kernel : Unquoted "Version: ".toList).append (unquoted_nat _)⟩
  split
  · refine ⟨h2, ?_⟩
    intro n hn
    rw [List.mem_append] at hn
    rcases hn with hn | hn
    · exact hb n hn
    · simp only [List.mem_cons, List.not_mem_nil, or_false] at hn
      rcases hn with rfl | rfl | rfl
      · exact (by decide +kernel : Unquoted "Name: ".toList).append (unquoted_escape _)
      · exact (by decide +kernel : Unquoted "Website: ".toList).append (unquoted_escape _)
      · exact unquoted_escape _
  · refine ⟨h1, ?_⟩
    intro n hn
    rw [List.append_nil] at hn
    exact hb n hn

theorem fixed_short (title : List Char) (ht : Unquoted title) (f : Function) (a : Address) :
    OldDiagram [] (shortFrameLines title f a) := by
  have h := ((((Part.subgraph "FRAME_SG".toList title ht).append
    (Part.node 8 "FUNC".toList ("Function: ".toList ++ mermaidEscapeOld f.display)
      ((by decide +kernel : Unquoted "Function: ".toList).append (unquoted_escape _)))).append
    (Part.node 8 "ADDR".toList ("Address: ".toList ++ mermaidEscapeOld a.display)
      ((by decide +kernel : Unquoted "Address: ".toList).append (unquoted_escape _)))).append Part.close).append
    (Part.style "FRAME_SG".toList "fill:#2e86c1,color:#fff,stroke:#1a5276".toList)
  exact h.diagram ⟨rfl, rfl, rfl⟩ (by decide +kernel) (by decide +kernel) (by decide +kernel)

/-- The diagram of a long frame. -/
theorem long_diagram (rt : UInt32 → List Char) (f : Function) (a : Address) (h : Option LongTplHeader)
    (rs : Option (List DataRecord)) (missing : List (List Char))
    (hm : h.isSome = true ∨ rs = none ∨ missing = ["DEV_SG".toList]) :
    OldDiagram missing ((longFrameLines f a).1 ++ (h.elim ([], []) deviceLines).1
      ++ (rs.elim ([], []) (wiredRecordLines rt)).1 ++ (longFrameLines f a).2
      ++ (h.elim ([], []) deviceLines).2 ++ (rs.elim ([], []) (wiredRecordLines rt)).2) := by
  obtain ⟨k, hk, a1, a2, a3, a4⟩ := long_part f a
  have hdev : ∃ ids, Fixed (["FRAME_SG".toList, "FTYPE".toList, "FUNC".toList, "ADDR".toList]
        ++ padIds "FP".toList 0 k ++ ids) ∧
      (h.isSome = true → "DEV_SG".toList ∈ ids) ∧
      Part ids ("FRAME_SG".toList :: ids) (h.elim ([], []) deviceLines).1 ∧
      Part [] ids (h.elim ([], []) deviceLines).2 ∧
      (∀ rest, OldNested false ((h.elim ([], []) deviceLines).1 ++ rest) ↔ OldNested false rest) ∧
      Flat (h.elim ([], []) deviceLines).2 := by
    cases h with
    | none =>
      refine ⟨[], ?_, by simp, ?_, Part.nil, fun rest => Iff.rfl, Flat.nil⟩
      · rw [List.append_nil]; exact fixed_long ⟨k, hk⟩
      · exact Part.nil.mono (by simp)
    | some h =>
      obtain ⟨n, l, hn, hl, b1, b2, b3, b4⟩ := device_part h
      refine ⟨_, fixed_device ⟨k, hk⟩ ⟨l, hl⟩ n ?_, ?_, b1.mono ?_, b2, b3, b4⟩
      · rcases hn with rfl | rfl <;> decide
      · intro _; simp
      · intro x hx
        simp only [List.mem_append, List.mem_cons] at hx ⊢
        tauto
  obtain ⟨dev, b0, bm, b1, b2, b3, b4⟩ := hdev
  have hrec : ∃ ids uses, ids.Nodup ∧ (∀ id ∈ ids, OldIdentifier id ∧ id.head? = some 'R') ∧
      (∀ x ∈ uses, x ∈ ids ∨ (x = "DEV_SG".toList ∧ rs ≠ none)) ∧
      Part ids uses (rs.elim ([], []) (wiredRecordLines rt)).1 ∧
      Part [] ids (rs.elim ([], []) (wiredRecordLines rt)).2 ∧
      (∀ rest, OldNested false ((rs.elim ([], []) (wiredRecordLines rt)).1 ++ rest) ↔ OldNested false rest) ∧
      Flat (rs.elim ([], []) (wiredRecordLines rt)).2 := by
    cases rs with
    | none =>
      exact ⟨[], [], List.nodup_nil, by simp, by simp, Part.nil, Part.nil, fun rest => Iff.rfl, Flat.nil⟩
    | some rs =>
      obtain ⟨l, hl, c1, c2, c3, c4⟩ := wired_records_part rt rs
      obtain ⟨d1, d2⟩ := record_ids rs.length l hl
      refine ⟨_, _, d1, d2, ?_, c1, c2, c3, c4⟩
      intro x hx
      simp only [List.mem_append, List.mem_cons] at hx ⊢
      rcases hx with h | h | h
      · right; exact ⟨h, by simp⟩
      · left; left; left; exact h
      · left; left; right; exact h
  obtain ⟨rec, uses, r1, r2, ru, c1, c2, c3, c4⟩ := hrec
  have hp := (((((a1.append b1).append c1).append a2).append b2).append c2)
  simp only [List.append_nil] at hp
  obtain ⟨e1, e2⟩ := b0.records r1 r2
  refine hp.diagram ?_ e1 e2 ?_
  · simp only [List.append_assoc]
    rw [a3, b3, c3]
    exact nested_end _ (a4.append (b4.append c4))
  · intro x hx
    simp only [List.mem_append] at hx ⊢
    rcases hx with ((((hx | hx) | hx) | hx) | hx) | hx
    · left; left; left; left
      revert x; decide
    · rw [List.mem_cons] at hx
      rcases hx with rfl | hx
      · left; left; left; left; decide
      · left; left; right; exact hx
    · rcases ru x hx with h | ⟨rfl, hn⟩
      · left; right; exact h
      · rcases hm with h | h | h
        · left; left; right; exact bm h
        · exact absurd h hn
        · right; rw [h]; simp
    · left; left; left; exact hx
    · left; left; right; exact hx
    · left; right; exact hx

theorem nested_sequence (id title : List Char) (body rec a b c : List DiagramLine) (hb : Flat body)
    (hr : ∀ rest, OldNested false (rec ++ rest) ↔ OldNested false rest) (h1 : Flat a) (h2 : Flat b)
    (h3 : Flat c) : OldNested false ([.subgraph id title] ++ body ++ [.close] ++ rec ++ a ++ b ++ c) := by
  have := nested_block id title body
  simp only [List.append_assoc, List.cons_append, List.nil_append] at this ⊢
  rw [this _ hb, hr]
  exact nested_end _ (h1.append (h2.append h3))

theorem wireless_diagram (rt : UInt32 → List Char) (f : WirelessFrame) (rs : Option (List DataRecord)) :
    OldDiagram [] ([.subgraph "FRAME_SG".toList "Wireless Frame".toList]
      ++ (wirelessNodes f).map (fun (id, label) => .node 8 id label) ++ [.close]
      ++ (rs.elim ([], []) (wirelessRecordLines rt)).1
      ++ [.style "FRAME_SG".toList "fill:#2e86c1,color:#fff,stroke:#1a5276".toList]
      ++ (wirelessNodes f).map (fun (id, _) => .style id "fill:#2980b9,color:#fff,stroke:#1a5276".toList)
      ++ (rs.elim ([], []) (wirelessRecordLines rt)).2) := by
  obtain ⟨w1, w2⟩ := fixed_wireless f
  have hst : (wirelessNodes f).map (fun (id, _) => DiagramLine.style id
        "fill:#2980b9,color:#fff,stroke:#1a5276".toList) =
      ((wirelessNodes f).map (·.1)).map (fun id => .style id
        "fill:#2980b9,color:#fff,stroke:#1a5276".toList) := by
    rw [List.map_map]; rfl
  have hrec : ∃ ids uses, ids.Nodup ∧ (∀ id ∈ ids, OldIdentifier id ∧ id.head? = some 'R') ∧
      (∀ x ∈ uses, x ∈ ids ∨ x = "FRAME_SG".toList) ∧
      Part ids uses (rs.elim ([], []) (wirelessRecordLines rt)).1 ∧
      Part [] ids (rs.elim ([], []) (wirelessRecordLines rt)).2 ∧
      (∀ rest, OldNested false ((rs.elim ([], []) (wirelessRecordLines rt)).1 ++ rest) ↔ OldNested false rest) ∧
      Flat (rs.elim ([], []) (wirelessRecordLines rt)).2 := by
    cases rs with
    | none =>
      exact ⟨[], [], List.nodup_nil, by simp, by simp, Part.nil, Part.nil, fun rest => Iff.rfl, Flat.nil⟩
    | some rs =>
      obtain ⟨c1, c2, c3, c4⟩ := wireless_records_part rt rs
      obtain ⟨d1, d2⟩ := record_ids rs.length 0 (by decide)
      have hz : padIds "RP".toList 0 0 = [] := rfl
      rw [hz, List.append_nil] at d1 d2
      refine ⟨_, _, d1, d2, ?_, c1, c2, c3, c4⟩
      intro x hx
      simp only [List.mem_cons, List.not_mem_nil, or_false] at hx ⊢
      tauto
  obtain ⟨rec, uses, r1, r2, ru, c1, c2, c3, c4⟩ := hrec
  have hp := ((((((Part.subgraph "FRAME_SG".toList "Wireless Frame".toList (by decide +kernel)).append
    (Part.nodes (wirelessNodes f) w2)).append Part.close).append c1).append
    (Part.style "FRAME_SG".toList "fill:#2e86c1,color:#fff,stroke:#1a5276".toList)).append
    (Part.styleAll ((wirelessNodes f).map (·.1))
      (fun _ => "fill:#2980b9,color:#fff,stroke:#1a5276".toList))).append c2
  rw [← hst] at hp
  simp only [List.append_nil, List.nil_append] at hp
  obtain ⟨e1, e2⟩ := w1.records r1 r2
  refine hp.diagram ?_ e1 e2 ?_
  · rw [hst]
    exact nested_sequence _ _ _ _ _ _ _ (flat_nodes _) c3 (flat_styles [_] (fun _ => _)) (flat_styles _ _) c4
  · intro x hx
    simp only [List.mem_append, List.mem_cons, List.not_mem_nil, or_false, List.nil_append] at hx ⊢
    rcases hx with ((hx | hx) | hx) | hx
    · rcases ru x hx with h | h
      · right; exact h
      · left; left; exact h
    · left; left; exact hx
    · left; right; exact hx
    · right; exact hx

/-- The header a long frame may have. -/
def longHeader : Option UserDataBlock → Option LongTplHeader
  | some (.long _ header _) => some header
  | _ => none

theorem wired_long_lines (cfg : Cfg) (rt : UInt32 → List Char) (m : MbusData WiredFrame) (f : Function)
    (a : Address) (c : List UInt8) (hf : m.frame = .longFrame f a c) (ls : List DiagramLine) :
    mermaidWired cfg rt m = .ok ls ↔ ∃ rs, flattenRecords cfg m.dataRecords = .ok rs ∧
      ls = (longFrameLines f a).1 ++ ((longHeader m.userData).elim ([], []) deviceLines).1
      ++ (rs.elim ([], []) (wiredRecordLines rt)).1 ++ (longFrameLines f a).2
      ++ ((longHeader m.userData).elim ([], []) deviceLines).2
      ++ (rs.elim ([], []) (wiredRecordLines rt)).2 := by
  unfold mermaidWired
  rw [hf]
  cases flattenRecords cfg m.dataRecords with
  | err e => simp
  | panic => simp
  | ok rs =>
    simp only [Res.bind_ok, Res.ok.injEq, exists_eq_left']
    cases m.userData with
    | none => cases rs <;> exact eq_comm
    | some b => cases b <;> cases rs <;> exact eq_comm

theorem wireless_lines (cfg : Cfg) (rt : UInt32 → List Char) (m : MbusData WirelessFrame)
    (ls : List DiagramLine) :
    mermaidWireless cfg rt m = .ok ls ↔ ∃ rs, flattenRecords cfg m.dataRecords = .ok rs ∧
      ls = [.subgraph "FRAME_SG".toList "Wireless Frame".toList]
      ++ (wirelessNodes m.frame).map (fun (id, label) => .node 8 id label) ++ [.close]
      ++ (rs.elim ([], []) (wirelessRecordLines rt)).1
      ++ [.style "FRAME_SG".toList "fill:#2e86c1,color:#fff,stroke:#1a5276".toList]
      ++ (wirelessNodes m.frame).map (fun (id, _) => .style id "fill:#2980b9,color:#fff,stroke:#1a5276".toList)
      ++ (rs.elim ([], []) (wirelessRecordLines rt)).2 := by
  unfold mermaidWireless
  cases flattenRecords cfg m.dataRecords with
  | err e => simp
  | panic => simp
  | ok rs =>
    simp only [Res.bind_ok, Res.ok.injEq, exists_eq_left']
    cases rs <;> exact eq_comm

/-- C111 (partial: the subgraph of the device may be missing): in the diagram of `parse_to_mermaid` every
subgraph that is opened is closed before the next, no two nodes have the same identifier, no label
contains a quotation mark or a bracket, and edges and styles refer to nodes of the diagram or to the
subgraph of the device. -/
theorem C111_diagram_partial (cfg : Cfg) (rt : UInt32 → List Char) (data : List UInt8)
    (ls : List DiagramLine) (h : mermaidOld cfg rt data = .ok ls) :
    OldDiagram ["DEV_SG".toList] ls ∧
    ((∀ m s, MbusData.tryFromWired cfg data = .ok m → m.dataRecords = some s →
      ∃ ell header block, m.userData = some (.long ell header block)) → OldDiagram [] ls) := by
  have weaken : ∀ {ls}, OldDiagram [] ls → OldDiagram ["DEV_SG".toList] ls := by
    intro ls h
    refine ⟨h.nested, h.distinct, h.identifiers, h.labels, ?_, ?_⟩
    · intro l hl a b e
      have := h.edges l hl a b e
      simp only [List.append_nil] at this
      exact ⟨List.mem_append_left _ this.1, List.mem_append_left _ this.2⟩
    · intro l hl a b e
      have := h.styles l hl a b e
      simp only [List.append_nil] at this
      exact List.mem_append_left _ this
  unfold mermaidOld at h
  split at h
  · cases h
  · rename_i m hm
    cases hf : m.frame with
    | longFrame f a c =>
      obtain ⟨rs, hr, rfl⟩ := (wired_long_lines cfg rt m f a c hf ls).1 h
      refine ⟨long_diagram rt f a _ rs _ (.inr (.inr rfl)), fun hx => long_diagram rt f a _ rs _ ?_⟩
      cases hd : m.dataRecords with
      | none => rw [hd] at hr; cases hr; exact .inr (.inl rfl)
      | some s =>
        obtain ⟨ell, header, block, hu⟩ := hx m s hm hd
        rw [hu]; exact .inl rfl
    | shortFrame f a =>
      rw [mermaidWired, hf] at h
      cases h
      exact ⟨weaken (fixed_short _ (by decide +kernel) _ _), fun _ => fixed_short _ (by decide +kernel) _ _⟩
    | controlFrame f a c =>
      rw [mermaidWired, hf] at h
      cases h
      exact ⟨weaken (fixed_short _ (by decide +kernel) _ _), fun _ => fixed_short _ (by decide +kernel) _ _⟩
    | singleCharacter c =>
      rw [mermaidWired, hf] at h
      cases h
      have hp : OldDiagram [] [DiagramLine.node 4 "FRAME".toList ("Single Character: 0x".toList ++ hexString [c]),
          .style "FRAME".toList "fill:#2e86c1,color:#fff,stroke:#1a5276".toList] :=
        ((Part.node 4 "FRAME".toList _ ((by decide +kernel : Unquoted "Single Character: 0x".toList).append
          (unquoted_hex c))).append (Part.style "FRAME".toList _)).diagram rfl (by decide +kernel)
          (by decide +kernel) (by decide +kernel)
      exact ⟨weaken hp, fun _ => hp⟩
  · rw [Res.bind_eq_ok] at h
    obtain ⟨d, hd, h⟩ := h
    split at h
    · cases h
    · cases h
      have hp : OldDiagram [] [DiagramLine.node 4 "ERR".toList "Error: Could not parse data".toList] :=
        (Part.node 4 "ERR".toList _ (by decide +kernel)).diagram rfl (by decide +kernel) (by decide +kernel)
          (by decide +kernel)
      exact ⟨weaken hp, fun _ => hp⟩
    · rename_i m hm
      obtain ⟨rs, hr, rfl⟩ := (wireless_lines cfg rt m ls).1 h
      exact ⟨weaken (wireless_diagram rt m.frame rs), fun _ => wireless_diagram rt m.frame rs⟩

/-- A telegram with a long header and two records satisfies the hypotheses. -/
example : ∃ ls, mermaidOld ⟨false, false⟩ (fun _ => []) (olderWired 0 [0x01, 0x13, 0x05, 0x01, 0x13, 0x06]) = .ok ls ∧
    ls.filterMap recordLabel = ["(5)e-3#91;m³#93;(Volume)".toList, "(6)e-3#91;m³#93;(Volume)".toList] := by
  exact checked _ (fun ls : List DiagramLine => _ = _) (by decide +kernel)

/-- C111 fails for wired frames whose payload has no long header: the records are connected to the subgraph
of the device, which is not in the diagram. -/
theorem C111_fails (cfg : Cfg) (rt : UInt32 → List Char) :
    ∃ ls, mermaidOld cfg rt [0x68, 0x0A, 0x0A, 0x68, 0x08, 0x01, 0x7A, 0x01, 0x00, 0x00, 0x00, 0x01, 0x13, 0x05,
      0x9D, 0x16] = .ok ls ∧
      (.arrow "DEV_SG".toList "REC_SG".toList) ∈ ls ∧ "DEV_SG".toList ∉ ls.filterMap oldDeclared := by
  obtain ⟨oc, tf⟩ := cfg
  refine checked _ (fun ls : List DiagramLine => _ ∧ _) ?_
  cases oc <;> cases tf <;> with_unfolding_all rfl

/-! ## The records -/

theorem no_labels {ids uses : List (List Char)} {ls : List DiagramLine} (h : Part ids uses ls)
    (hi : ∀ id ∈ ids, ∀ d t, id = 'R' :: d :: t → d.isDigit = false) : ls.filterMap recordLabel = [] := by
  rw [List.filterMap_eq_nil_iff]
  intro l hl
  cases l with
  | node n id label =>
    have hid : id ∈ ids := by
      rw [← h.declared, List.mem_filterMap]
      exact ⟨_, hl, rfl⟩
    match id, hid with
    | [], _ => rfl
    | [c], _ =>
      unfold recordLabel
      split
      · rename_i heq; cases heq
      · rfl
    | c :: d :: t, hid =>
      by_cases hc : c = 'R'
      · subst hc
        simp only [recordLabel, hi _ hid d t rfl, Bool.false_eq_true, if_false]
      · unfold recordLabel
        split
        · rename_i heq
          cases heq
          exact absurd rfl hc
        · rfl
  | _ => rfl

theorem node_label (rt : UInt32 → List Char) (r : DataRecord) (i : Nat) :
    recordLabel (oldRecordNode rt r i) = some (oldRecordLabel rt r) := by
  have hd := natText_digits i
  unfold oldRecordNode oldRecordId
  cases ht : natText i with
  | nil => exact absurd ht (natText_ne_nil i)
  | cons d t =>
    rw [ht] at hd
    have h := hd d (by simp)
    have : d.isDigit = true := by
      simp only [Char.isDigit, Bool.and_eq_true, decide_eq_true_eq]
      exact h
    simp only [recordLabel, this, if_true]

theorem node_labels (rt : UInt32 → List Char) (rs : List DataRecord) :
    (rs.zipIdx.map (fun (r, i) => oldRecordNode rt r i)).filterMap recordLabel =
      rs.map (oldRecordLabel rt) := by
  rw [List.filterMap_map]
  have : (recordLabel ∘ fun (x : DataRecord × Nat) => oldRecordNode rt x.1 x.2) =
      fun x => some ((oldRecordLabel rt ∘ Prod.fst) x) := by
    funext x
    exact node_label rt x.1 x.2
  have h2 := List.zipIdx_map_fst 0 rs
  calc _ = rs.zipIdx.map (oldRecordLabel rt ∘ Prod.fst) := by
        rw [← List.filterMap_eq_map]; congr 1
    _ = (rs.zipIdx.map Prod.fst).map (oldRecordLabel rt) := by rw [List.map_map]
    _ = _ := by rw [h2]

theorem labels_between (a b c d : List Char) (ls : List (List Char)) :
    [DiagramLine.subgraph a b].filterMap recordLabel ++ ls ++ []
      ++ [DiagramLine.close, .arrow c d].filterMap recordLabel = ls := by
  have h1 : [DiagramLine.subgraph a b].filterMap recordLabel = [] := rfl
  have h2 : [DiagramLine.close, .arrow c d].filterMap recordLabel = [] := rfl
  rw [h1, h2, List.nil_append, List.append_nil, List.append_nil]

theorem wired_record_labels (rt : UInt32 → List Char) (rs : List DataRecord) :
    (wiredRecordLines rt rs).1.filterMap recordLabel = rs.map (oldRecordLabel rt) := by
  obtain ⟨k, hk, h1, _⟩ := centered "RP".toList ((List.range rs.length).map oldRecordId)
  have hp : ∀ k : Fin 4, ∀ id ∈ padIds "RP".toList 0 k, id.take 2 = ['R', 'P'] := by decide +kernel
  have h2 := no_labels h1 (by
    rintro id hid d t rfl
    have := hp ⟨k, hk⟩ _ hid
    simp only [List.take_succ_cons, List.take_zero, List.cons.injEq, and_true, true_and] at this
    subst this
    decide)
  have h3 : (wiredRecordLines rt rs).1 = [.subgraph "REC_SG".toList "Data Records".toList]
    ++ rs.zipIdx.map (fun (r, i) => oldRecordNode rt r i)
    ++ (centeredChains ((List.range rs.length).map oldRecordId) "RP".toList).1
    ++ [.close, .arrow "DEV_SG".toList "REC_SG".toList] := rfl
  rw [h3, List.filterMap_append, List.filterMap_append, List.filterMap_append, h2, node_labels]
  exact labels_between _ _ _ _ _

theorem wireless_record_labels (rt : UInt32 → List Char) (rs : List DataRecord) :
    (wirelessRecordLines rt rs).1.filterMap recordLabel = rs.map (oldRecordLabel rt) := by
  have h3 : (wirelessRecordLines rt rs).1 = [.subgraph "REC_SG".toList "Data Records".toList]
    ++ rs.zipIdx.map (fun (r, i) => oldRecordNode rt r i)
    ++ [.close, .arrow "FRAME_SG".toList "REC_SG".toList] := rfl
  rw [h3, List.filterMap_append, List.filterMap_append, node_labels]
  rw [← List.append_nil (_ ++ rs.map (oldRecordLabel rt))]
  exact labels_between _ _ _ _ _

theorem not_record {ids : List (List Char)} (h : ∀ id ∈ ids, id.head? ≠ some 'R') :
    ∀ id ∈ ids, ∀ d t, id = 'R' :: d :: t → d.isDigit = false := by
  rintro id hid d t rfl
  exact absurd rfl (h _ hid)

theorem long_labels (rt : UInt32 → List Char) (f : Function) (a : Address) (h : Option LongTplHeader)
    (rs : Option (List DataRecord)) :
    ((longFrameLines f a).1 ++ (h.elim ([], []) deviceLines).1
      ++ (rs.elim ([], []) (wiredRecordLines rt)).1 ++ (longFrameLines f a).2
      ++ (h.elim ([], []) deviceLines).2 ++ (rs.elim ([], []) (wiredRecordLines rt)).2).filterMap recordLabel =
    (rs.getD []).map (oldRecordLabel rt) := by
  obtain ⟨k, hk, a1, a2, _, _⟩ := long_part f a
  have e1 := no_labels a1 (not_record (fixed_long ⟨k, hk⟩).other)
  have e2 := no_labels a2 (by simp)
  have e3 : (h.elim ([], []) deviceLines).1.filterMap recordLabel = [] ∧
      (h.elim ([], []) deviceLines).2.filterMap recordLabel = [] := by
    cases h with
    | none => exact ⟨rfl, rfl⟩
    | some h =>
      obtain ⟨n, l, hn, hl, b1, b2, _, _⟩ := device_part h
      refine ⟨no_labels b1 (not_record ?_), no_labels b2 (by simp)⟩
      intro id hid
      exact (fixed_device ⟨k, hk⟩ ⟨l, hl⟩ n (by rcases hn with rfl | rfl <;> decide)).other id
        (List.mem_append_right _ hid)
  simp only [List.filterMap_append, e1, e2, e3.1, e3.2, List.nil_append, List.append_nil]
  cases rs with
  | none => rfl
  | some rs =>
    obtain ⟨l, hl, _, c2, _, _⟩ := wired_records_part rt rs
    simp only [Option.elim_some, wired_record_labels, no_labels c2 (by simp), List.append_nil,
      Option.getD_some]

theorem wireless_labels (rt : UInt32 → List Char) (f : WirelessFrame) (rs : Option (List DataRecord)) :
    ([DiagramLine.subgraph "FRAME_SG".toList "Wireless Frame".toList]
      ++ (wirelessNodes f).map (fun ((id, label) : List Char × List Char) => DiagramLine.node 8 id label) ++ [DiagramLine.close]
      ++ (rs.elim ([], []) (wirelessRecordLines rt)).1
      ++ [DiagramLine.style "FRAME_SG".toList "fill:#2e86c1,color:#fff,stroke:#1a5276".toList]
      ++ (wirelessNodes f).map (fun ((id, _) : List Char × List Char) => DiagramLine.style id "fill:#2980b9,color:#fff,stroke:#1a5276".toList)
      ++ (rs.elim ([], []) (wirelessRecordLines rt)).2).filterMap recordLabel =
    (rs.getD []).map (oldRecordLabel rt) := by
  obtain ⟨w1, w2⟩ := fixed_wireless f
  have e1 := no_labels (Part.nodes (wirelessNodes f) w2) (not_record (fun id hid =>
    w1.other id (List.mem_cons_of_mem _ hid)))
  have e2 : ((wirelessNodes f).map (fun (id, _) => DiagramLine.style id
      "fill:#2980b9,color:#fff,stroke:#1a5276".toList)).filterMap recordLabel = [] := by
    rw [List.filterMap_eq_nil_iff]
    intro l hl
    rw [List.mem_map] at hl
    obtain ⟨x, _, rfl⟩ := hl
    rfl
  have e3 : ∀ id t, [DiagramLine.subgraph id t].filterMap recordLabel = [] := fun _ _ => rfl
  have e4 : ∀ id t, [DiagramLine.style id t].filterMap recordLabel = [] := fun _ _ => rfl
  have e5 : [DiagramLine.close].filterMap recordLabel = [] := rfl
  rw [List.filterMap_append, List.filterMap_append, List.filterMap_append, List.filterMap_append,
    List.filterMap_append, List.filterMap_append, e1, e2, e3, e4, e5]
  simp only [List.nil_append, List.append_nil]
  cases rs with
  | none => rfl
  | some rs =>
    obtain ⟨_, c2, _, _⟩ := wireless_records_part rt rs
    simp only [Option.elim_some, wireless_record_labels, no_labels c2 (by simp), List.append_nil,
      Option.getD_some]

theorem summary_records {cfg : Cfg} {rt : UInt32 → List Char} {s0 s : FrameSummary}
    {recs : Option DataRecords} {u : Option UserDataBlock} {rs : Option (List DataRecord)}
    (hs : s0.records = []) (h : finalizeSummary cfg rt s0 recs u false false = .ok s)
    (hr : flattenRecords cfg recs = .ok rs) : s.records = (rs.getD []).map (recordSummary rt) := by
  unfold finalizeSummary at h
  simp only [Bool.false_and, Bool.false_eq_true, if_false] at h
  cases recs with
  | none => cases h; cases hr; exact hs
  | some d =>
    simp only [recordSummaries, flattenRecords, Res.bind_eq_ok] at h hr
    obtain ⟨x, ⟨y, h1, h2⟩, h3⟩ := h
    obtain ⟨z, h4, h5⟩ := hr
    rw [h1] at h4
    cases h2; cases h3; cases h4; cases h5
    rfl

/-- The label of a record in the diagram is its `display` in the summary; if there is no value
information, without the closing parenthesis. -/
theorem display_label (rt : UInt32 → List Char) (r : DataRecord) :
    SameText (oldRecordLabel rt r) (recordSummary rt r) := by
  unfold SameText recordSummary oldRecordLabel recordDisplay
  simp only
  cases r.header.processed.valueInfo with
  | some v => exact .inl rfl
  | none => exact .inr ⟨rfl, _, rfl, by rw [List.append_nil]⟩

theorem labels_summary (rt : UInt32 → List Char) (rs : List DataRecord) :
    List.Forall₂ SameText (rs.map (oldRecordLabel rt)) (rs.map (recordSummary rt)) := by
  induction rs with
  | nil => exact .nil
  | cons r rs ih => exact .cons (display_label rt r) ih

/-- C111: if the payload is not encrypted, the labels of the records are, in order, the texts the other older
outputs show, escaped. -/
theorem C111_records (cfg : Cfg) (rt : UInt32 → List Char) (aes : AesBlock) (data : List UInt8)
    (key : Option (List UInt8)) (p : ParsedOutput) (ls : List DiagramLine)
    (hp : parseFrameOutput cfg rt aes data key = .ok p) (he : p.summary.encrypted = false)
    (h : mermaidOld cfg rt data = .ok ls) :
    List.Forall₂ SameText (ls.filterMap recordLabel) p.summary.records := by
  unfold mermaidOld at h
  unfold parseFrameOutput at hp
  cases hm : MbusData.tryFromWired cfg data with
  | panic => rw [hm] at h; cases h
  | ok m =>
    rw [hm] at h hp
    simp only at h hp
    unfold legacyWired at hp
    rw [Res.bind_eq_ok] at hp
    obtain ⟨⟨m', dec⟩, h1, hp⟩ := hp
    simp only [Res.bind_eq_ok] at hp
    obtain ⟨s, h2, h3⟩ := hp
    have hb := buildParsed_ok h3
    unfold summarizeWired at h2
    have henc : userDataIsEncrypted m.userData = false := by
      obtain ⟨hex, records, hs⟩ := finalize_ok h2
      rw [hb, hs] at he
      exact he
    rw [decryptWired_not aes key m (.inl henc)] at h1
    cases h1
    rw [henc] at h2
    rw [hb]
    cases hf : m.frame with
    | longFrame f a c =>
      obtain ⟨rs, hr, rfl⟩ := (wired_long_lines cfg rt m f a c hf ls).1 h
      rw [long_labels, summary_records (by rw [applied_records, hf]; rfl) h2 hr]
      exact labels_summary rt _
    | shortFrame f a =>
      rw [mermaidWired, hf] at h
      cases h
      have : m.dataRecords = none := by
        unfold MbusData.tryFromWired at hm
        rw [Res.bind_eq_ok] at hm
        obtain ⟨g, hg, hm⟩ := hm
        cases g <;> (try (cases hm; first | rfl | cases hf))
        simp only [MbusData.ofPayload] at hm
        split at hm <;> cases hm <;> cases hf
      rw [this] at h2
      rw [summary_records (rs := none) (by rw [applied_records, hf]; rfl) h2 rfl]
      exact .nil
    | controlFrame f a c =>
      rw [mermaidWired, hf] at h
      cases h
      have : m.dataRecords = none := by
        unfold MbusData.tryFromWired at hm
        rw [Res.bind_eq_ok] at hm
        obtain ⟨g, hg, hm⟩ := hm
        cases g <;> (try (cases hm; first | rfl | cases hf))
        simp only [MbusData.ofPayload] at hm
        split at hm <;> cases hm <;> cases hf
      rw [this] at h2
      rw [summary_records (rs := none) (by rw [applied_records, hf]; rfl) h2 rfl]
      exact .nil
    | singleCharacter c =>
      rw [mermaidWired, hf] at h
      cases h
      have : m.dataRecords = none := by
        unfold MbusData.tryFromWired at hm
        rw [Res.bind_eq_ok] at hm
        obtain ⟨g, hg, hm⟩ := hm
        cases g <;> (try (cases hm; first | rfl | cases hf))
        simp only [MbusData.ofPayload] at hm
        split at hm <;> cases hm <;> cases hf
      rw [this] at h2
      rw [summary_records (rs := none) (by rw [applied_records, hf]; rfl) h2 rfl]
      exact .nil
  | err e =>
    rw [hm] at h hp
    simp only [Res.bind_eq_ok] at h hp
    obtain ⟨d, hd, h⟩ := h
    obtain ⟨d', hd', hp⟩ := hp
    rw [hd] at hd'
    cases hd'
    cases hw : MbusData.tryFromWireless d with
    | panic => rw [hw] at h; cases h
    | err e => rw [hw] at hp; cases hp
    | ok m =>
      rw [hw] at h hp
      simp only at h hp
      unfold legacyWireless at hp
      rw [Res.bind_eq_ok] at hp
      obtain ⟨⟨m', dec⟩, h1, hp⟩ := hp
      simp only [Res.bind_eq_ok] at hp
      obtain ⟨s, h2, h3⟩ := hp
      have hb := buildParsed_ok h3
      unfold summarizeWireless at h2
      have henc : userDataIsEncrypted m.userData = false := by
        obtain ⟨hex, records, hs⟩ := finalize_ok h2
        rw [hb, hs] at he
        exact he
      rw [decryptWireless_not aes key m (.inl henc)] at h1
      cases h1
      rw [henc] at h2
      rw [hb]
      obtain ⟨rs, hr, rfl⟩ := (wireless_lines cfg rt m ls).1 h
      rw [wireless_labels, summary_records (by rw [applied_records]; rfl) h2 hr]
      exact labels_summary rt _

/-- A telegram with two records satisfies the hypotheses. -/
example : ∃ p, parseFrameOutput ⟨false, false⟩ (fun _ => []) (fun _ b => b)
      (olderWired 0 [0x01, 0x13, 0x05, 0x01, 0x13, 0x06]) none = .ok p ∧
    p.summary.encrypted = false ∧ p.summary.records.length = 2 := by
  exact checked _ (fun p : ParsedOutput => _ ∧ _) (by decide +kernel)

/-- C111 fails for encrypted telegrams: the key is ignored, and the ciphertext is drawn as a reading. -/
theorem C111_fails_sealed (cfg : Cfg) (rt : UInt32 → List Char) (aes : AesBlock) :
    (∃ p, parseFrameOutput cfg rt aes (olderWired 5 [0x01, 0x13, 0x05]) none = .ok p ∧
      p.summary.encrypted = true ∧ p.summary.records = []) ∧
    ∃ ls, mermaidOld cfg rt (olderWired 5 [0x01, 0x13, 0x05]) = .ok ls ∧
      ls.filterMap recordLabel = ["(5)e-3#91;m³#93;(Volume)".toList] := by
  obtain ⟨oc, tf⟩ := cfg
  refine ⟨checked _ (fun p : ParsedOutput => _ ∧ _) ?_, checked _ (fun ls : List DiagramLine => _ = _) ?_⟩ <;>
    cases oc <;> cases tf <;> with_unfolding_all rfl

/-- C111 fails for texts with a line break: it splits the label of the record over two lines. -/
theorem C111_fails_line (cfg : Cfg) (rt : UInt32 → List Char) :
    ∃ ls, mermaidOld cfg rt (olderWired 0 [0x0D, 0x13, 0x02, 0x0A, 0x41]) = .ok ls ∧
      ∃ label ∈ ls.filterMap recordLabel, '\n' ∈ label := by
  obtain ⟨oc, tf⟩ := cfg
  refine checked _ (fun ls : List DiagramLine => ∃ label ∈ _, _) ?_
  cases oc <;> cases tf <;> with_unfolding_all rfl

end MBus
