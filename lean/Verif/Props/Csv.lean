import Verif.Props.Render
/-!
# Properties of the CSV rendering and of the names of formats
-/
namespace MBus
open Spec

/-! ## C92: CSV -/

theorem natText_toString (n : Nat) : natText n = (toString n).toList := by
  rw [Nat.toString_eq_ofList_toDigits]
  simp [natText]

theorem recordNames (env : TextEnv) (r : RecordOutput) :
    csvRecordFields.map String.toList = (recordColumns env r).map (·.1.toList) ∧
    csvRecordValues env r = (recordColumns env r).map (·.2) := by
  simp only [recordColumns, csvRecordValues, csvRecordFields, natText_toString, List.map_cons, List.map_nil,
    and_self]

theorem frameNames (o : DecodedOutput) :
    csvFrameFields = (frameColumns o).map (·.1) ∧ csvFrameRow o = (frameColumns o).map (·.2) := by
  simp only [frameColumns, csvFrameRow, csvFrameFields, natText_toString, List.map_cons, List.map_nil,
    true_and]
  rfl

/-- The name of a column of a record. -/
def columnName (r : RecordOutput) (field : String) : List Char :=
  "record_".toList ++ (toString r.index).toList ++ ['_'] ++ field.toList

/-- The columns of the table, with their values. -/
theorem csv_columns (env : TextEnv) (o : DecodedOutput) :
    (csvRows env o).1.length = (csvRows env o).2.length ∧
    (csvRows env o).1.zip (csvRows env o).2 =
      (frameColumns o).map (fun c => (c.1.toList, c.2)) ++
      o.records.flatMap (fun r => (recordColumns env r).map (fun c => (columnName r c.1, c.2))) := by
  have hz : ∀ {α β : Type} (l : List (α × β)), (l.map (·.1)).zip (l.map (·.2)) = l := by
    intro α β l
    rw [List.zip_map']; simp
  have h1 : (csvRows env o).1 = ((frameColumns o).map (fun c => (c.1.toList, c.2)) ++
      o.records.flatMap (fun r => (recordColumns env r).map (fun c => (columnName r c.1, c.2)))).map (·.1) := by
    simp only [csvRows, csvHeaders, (frameNames o).1, List.map_append, List.map_map, List.map_flatMap]
    congr 1
    apply List.flatMap_congr
    intro r _
    have := (recordNames env r).1
    rw [show csvRecordFields.map (fun f => "record_".toList ++ natText r.index ++ ['_'] ++ f.toList) =
      (csvRecordFields.map String.toList).map (fun f => "record_".toList ++ natText r.index ++ ['_'] ++ f) by
        rw [List.map_map]; rfl, this, List.map_map, natText_toString]
    rfl
  have h2 : (csvRows env o).2 = ((frameColumns o).map (fun c => (c.1.toList, c.2)) ++
      o.records.flatMap (fun r => (recordColumns env r).map (fun c => (columnName r c.1, c.2)))).map (·.2) := by
    simp only [csvRows, (frameNames o).2, List.map_append, List.map_map, List.map_flatMap]
    congr 1
    apply List.flatMap_congr
    intro r _
    rw [(recordNames env r).2]
    rfl
  rw [h1, h2]
  exact ⟨by simp only [List.length_map], hz _⟩

/-- C92: the two rows are equally long: 18 columns for the telegram and 11 for each record. -/
theorem C92_rows (env : TextEnv) (o : DecodedOutput) :
    (csvRows env o).1.length = 18 + 11 * o.records.length ∧
    (csvRows env o).2.length = 18 + 11 * o.records.length := by
  have h : (csvRows env o).1.length = 18 + 11 * o.records.length := by
    simp only [csvRows, csvHeaders, List.length_append, List.length_map, List.length_flatMap]
    have : (o.records.map (fun _ => csvRecordFields.length)).sum = 11 * o.records.length := by
      rw [List.map_const', List.sum_replicate]
      simp [csvRecordFields, Nat.mul_comm]
    rw [this]
    rfl
  exact ⟨h, (csv_columns env o).1 ▸ h⟩

theorem columnName_inj (r r' : RecordOutput) (f f' : String) (h : columnName r f = columnName r' f') :
    r.index = r'.index ∧ f = f' := by
  unfold columnName at h
  simp only [List.append_assoc] at h
  have h := List.append_cancel_left h
  rw [← natText_toString, ← natText_toString] at h
  have hd : ∀ n, ∀ c ∈ natText n, c ≠ '_' := by
    intro n c hc
    rw [natText, toDigits_eq] at hc
    intro he
    subst he
    exact absurd (decimal_digits n _ hc) (by decide)
  have key : ∀ (a b x y : List Char), (∀ c ∈ a, c ≠ '_') → (∀ c ∈ b, c ≠ '_') →
      a ++ ('_' :: x) = b ++ ('_' :: y) → a = b ∧ x = y := by
    intro a
    induction a with
    | nil =>
      intro b x y _ hb h
      cases b with
      | nil => simpa using h
      | cons c b =>
        simp only [List.nil_append, List.cons_append, List.cons.injEq] at h
        exact absurd h.1.symm (hb c (by simp))
    | cons c a ih =>
      intro b x y ha hb h
      cases b with
      | nil =>
        simp only [List.nil_append, List.cons_append, List.cons.injEq] at h
        exact absurd h.1 (ha c (by simp))
      | cons d b =>
        simp only [List.cons_append, List.cons.injEq] at h
        obtain ⟨h1, h2⟩ := ih b x y (fun c hc => ha c (by simp [hc])) (fun c hc => hb c (by simp [hc])) h.2
        exact ⟨by rw [h.1, h1], h2⟩
  obtain ⟨h1, h2⟩ := key _ _ _ _ (hd _) (hd _) h
  refine ⟨?_, String.toList_inj.1 h2⟩
  have := congrArg natOf h1
  rwa [natText, natText, toDigits_eq, toDigits_eq, natOf_decimal, natOf_decimal] at this

theorem columnName_frame (o : DecodedOutput) (r : RecordOutput) (f : String) :
    columnName r f ∉ (frameColumns o).map (fun c => c.1.toList) := by
  have hn : ∀ s ∈ csvFrameFields.map String.toList,
      ("record_".toList.isPrefixOf s = true → ∃ c t, s = "record_".toList ++ c :: t ∧ ¬ ('0' ≤ c ∧ c ≤ '9')) := by
    have : ∀ s ∈ csvFrameFields.map String.toList, ("record_".toList.isPrefixOf s = true →
        s = "record_".toList ++ 'c' :: "ount".toList) := by decide +kernel
    intro s hs hp
    exact ⟨'c', "ount".toList, this s hs hp, by decide⟩
  intro hm
  rw [show (fun c : String × List Char => c.1.toList) = String.toList ∘ (fun c => c.1) from rfl,
    ← List.map_map, ← (frameNames o).1] at hm
  obtain ⟨c, t, hc, hd⟩ := hn _ hm (by
    rw [List.isPrefixOf_iff_prefix]
    unfold columnName
    simp only [List.append_assoc]
    exact List.prefix_append _ _)
  unfold columnName at hc
  simp only [List.append_assoc] at hc
  have hc := List.append_cancel_left hc
  rw [← natText_toString] at hc
  have hne : natText r.index ≠ [] := by
    unfold natText
    exact List.ne_nil_of_length_pos Nat.length_toDigits_pos
  cases hx : natText r.index with
  | nil => exact hne hx
  | cons d ds =>
    rw [hx] at hc
    simp only [List.cons_append, List.cons.injEq] at hc
    have := decimal_digits r.index d (by rw [← toDigits_eq, ← natText, hx]; simp)
    rw [hc.1] at this
    exact hd this

/-- C92: no two columns have the same name, if the records are numbered without repetition, as they are in
every decoded telegram (C89_indices). -/
theorem C92_distinct (env : TextEnv) (o : DecodedOutput) (hi : (o.records.map (·.index)).Nodup) :
    (csvRows env o).1.Nodup := by
  have h1 : (csvRows env o).1 = (frameColumns o).map (fun c => c.1.toList) ++
      o.records.flatMap (fun r => csvRecordFields.map (columnName r)) := by
    simp only [csvRows, csvHeaders, (frameNames o).1, List.map_map, natText_toString]
    rfl
  rw [h1, List.nodup_append]
  refine ⟨?_, ?_, ?_⟩
  · rw [show (fun c : String × List Char => c.1.toList) = String.toList ∘ (fun c => c.1) from rfl,
      ← List.map_map, ← (frameNames o).1]
    decide +kernel
  · rw [List.nodup_flatMap]
    constructor
    · intro r _
      rw [List.nodup_map_iff_inj_on (by decide +kernel)]
      intro f _ f' _ h
      exact (columnName_inj r r f f' h).2
    · rw [List.Nodup, List.pairwise_map] at hi
      refine hi.imp ?_
      intro a b hab
      simp only [Function.onFun, List.disjoint_left, List.mem_map]
      rintro x ⟨f, _, rfl⟩ ⟨f', _, h⟩
      exact hab (columnName_inj _ _ _ _ h).1.symm
  · intro a ha b hb hab
    rw [List.mem_flatMap] at hb
    obtain ⟨r, _, hb⟩ := hb
    rw [List.mem_map] at hb
    obtain ⟨f, _, rfl⟩ := hb
    subst hab
    exact columnName_frame o r f ha

theorem lookup_of_mem {α β : Type} [BEq α] [LawfulBEq α] (l : List (α × β)) (hn : (l.map (·.1)).Nodup) (a : α) (b : β)
    (h : (a, b) ∈ l) : l.lookup a = some b := by
  induction l with
  | nil => simp at h
  | cons p l ih =>
    obtain ⟨x, y⟩ := p
    rw [List.map_cons, List.nodup_cons] at hn
    rw [List.mem_cons] at h
    rw [List.lookup_cons]
    rcases h with h | h
    · cases h; simp
    · have : a ≠ x := by
        rintro rfl
        exact hn.1 (List.mem_map.2 ⟨_, h, rfl⟩)
      have : (a == x) = false := by simpa using this
      simp only [this]
      exact ih hn.2 h

/-- C92: below the name of each column of the telegram is its value. -/
theorem C92_frame (env : TextEnv) (o : DecodedOutput) (hi : (o.records.map (·.index)).Nodup)
    (name : String) (value : List Char) (h : (name, value) ∈ frameColumns o) :
    column (csvRows env o) name.toList = some value := by
  apply lookup_of_mem
  · rw [List.map_fst_zip (csv_columns env o).1.le]
    exact C92_distinct env o hi
  · rw [(csv_columns env o).2, List.mem_append]
    exact .inl (List.mem_map.2 ⟨_, h, rfl⟩)

/-- C92: below the name of each column of each record is its value. -/
theorem C92_record (env : TextEnv) (o : DecodedOutput) (hi : (o.records.map (·.index)).Nodup)
    (r : RecordOutput) (hr : r ∈ o.records) (field : String) (value : List Char)
    (h : (field, value) ∈ recordColumns env r) :
    column (csvRows env o) ("record_".toList ++ (toString r.index).toList ++ ['_'] ++ field.toList) =
      some value := by
  apply lookup_of_mem
  · rw [List.map_fst_zip (csv_columns env o).1.le]
    exact C92_distinct env o hi
  · rw [(csv_columns env o).2, List.mem_append]
    exact .inr (List.mem_flatMap.2 ⟨r, hr, List.mem_map.2 ⟨_, h, rfl⟩⟩)

/-- The CSV columns of two records of a telegram. -/
example : (match decodeBytes cfgRelease (fun _ b => b)
      (wiredLong [0x72, 0x78, 0x56, 0x34, 0x12, 0x24, 0x40, 0x01, 0x07, 0x55, 0x00, 0x00, 0x00,
        0x04, 0x13, 0x39, 0x30, 0x00, 0x00, 0x44, 0x06, 0x01, 0x00, 0x00, 0x00]) ⟨none, false⟩ with
    | .ok o => decide ((o.records.map (·.index)).Nodup ∧
        column (csvRows plainEnv o) "meter_id".toList = some "12345678".toList ∧
        column (csvRows plainEnv o) "record_0_value".toList = some "12.345".toList ∧
        column (csvRows plainEnv o) "record_1_unit".toList = some "W.h".toList ∧
        column (csvRows plainEnv o) "record_1_storage_number".toList = some "1".toList ∧
        column (csvRows plainEnv o) "record_2_value".toList = none)
    | _ => false) = true := by decide +kernel

/-! ## C93: names of formats -/

theorem lower_iff (c n : Char) (hn : ¬ ('A' ≤ n ∧ n ≤ 'Z')) :
    asciiLower c = n ↔ c = n ∨ ('A' ≤ c ∧ c ≤ 'Z' ∧ n.toNat = c.toNat + 32) := by
  have hu : isUpper c = true ↔ 'A' ≤ c ∧ c ≤ 'Z' := by simp [isUpper]
  unfold asciiLower
  split
  · rename_i h
    have h' := hu.1 h
    have h1 : 65 ≤ c.toNat := h'.1
    have h2 : c.toNat ≤ 90 := h'.2
    have hv : (Char.ofNat (c.toNat + 32)).toNat = c.toNat + 32 := by
      have hd : ∀ n < 91, (Char.ofNat (n + 32)).toNat = n + 32 := by decide +kernel
      exact hd _ (by omega)
    constructor
    · rintro rfl
      exact .inr ⟨h'.1, h'.2, hv⟩
    · rintro (rfl | ⟨_, _, h3⟩)
      · exact absurd h' hn
      · exact Char.toNat_inj.1 (hv.trans h3.symm)
  · rename_i h
    constructor
    · exact .inl
    · rintro (h3 | ⟨h1, h2, _⟩)
      · exact h3
      · exact absurd (hu.2 ⟨h1, h2⟩) h

theorem anyCase_iff (text name : List Char) (hn : ∀ n ∈ name, ¬ ('A' ≤ n ∧ n ≤ 'Z')) :
    text.map asciiLower = name ↔ AnyCase text name := by
  induction text generalizing name with
  | nil =>
    cases name with
    | nil => exact ⟨fun _ => .nil, fun _ => rfl⟩
    | cons n name => exact ⟨fun h => by simp at h, fun h => by cases h⟩
  | cons c text ih =>
    cases name with
    | nil => exact ⟨fun h => by simp at h, fun h => by cases h⟩
    | cons n name =>
      rw [AnyCase, List.forall₂_cons, List.map_cons, List.cons.injEq, lower_iff c n (hn n (by simp)),
        ih name (fun n hm => hn n (by simp [hm]))]
      rfl

theorem fromStr_iff (v : List Char) (f : OutputFormat) : OutputFormat.fromStr v = some f ↔
    ∃ name, (name, f) ∈ formatNames ∧ (trim v).map asciiLower = name.toList := by
  unfold OutputFormat.fromStr
  generalize (trim v).map asciiLower = t
  simp only [formatNames, List.mem_cons, Prod.mk.injEq, List.not_mem_nil, or_false]
  constructor
  · intro h
    split at h
    · rename_i hc
      cases h
      rcases hc with hc | hc
      · exact ⟨"table", by simp, hc⟩
      · exact ⟨"table_format", by simp, hc⟩
    split at h
    · rename_i hc; cases h; exact ⟨"json", by simp, hc⟩
    split at h
    · rename_i hc
      cases h
      rcases hc with hc | hc
      · exact ⟨"yaml", by simp, hc⟩
      · exact ⟨"yml", by simp, hc⟩
    split at h
    · rename_i hc; cases h; exact ⟨"csv", by simp, hc⟩
    split at h
    · rename_i hc; cases h; exact ⟨"mermaid", by simp, hc⟩
    split at h
    · rename_i hc; cases h; exact ⟨"xml", by simp, hc⟩
    split at h
    · rename_i hc
      cases h
      rcases hc with hc | hc
      · exact ⟨"annotated", by simp, hc⟩
      · exact ⟨"hexview", by simp, hc⟩
    split at h
    · rename_i hc; cases h; exact ⟨"annotated-text", by simp, hc⟩
    · cases h
  · rintro ⟨name, h, rfl⟩
    rcases h with ⟨rfl, rfl⟩ | ⟨rfl, rfl⟩ | ⟨rfl, rfl⟩ | ⟨rfl, rfl⟩ | ⟨rfl, rfl⟩ | ⟨rfl, rfl⟩ | ⟨rfl, rfl⟩ |
      ⟨rfl, rfl⟩ | ⟨rfl, rfl⟩ | ⟨rfl, rfl⟩ | ⟨rfl, rfl⟩ <;> decide +kernel

/-- C93: a format is recognised exactly by its names, in capital or small letters, with whitespace around
them. -/
theorem C93_names (v : List Char) (f : OutputFormat) : OutputFormat.fromStr v = some f ↔
    ∃ name text, (name, f) ∈ formatNames ∧ Trimmed v text ∧ AnyCase text name.toList := by
  have hl : ∀ p ∈ formatNames, ∀ n ∈ p.1.toList, ¬ ('A' ≤ n ∧ n ≤ 'Z') := by decide +kernel
  rw [fromStr_iff]
  constructor
  · rintro ⟨name, h1, h2⟩
    exact ⟨name, trim v, h1, trimmed_trim v, (anyCase_iff _ _ (hl _ h1)).1 h2⟩
  · rintro ⟨name, text, h1, h2, h3⟩
    rw [trimmed_iff] at h2
    subst h2
    exact ⟨name, h1, (anyCase_iff _ _ (hl _ h1)).2 h3⟩

/-- C93: every format is recognised by the name it is displayed with. -/
theorem C93_round_trip (f : OutputFormat) : OutputFormat.fromStr f.asStr = some f := by
  cases f <;> decide +kernel

/-- C93: the name of a format names no other format. -/
theorem C93_unambiguous (name : String) (f f' : OutputFormat) (h : (name, f) ∈ formatNames)
    (h' : (name, f') ∈ formatNames) : f = f' := by
  have key : ∀ p ∈ formatNames, ∀ q ∈ formatNames, p.1 = q.1 → p.2 = q.2 := by decide +kernel
  exact key _ h _ h' rfl

example : OutputFormat.fromStr "\tAnnotated-TEXT ".toList = some .annotatedText ∧
    OutputFormat.fromStr "annotated text".toList = none := by decide +kernel

end MBus
