import Verif.Props.Joined
/-!
# C158: what is shown of data that are cut off
-/
namespace MBus
open MBus.Spec

/-- The items of data that are cut off, and of the whole. -/
theorem items_cut {cfg : Cfg} {d e : List UInt8} {items : List (Res RecordError DataRecord)}
    (h : Items (DataRecord.parse cfg false) d items) {rs : List DataRecord} {t : List (Res RecordError DataRecord)}
    (hi : items = rs.map .ok ++ t) (ht : ∀ r, .ok r ∉ t) :
    (∃ more, Items (DataRecord.parse cfg false) (d ++ e) (rs.dropLast.map .ok ++ more)) ∧
    (t ≠ [] → ∃ more, Items (DataRecord.parse cfg false) (d ++ e) (rs.map .ok ++ more)) := by
  have some_items : ∀ x, ∃ more, Items (DataRecord.parse cfg false) x more := fun x =>
    ⟨_, (C27_items cfg false x _).1 rfl⟩
  induction h generalizing rs with
  | nil =>
    obtain ⟨rfl, rfl⟩ : rs = [] ∧ t = [] := by simpa using hi.symm
    exact ⟨some_items _, fun h => absurd rfl h⟩
  | skip b data items hs _ ih =>
    obtain ⟨⟨m1, h1⟩, h2⟩ := ih hi
    refine ⟨⟨m1, .skip _ _ _ hs h1⟩, fun hne => ?_⟩
    obtain ⟨m2, h2⟩ := h2 hne
    exact ⟨m2, .skip _ _ _ hs h2⟩
  | record b data rest r items hn hp hd hne hrest ih =>
    cases rs with
    | nil => exact absurd (by rw [← List.nil_append t]; exact hi ▸ by simp) (ht r)
    | cons r0 rs =>
      simp only [List.map_cons, List.cons_append, List.cons.injEq, Res.ok.injEq] at hi
      obtain ⟨rfl, hi⟩ := hi
      by_cases hr : rest = []
      · subst hr
        cases hrest
        obtain ⟨rfl, rfl⟩ : rs = [] ∧ t = [] := by simpa using hi.symm
        exact ⟨some_items _, fun h => absurd rfl h⟩
      · obtain ⟨⟨m1, h1⟩, h2⟩ := ih hi
        have hall := record_followed hr (hd ▸ hp) (rest ++ e)
        have hd2 : b :: (data ++ e) = r.rawBytes ++ (rest ++ e) := by
          rw [← List.append_assoc, ← hd]; rfl
        rw [← hd2] at hall
        have add : ∀ items, Items (DataRecord.parse cfg false) (rest ++ e) items →
            Items (DataRecord.parse cfg false) (b :: data ++ e) (.ok r :: items) := fun items h =>
          .record b (data ++ e) (rest ++ e) r items hn hall hd2 hne h
        constructor
        · cases rs with
          | nil => exact ⟨_, add _ h1⟩
          | cons r1 rs => exact ⟨m1, add _ h1⟩
        · intro hne'
          obtain ⟨m2, h2⟩ := h2 hne'
          exact ⟨m2, add _ h2⟩
  | fail b data hn hf =>
    cases rs with
    | nil => exact ⟨some_items _, fun _ => some_items _⟩
    | cons r0 rs =>
      simp only [List.map_cons, List.cons_append, List.cons.injEq] at hi
      exact absurd hi.1 (hf r0)

theorem outputs_prefix {rs rs' : List DataRecord} {t t' : List (Res RecordError DataRecord)}
    (ht' : ∀ r, .ok r ∉ t') (h : rs'.map .ok ++ t' = rs.map .ok ++ t) : recordOutputs rs <+: recordOutputs rs' := by
  have hp : rs <+: rs' := by
    induction rs generalizing rs' with
    | nil => simp
    | cons r rs ih =>
      cases rs' with
      | nil => exact absurd (by rw [← List.nil_append t']; exact h ▸ by simp) (ht' r)
      | cons r' rs' =>
        simp only [List.map_cons, List.cons_append, List.cons.injEq, Res.ok.injEq] at h
        rw [h.1, List.cons_prefix_cons]
        exact ⟨rfl, ih h.2⟩
  obtain ⟨x, rfl⟩ := hp
  rw [outputs_append]
  exact List.prefix_append _ _

theorem outputs_dropLast (rs : List DataRecord) : (recordOutputs rs).dropLast = recordOutputs rs.dropLast := by
  rcases List.eq_nil_or_concat rs with rfl | ⟨l, a, rfl⟩
  · rfl
  · rw [List.concat_eq_append, List.dropLast_concat, outputs_append]
    simp [recordOutputs, numberedFrom]

/-- C158: of data cut off anywhere, every record shown but the last is that of the whole. -/
theorem C158_data_partial (cfg : Cfg) (d e : List UInt8) (cut whole : List RecordOutput)
    (h : decodeDataRecords cfg d = .ok cut) (h' : decodeDataRecords cfg (d ++ e) = .ok whole) : cut.dropLast <+: whole := by
  have hd : d ≠ [] := by rintro rfl; cases h
  have hd' : d ++ e ≠ [] := by simp [hd]
  obtain ⟨rs, hi | ⟨x, hi⟩ | hi⟩ := items_shape cfg d
  · obtain ⟨rs', hi' | ⟨x, hi'⟩ | hi'⟩ := items_shape cfg (d ++ e)
    · rw [(decode_items hd rs).1 hi] at h
      rw [(decode_items hd' rs').1 hi'] at h'
      cases h; cases h'
      obtain ⟨⟨more, hm⟩, -⟩ := items_cut (e := e) ((C27_items cfg false d _).1 hi) (rs := rs) (t := []) (by simp) (by simp)
      rw [← C27_items, hi'] at hm
      rw [outputs_dropLast]
      exact outputs_prefix (t' := []) (by simp) (by simpa using hm)
    · obtain ⟨k, h2⟩ := (decode_items hd' rs').2.1 x hi'
      rw [h'] at h2; cases h2
    · rw [(decode_items hd' rs').2.2 hi'] at h'; cases h'
  · obtain ⟨k, h2⟩ := (decode_items hd rs).2.1 x hi
    rw [h] at h2; cases h2
  · rw [(decode_items hd rs).2.2 hi] at h; cases h

theorem clear_shown {cfg : Cfg} {aes : AesBlock} {data : List UInt8} {link : Option ManufacturerId}
    {payload d : List UInt8} {options : DecodeOptions} (ht : Telegram data link payload) (hd : ClearData payload d)
    {o : DecodedOutput} (h : decodeBytes cfg aes data options = .ok o) :
    ∃ rs t, o.records = recordOutputs rs ∧ parseDataRecords cfg false d = rs.map .ok ++ t ∧ (∀ r, .ok r ∉ t) ∧
      (o.decodeState = "partial".toList → t ≠ []) := by
  obtain ⟨h1, h2, h3⟩ := clear_decode cfg aes data link payload d options ht hd
  obtain ⟨rs, hi | ⟨x, hi⟩ | hi⟩ := items_shape cfg d
  · obtain ⟨o', ho, hr, hs, -⟩ := h1 rs hi
    rw [h] at ho; cases ho
    refine ⟨rs, [], hr, by simpa using hi, by simp, fun hp => ?_⟩
    rw [hs] at hp
    exact absurd hp (by decide)
  · obtain ⟨o', ho, hr, -⟩ := h2 rs x hi
    rw [h] at ho; cases ho
    exact ⟨rs, [.err x], hr, hi, by simp, by simp⟩
  · rw [h3 rs hi] at h; cases h

/-- C158: of a telegram whose data are those of another one cut off, every record but the last is shown of the other one as
well; if it is noticed that the data are cut off, every record. -/
theorem C158_telegrams_partial (cfg : Cfg) (aes : AesBlock) (short long : List UInt8) (l1 l2 : Option ManufacturerId)
    (p1 p2 d e : List UInt8) (options : DecodeOptions) (o1 o2 : DecodedOutput)
    (h1 : Telegram short l1 p1) (h2 : Telegram long l2 p2) (c1 : ClearData p1 d) (c2 : ClearData p2 (d ++ e))
    (ho1 : decodeBytes cfg aes short options = .ok o1) (ho2 : decodeBytes cfg aes long options = .ok o2) :
    o1.records.dropLast <+: o2.records ∧ (o1.decodeState = "partial".toList → o1.records <+: o2.records) := by
  obtain ⟨r1, t1, e1, i1, n1, s1⟩ := clear_shown h1 c1 ho1
  obtain ⟨r2, t2, e2, i2, n2, s2⟩ := clear_shown h2 c2 ho2
  obtain ⟨⟨m1, h3⟩, h4⟩ := items_cut (e := e) ((C27_items cfg false d _).1 rfl) i1 n1
  rw [← C27_items, i2] at h3
  rw [e1, e2, outputs_dropLast]
  refine ⟨outputs_prefix n2 h3, fun hp => ?_⟩
  obtain ⟨m2, h5⟩ := h4 (s1 hp)
  rw [← C27_items, i2] at h5
  exact outputs_prefix n2 h5

/-- C158 is false of the last record: data cut off within a chain of VIFEs show a record of another
quantity. -/
theorem C158_fails (cfg : Cfg) : ¬ ∀ d e cut whole, decodeDataRecords cfg d = .ok cut →
    decodeDataRecords cfg (d ++ e) = .ok whole → cut <+: whole := by
  intro hall
  have h : (decodeDataRecords cfg [0x00, 0x93]).toOption.map (·.map (·.headerHex)) = some ["00 93".toList] ∧
      (decodeDataRecords cfg ([0x00, 0x93] ++ [0x3A])).toOption.map (·.map (·.headerHex)) = some ["00 93 3A".toList] := by
    obtain ⟨a, b⟩ := cfg
    cases a <;> cases b <;> decide +kernel
  cases h1 : decodeDataRecords cfg [0x00, 0x93] with
  | ok cut =>
    cases h2 : decodeDataRecords cfg ([0x00, 0x93] ++ [0x3A]) with
    | ok whole =>
      rw [h1, h2] at h
      simp only [Res.toOption, Option.map_some, Option.some.injEq] at h
      have := (hall _ _ _ _ h1 h2).map (·.headerHex)
      rw [h.1, h.2] at this
      exact absurd this (by decide)
    | err e => rw [h2] at h; simp [Res.toOption] at h
    | panic => rw [h2] at h; simp [Res.toOption] at h
  | err e => rw [h1] at h; simp [Res.toOption] at h
  | panic => rw [h1] at h; simp [Res.toOption] at h

/-- A telegram whose data are cut off in the last of three records, and the whole. -/
example : (∃ link, Telegram [0x68, 0x12, 0x12, 0x68, 0x08, 0x01, 0x78, 0x8C, 0x10, 0x13, 0x78, 0x56, 0x34, 0x12, 0x2F, 0x01, 0xFD, 0x17, 0x05, 0x02, 0x13, 0x01, 0xA3, 0x16]
      link ([0x78] ++ [0x8C, 0x10, 0x13, 0x78, 0x56, 0x34, 0x12, 0x2F, 0x01, 0xFD, 0x17, 0x05, 0x02, 0x13, 0x01])) ∧
    (∃ link, Telegram [0x68, 0x13, 0x13, 0x68, 0x08, 0x01, 0x78, 0x8C, 0x10, 0x13, 0x78, 0x56, 0x34, 0x12, 0x2F, 0x01, 0xFD, 0x17, 0x05, 0x02, 0x13, 0x01, 0x00, 0xA3, 0x16]
      link ([0x78] ++ ([0x8C, 0x10, 0x13, 0x78, 0x56, 0x34, 0x12, 0x2F, 0x01, 0xFD, 0x17, 0x05, 0x02, 0x13, 0x01] ++ [0x00]))) :=
  ⟨⟨none, wired_telegram _ _ (.rspUd false false) (.primary 1) (by decide +kernel)⟩,
    ⟨none, wired_telegram _ _ (.rspUd false false) (.primary 1) (by decide +kernel)⟩⟩

/-- Data cut off behind the second record, and the whole. -/
example (cfg : Cfg) : ((decodeDataRecords cfg [0x01, 0xFD, 0x17, 0x05, 0x01, 0x13, 0x07]).toOption.map List.length) = some 2 ∧
    ((decodeDataRecords cfg ([0x01, 0xFD, 0x17, 0x05, 0x01, 0x13, 0x07] ++ [0x01, 0x5A, 0x10])).toOption.map List.length) = some 3 := by
  obtain ⟨a, b⟩ := cfg
  cases a <;> cases b <;> decide +kernel

end MBus
