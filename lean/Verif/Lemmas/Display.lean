import Verif.Model.Display
import Verif.Lemmas.F64
import Verif.Lemmas.Decimal
import Verif.Lemmas.RecordOutput
import Verif.Lemmas.ValueInfo
import Verif.Model.Legacy
import Verif.Spec.Display
namespace MBus
open Spec

/-! ## Numbers -/

theorem multipleNear_round {v p m : Nat} (h : multipleNear v p = some m) : roundNat53 m = v := by
  unfold multipleNear at h
  simp only at h
  split at h
  · split at h
    · rename_i h2; injection h with h; rw [← h]; exact h2.1
    · rename_i h1 _; injection h with h; rw [← h]; exact h1
  · split at h
    · rename_i h1; injection h with h; rw [← h]; exact h1
    · cases h

theorem shortestFrom_round (v k : Nat) (h : roundNat53 v = v) : roundNat53 (shortestFrom v k) = v := by
  induction k with
  | zero => rw [shortestFrom]; exact h
  | succ k ih =>
    rw [shortestFrom]
    cases hm : multipleNear v (10 ^ (k + 1)) with
    | some m => exact multipleNear_round hm
    | none => exact ih

theorem shortestNat_round (v : Nat) (h : roundNat53 v = v) : roundNat53 (shortestNat v) = v := by
  unfold shortestNat
  split
  · rename_i h0; subst h0; decide
  · exact shortestFrom_round v _ h

theorem roundNat53_lt {m v : Nat} (h : roundNat53 m = v) (hv : v < 2 ^ 53) : m = v := by
  by_cases hm : m ≤ 2 ^ 53
  · rw [roundNat53_small m hm] at h; exact h
  · obtain ⟨u, q, hu, hq, _, hle, _, _, h'⟩ := roundNat53_big m (by omega)
    exfalso
    have hL : 53 ≤ m.log2 := (Nat.le_log2 (by omega)).mpr (by omega)
    have hu2 : 2 ≤ u := by
      rw [hu]
      calc 2 = 2 ^ 1 := rfl
        _ ≤ 2 ^ (m.log2 - 52) := Nat.pow_le_pow_right (by omega) (by omega)
    have h1 : 2 ^ 52 * 2 ≤ q * u := Nat.mul_le_mul hq hu2
    rcases h' with ⟨h', _⟩ | ⟨h', _⟩
    · omega
    · rw [Nat.add_mul] at h'; omega

theorem shortestNat_small (v : Nat) (h : v < 2 ^ 53) : shortestNat v = v :=
  roundNat53_lt (shortestNat_round v (roundNat53_small v (by omega))) h

theorem natText_eq (n : Nat) : natText n = decimal n := toDigits_eq n

theorem f64Text_int (rt : UInt32 → List Char) (v : Int) (h : roundF64 v = v) :
    ∃ w, f64Text rt (.int v) = decimalInt w ∧ roundF64 w = v ∧ (v.natAbs < 2 ^ 53 → w = v) := by
  by_cases hv : v < 0
  · have hn : roundNat53 v.natAbs = v.natAbs := by
      unfold roundF64 at h; rw [if_pos hv] at h; omega
    have hs := shortestNat_round _ hn
    have hp : 0 < shortestNat v.natAbs := by
      rcases Nat.eq_zero_or_pos (shortestNat v.natAbs) with h0 | h0
      · rw [h0] at hs
        have : roundNat53 0 = 0 := by decide
        omega
      · exact h0
    refine ⟨-(shortestNat v.natAbs : Int), ?_, ?_, ?_⟩
    · unfold f64Text decimalInt
      simp only
      rw [if_pos hv, natText_eq]
      simp [signText, hp]
    · unfold roundF64
      have hneg : -(shortestNat v.natAbs : Int) < 0 := by omega
      rw [if_pos hneg, Int.natAbs_neg, Int.natAbs_natCast, hs]
      omega
    · intro hl
      rw [shortestNat_small _ hl]; omega
  · have hn : roundNat53 v.natAbs = v.natAbs := by
      unfold roundF64 at h; rw [if_neg hv] at h; omega
    have hs := shortestNat_round _ hn
    refine ⟨(shortestNat v.natAbs : Int), ?_, ?_, ?_⟩
    · unfold f64Text decimalInt
      simp only
      rw [if_neg hv, natText_eq]
      have : ¬ ((shortestNat v.natAbs : Int) < 0) := by omega
      simp [signText, this]
    · unfold roundF64
      have hneg : ¬ ((shortestNat v.natAbs : Int) < 0) := by omega
      rw [if_neg hneg, Int.natAbs_natCast, hs]
      omega
    · intro hl
      rw [shortestNat_small _ hl]; omega

theorem roundF64_idem (v : Int) : roundF64 (roundF64 v) = roundF64 v := by
  have h1 := roundF64_nearest v
  have h2 := roundF64_nearest (roundF64 v)
  have := h2.2 (roundF64 v) h1.1
  simp at this
  omega

/-! ## Texts with separators -/

theorem split_at {c : Char} {a a' b b' : List Char} (h : a ++ c :: b = a' ++ c :: b')
    (ha : c ∉ a) (ha' : c ∉ a') : a = a' ∧ b = b' := by
  induction a generalizing a' with
  | nil =>
    cases a' with
    | nil => simpa using h
    | cons x a' =>
      simp only [List.nil_append, List.cons_append, List.cons.injEq] at h
      exact absurd (by simp [h.1]) ha'
  | cons x a ih =>
    cases a' with
    | nil =>
      simp only [List.nil_append, List.cons_append, List.cons.injEq] at h
      exact absurd (by simp [← h.1]) ha
    | cons y a' =>
      simp only [List.cons_append, List.cons.injEq] at h
      obtain ⟨e1, e2⟩ := ih h.2 (fun hm => ha (by simp [hm])) (fun hm => ha' (by simp [hm]))
      exact ⟨by rw [h.1, e1], e2⟩

theorem natText_inj {a b : Nat} (h : natText a = natText b) : a = b := by
  rw [natText_eq, natText_eq] at h
  rw [← natOf_decimal a, h, natOf_decimal]

theorem natText_digits (n : Nat) : Digits (natText n) := by rw [natText_eq]; exact decimal_digits n

theorem natText_ne_nil (n : Nat) : natText n ≠ [] := by rw [natText_eq]; exact decimal_ne_nil n

theorem natText_head (n : Nat) : ∃ c rest, natText n = c :: rest ∧ '0' ≤ c ∧ c ≤ '9' := by
  cases h : natText n with
  | nil => exact absurd h (natText_ne_nil n)
  | cons c rest =>
    have := natText_digits n c (by rw [h]; simp)
    exact ⟨c, rest, rfl, this⟩

/-- The components of a temporal value: their texts differ and contain no separator. -/
structure Component {α : Type} (f : α → List Char) : Prop where
  inj : ∀ a b, f a = f b → a = b
  plain : ∀ a, ∀ c ∈ f a, c ≠ '/' ∧ c ≠ ':' ∧ c ≠ ' '

theorem component_sei {α : Type} {f : α → List Char} (h : Component f)
    (he : ∀ a, f a ≠ "Every".toList) (hi : ∀ a, f a ≠ "Invalid".toList) :
    Component (SEI.display f) := by
  constructor
  · intro a b hab
    cases a <;> cases b <;> simp only [SEI.display] at hab
    · rw [h.inj _ _ hab]
    · exact absurd hab (he _)
    · exact absurd hab (hi _)
    · exact absurd hab.symm (he _)
    · rfl
    · exact absurd hab (by decide)
    · exact absurd hab.symm (hi _)
    · exact absurd hab (by decide)
    · rfl
  · intro a c hc
    cases a with
    | single a => exact h.plain a c hc
    | every => revert c; simp only [SEI.display]; decide
    | invalid => revert c; simp only [SEI.display]; decide

theorem digits_plain {ds : List Char} (h : Digits ds) : ∀ c ∈ ds, c ≠ '/' ∧ c ≠ ':' ∧ c ≠ ' ' := by
  intro c hc
  have := h c hc
  refine ⟨?_, ?_, ?_⟩ <;> rintro rfl <;> exact absurd this (by decide)

theorem natText_ne {n : Nat} {t : List Char} (h : ∀ c ∈ t.head?, ¬ ('0' ≤ c ∧ c ≤ '9')) : natText n ≠ t := by
  intro he
  obtain ⟨c, rest, e, hc⟩ := natText_head n
  rw [← he, e] at h
  exact h c (by simp) hc

theorem component_byte : Component byteText :=
  ⟨fun _ _ h => UInt8.toNat_inj.1 (natText_inj h), fun _ => digits_plain (natText_digits _)⟩

theorem component_byteSei : Component (SEI.display byteText) :=
  component_sei component_byte (fun _ => natText_ne (by decide)) (fun _ => natText_ne (by decide))

theorem component_year : Component (SEI.display (fun y : UInt16 => natText y.toNat)) :=
  component_sei ⟨fun _ _ h => UInt16.toNat_inj.1 (natText_inj h), fun _ => digits_plain (natText_digits _)⟩
    (fun _ => natText_ne (by decide)) (fun _ => natText_ne (by decide))

theorem component_month : Component (SEI.display Month.display) := by
  apply component_sei
  · constructor
    · intro a b; cases a <;> cases b <;> decide
    · intro a; cases a <;> decide
  · intro a; cases a <;> decide
  · intro a; cases a <;> decide

theorem not_mem_of_ne {c : Char} {l : List Char} (h : ∀ x ∈ l, x ≠ c) : c ∉ l := fun hm => h c hm rfl

theorem dateText_plain (d : SEI UInt8) (m : SEI Month) (y : SEI UInt16) :
    ':' ∉ dateText d m y ∧ ' ' ∉ dateText d m y := by
  have h1 := component_byteSei.plain d
  have h2 := component_month.plain m
  have h3 := component_year.plain y
  unfold dateText
  constructor <;> simp only [List.mem_append, List.mem_cons, not_or] <;>
    refine ⟨fun h => ?_, by decide, fun h => ?_, by decide, fun h => ?_⟩
  · exact (h1 _ h).2.1 rfl
  · exact (h2 _ h).2.1 rfl
  · exact (h3 _ h).2.1 rfl
  · exact (h1 _ h).2.2 rfl
  · exact (h2 _ h).2.2 rfl
  · exact (h3 _ h).2.2 rfl

theorem dateText_inj {d d' : SEI UInt8} {m m' : SEI Month} {y y' : SEI UInt16}
    (h : dateText d m y = dateText d' m' y') : d = d' ∧ m = m' ∧ y = y' := by
  unfold dateText at h
  obtain ⟨e1, h⟩ := split_at h (not_mem_of_ne fun x hx => (component_byteSei.plain _ x hx).1)
    (not_mem_of_ne fun x hx => (component_byteSei.plain _ x hx).1)
  obtain ⟨e2, h⟩ := split_at h (not_mem_of_ne fun x hx => (component_month.plain _ x hx).1)
    (not_mem_of_ne fun x hx => (component_month.plain _ x hx).1)
  exact ⟨component_byteSei.inj _ _ e1, component_month.inj _ _ e2, component_year.inj _ _ h⟩

theorem dateText_slash (d : SEI UInt8) (m : SEI Month) (y : SEI UInt16) : '/' ∈ dateText d m y := by
  simp [dateText]

/-! ## The additive correction -/

theorem primary_offset : ∀ v : UInt8,
    ((primaryVif v).toOption.map (fun e => e.offset == 0)).getD true = true := by decide +kernel
theorem alternate_offset : ∀ v : UInt8, (alternateVif v).offset = 0 := by decide +kernel
theorem orthogonalExt_offset : ∀ v : UInt8, (orthogonalExtVife v).offset = 0 := by decide +kernel
theorem orthogonal_offset : ∀ v : UInt8, ¬ (0x78 ≤ v.toNat % 128 ∧ v.toNat % 128 ≤ 0x7B) →
    (orthogonalVife v).offset = 0 := by decide +kernel
theorem main_offset_none : ∀ v : UInt8, (mainVif v none).offset = 0 := by decide +kernel

theorem main_offset (v : UInt8) (s : Option UInt8) : (mainVif v s).offset = 0 := by
  have h := main_offset_none v
  unfold mainVif at h ⊢
  simp only at h ⊢
  by_cases h1 : (v &&& 0x7F).toNat ≤ 0x03
  · simp only [h1, if_true]
  by_cases h2 : (v &&& 0x7F).toNat ≤ 0x07
  · simp only [h1, h2, if_true, if_false]
  by_cases h3 : 0x40 ≤ (v &&& 0x7F).toNat ∧ (v &&& 0x7F).toNat ≤ 0x4F
  · simp only [h1, h2, h3, if_false] at h ⊢; exact h
  by_cases h4 : 0x50 ≤ (v &&& 0x7F).toNat ∧ (v &&& 0x7F).toNat ≤ 0x5F
  · simp only [h1, h2, h3, h4, if_false] at h ⊢; exact h
  by_cases h5 : (v &&& 0x7F).toNat = 0x7D
  · rw [if_neg h1, if_neg h2, if_neg h3, if_neg h4, if_pos h5]
    split <;> rfl
  · simp only [h1, h2, h3, h4, h5, if_false] at h ⊢; exact h

theorem orthogonalEffects_offset (vifes : List UInt8) (fc : Bool) (h : corrections vifes = []) :
    ((orthogonalEffects vifes fc).map (·.offset)).sum = 0 := by
  induction vifes generalizing fc with
  | nil => rfl
  | cons b t ih =>
    have hb : ¬ (0x78 ≤ b.toNat % 128 ∧ b.toNat % 128 ≤ 0x7B) := by
      intro hb
      simp [corrections, hb] at h
    have ht : corrections t = [] := by
      simpa [corrections, List.filter_cons, hb] using h
    unfold orthogonalEffects
    split
    · exact ih _ ht
    · cases fc <;> simp [ih _ ht, orthogonal_offset b hb, orthogonalExt_offset]

theorem corrections_drop (l : List UInt8) (n : Nat) (h : corrections l = []) : corrections (l.drop n) = [] := by
  unfold corrections at h ⊢
  simp only [List.map_eq_nil_iff, List.filter_eq_nil_iff] at h ⊢
  exact fun b hb => h b (List.mem_of_mem_drop hb)

/-- Without a code for an additive correction the value information has none. -/
theorem valueInfo_offset (b : VIB) (v : ValueInfo) (h : ValueInfo.tryFrom b = .ok v)
    (hc : corrections (b.vifes.getD []) = []) : v.offset = 0 := by
  rw [valueInfo_eq, Res.bind_eq_ok] at h
  obtain ⟨es, h1, h2⟩ := h
  split at h2
  · cases h2
  injection h2 with h2
  rw [← h2]
  unfold blockEffects at h1
  simp only [Res.bind_eq_ok] at h1
  obtain ⟨c, -, h1⟩ := h1
  have ho := orthogonalEffects_offset _ false hc
  have ho1 := orthogonalEffects_offset _ false (corrections_drop _ 1 hc)
  rw [List.drop_one] at ho1
  cases c <;> simp only [Res.bind_eq_ok] at h1
  · obtain ⟨e, he, h1⟩ := h1
    injection h1 with h1
    have := primary_offset b.vif
    rw [he] at this
    simp [Res.toOption] at this
    rw [← h1]; simp [total, ho, this]
  · injection h1 with h1
    rw [← h1]; simp [total, ho]
  · obtain ⟨x, -, h1⟩ := h1
    injection h1 with h1
    rw [← h1]; simp [total, ho1, main_offset]
  · obtain ⟨x, -, h1⟩ := h1
    injection h1 with h1
    rw [← h1]; simp [total, ho1, alternate_offset]
  · injection h1 with h1
    rw [← h1]; rfl

theorem intDisplay_eq (i : Int) : intDisplay i = decimalInt i := by
  unfold intDisplay natDisplay decimalInt
  rw [toDigits_eq]
  split <;> rename_i h <;> simp [signText, h]

/-! ## Lists of bytes -/

theorem intercalate_cons2 {α : Type} (sep a b : List α) (t : List (List α)) :
    sep.intercalate (a :: b :: t) = a ++ sep ++ sep.intercalate (b :: t) := by
  simp [List.intercalate, List.intersperse]

theorem byteList_inj (a b : List UInt8) (h : ", ".toList.intercalate (a.map byteText) =
    ", ".toList.intercalate (b.map byteText)) : a = b := by
  have hne : ∀ x : UInt8, byteText x ≠ [] := fun x => natText_ne_nil _
  have hc : ∀ x : UInt8, ',' ∉ byteText x := fun x hm =>
    absurd (natText_digits _ _ hm) (by decide)
  have hsep : ", ".toList = [',', ' '] := by decide
  rw [hsep] at h
  induction a generalizing b with
  | nil =>
    cases b with
    | nil => rfl
    | cons y b =>
      cases b with
      | nil => simp [List.intercalate, hne] at h
      | cons z b =>
        simp only [List.map_cons, intercalate_cons2] at h
        simp [List.intercalate] at h
  | cons x a ih =>
    cases a with
    | nil =>
      cases b with
      | nil => simp [List.intercalate, hne] at h
      | cons y b =>
        cases b with
        | nil =>
          simp [List.intercalate] at h
          rw [component_byte.inj _ _ h]
        | cons z b =>
          exfalso
          simp only [List.map_cons, intercalate_cons2] at h
          have : ',' ∈ byteText x := by
            simp only [List.map_nil, List.intercalate, List.intersperse, List.flatten_cons, List.flatten_nil,
              List.append_nil] at h
            rw [h]; simp
          exact hc x this
    | cons x2 a =>
      cases b with
      | nil =>
        simp only [List.map_cons, intercalate_cons2] at h
        simp [List.intercalate] at h
      | cons y b =>
        cases b with
        | nil =>
          exfalso
          simp only [List.map_cons, intercalate_cons2] at h
          have : ',' ∈ byteText y := by
            simp only [List.map_nil, List.intercalate, List.intersperse, List.flatten_cons, List.flatten_nil,
              List.append_nil] at h
            rw [← h]; simp
          exact hc y this
        | cons y2 b =>
          simp only [List.map_cons, intercalate_cons2, List.append_assoc, List.cons_append, List.nil_append] at h
          obtain ⟨e1, e2⟩ := split_at h (hc x) (hc y)
          simp only [List.cons.injEq, true_and] at e2
          rw [component_byte.inj _ _ e1, ih (y2 :: b) (by simpa using e2)]

theorem bytesDebug_inj {a b : List UInt8} (h : bytesDebug a = bytesDebug b) : a = b := by
  unfold bytesDebug at h
  simp only [List.cons_append, List.cons.injEq, true_and] at h
  exact byteList_inj a b (List.append_cancel_right h)

theorem timeText_slash (a b c : SEI UInt8) :
    '/' ∉ a.display byteText ++ ':' :: (b.display byteText ++ ':' :: c.display byteText) := by
  simp only [List.mem_append, List.mem_cons, not_or]
  exact ⟨fun h => (component_byteSei.plain _ _ h).1 rfl, by decide,
    fun h => (component_byteSei.plain _ _ h).1 rfl, by decide, fun h => (component_byteSei.plain _ _ h).1 rfl⟩

theorem display_head (f : UInt8 → List Char) (x : SEI UInt8) (hf : f = byteText) (t : List Char) :
    ∀ c ∈ (x.display f ++ t).head?, c ≠ 'M' := by
  subst hf
  intro c hc
  cases x with
  | single b =>
    obtain ⟨d, rest, e, h1, h2⟩ := natText_head b.toNat
    simp only [SEI.display, byteText, e, List.cons_append, List.head?_cons, Option.mem_def, Option.some.injEq] at hc
    rintro rfl
    subst hc
    exact absurd h2 (by decide)
  | every => simp [SEI.display] at hc; rw [← hc]; decide
  | invalid => simp [SEI.display] at hc; rw [← hc]; decide

theorem byteSei_ne_00 (x : SEI UInt8) : x.display byteText ≠ "00".toList := by
  cases x with
  | single b => revert b; simp only [SEI.display]; decide +kernel
  | every => decide
  | invalid => decide

/-! ## The cases of the text of a value -/

theorem display_date (rt : UInt32 → List Char) (d m y) : DataType.display rt (.date d m y) = dateText d m y := rfl

theorem display_dateTime (rt : UInt32 → List Char) (d m y h n) : DataType.display rt (.dateTime d m y h n) =
    dateText d m y ++ ' ' :: (h.display byteText ++ ':' :: (n.display byteText ++ ":00".toList)) := rfl

theorem display_seconds (rt : UInt32 → List Char) (d m y h n s) :
    DataType.display rt (.dateTimeWithSeconds d m y h n s) =
      dateText d m y ++ ' ' :: (h.display byteText ++ ':' :: (n.display byteText ++ ':' :: s.display byteText)) :=
  rfl

theorem display_time (rt : UInt32 → List Char) (s n h) : DataType.display rt (.time s n h) =
    h.display byteText ++ ':' :: (n.display byteText ++ ':' :: s.display byteText) := rfl

theorem display_specific (rt : UInt32 → List Char) (bytes) : DataType.display rt (.manufacturerSpecific bytes) =
    "Manufacturer Specific: ".toList ++ bytesDebug bytes := rfl

end MBus
