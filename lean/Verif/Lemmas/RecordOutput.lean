import Verif.Model.RecordOutput
import Verif.Spec.RecordOutput
import Verif.Lemmas.Decimal
import Verif.Lemmas.Record
/-!
# Helper lemmas for record values
-/
namespace MBus
open Spec

theorem digitChar_eq (n : Nat) (h : n < 10) : n.digitChar = Char.ofNat ('0'.toNat + n) := by
  interval_cases n <;> decide

theorem toDigits_eq (n : Nat) : Nat.toDigits 10 n = decimal n := by
  induction n using Nat.strongRecOn with
  | _ n ih =>
    rw [decimal, Nat.toDigits_eq_if (by omega)]
    split
    · rename_i h; rw [digitChar_eq n h]
    · rename_i h
      rw [ih (n / 10) (by omega), digitChar_eq _ (by omega)]

theorem formatF64_int (v : Int) : formatF64 (.int v) = decimalInt v := by
  unfold formatF64 decimalInt
  simp only [toDigits_eq]
  by_cases h : v < 0 <;> simp [h, signText]

theorem dataBytes_eq (cfg : Cfg) (lsb : Bool) (data : List UInt8) (r : DataRecord)
    (h : DataRecord.parse cfg lsb data = .ok r) : ∃ rest di,
      r.header.processed.dataInfo = some di ∧ di.coding.parse cfg lsb rest = .ok r.data ∧
      r.dataBytes = rest.take r.data.size ∧ sliceFrom? r.rawBytes r.header.size = some r.dataBytes := by
  obtain ⟨_, rest, di, hr, hdi, hp, hraw⟩ := (record_ok _ _ _ _).mp h
  have hsz := headerSize_eq cfg.plaintextFirst r.header
  have hle : r.header.size ≤ r.rawBytes.length := by rw [hraw, hsz]; simp
  have hd : r.dataBytes = rest.take r.data.size := by
    unfold DataRecord.dataBytes slice? DataRecord.size
    rw [if_pos ⟨hle, Nat.le_refl _⟩, hsz, List.take_length]
    simp only [Option.getD_some]
    conv_lhs => rw [hraw]
    simp
  refine ⟨rest, di, hdi, hp, hd, ?_⟩
  unfold sliceFrom?
  rw [if_pos hle, hsz, hraw, hd]
  simp

theorem recordOffset_eq (r : DataRecord) :
    recordOffsetPower10 r = (corrections ((r.header.raw.vib.bind VIB.vifes).getD [])).getLast? := by
  have key : ∀ b : UInt8, (if 0x78 ≤ b &&& 0x7F ∧ b &&& 0x7F ≤ 0x7B then
      some ((b &&& 0x03).toNat - 3 : Int) else none) =
      if 0x78 ≤ b.toNat % 128 ∧ b.toNat % 128 ≤ 0x7B then some ((b.toNat % 4 : Int) - 3) else none := by
    decide +kernel
  have hl : ∀ l : List UInt8, l.filterMap (fun b => if 0x78 ≤ b &&& 0x7F ∧ b &&& 0x7F ≤ 0x7B then
      some ((b &&& 0x03).toNat - 3 : Int) else none) = corrections l := by
    intro l
    unfold corrections
    induction l with
    | nil => rfl
    | cons b l ih =>
      rw [List.filterMap_cons, key, List.filter_cons]
      by_cases h : 0x78 ≤ b.toNat % 128 ∧ b.toNat % 128 ≤ 0x7B
      · rw [if_pos h, if_pos (by simpa using h), ih]; rfl
      · rw [if_neg h, if_neg (by simpa using h), ih]
  unfold recordOffsetPower10
  cases hv : r.header.raw.vib with
  | none => rfl
  | some v =>
    cases hx : v.vifes with
    | none => simp [hx, corrections]
    | some xs =>
      simp only [Option.bind_eq_bind, Option.bind_some, hx, Option.getD_some]
      rw [hl]

theorem fromUtf8_iff (bytes : List UInt8) (text : List Char) :
    fromUtf8 bytes = some text ↔ bytes = utf8 text := by
  have enc : ∀ t : List Char, t.utf8Encode = (utf8 t).toByteArray := fun t => rfl
  unfold fromUtf8
  constructor
  · intro h
    rw [Option.map_eq_some_iff] at h
    obtain ⟨a, h1, rfl⟩ := h
    have hs : bytes.toByteArray.utf8Decode?.isSome := by rw [h1]; rfl
    have := ByteArray.utf8Encode_get_utf8Decode? (h := hs)
    simp only [h1, Option.get_some] at this
    rw [enc, List.toByteArray_inj] at this
    exact this.symm
  · rintro rfl
    rw [← enc, List.utf8Decode?_utf8Encode]
    simp

theorem fixedDigits_length (w n : Nat) : (fixedDigits w n).length = w := by
  induction w generalizing n with
  | zero => rfl
  | succ w ih => simp [fixedDigits, ih]

theorem fixedDigits_zero (w : Nat) : fixedDigits w 0 = List.replicate w '0' := by
  induction w with
  | zero => rfl
  | succ w ih =>
    rw [fixedDigits, Nat.zero_div, ih, List.replicate_succ']
    rfl

theorem decimal_pad (w n : Nat) (h : n < 10 ^ w) (hw : 0 < w) :
    List.replicate (w - (decimal n).length) '0' ++ decimal n = fixedDigits w n := by
  induction w generalizing n with
  | zero => omega
  | succ w ih =>
    rw [decimal]
    split
    · rename_i hn
      rw [fixedDigits, Nat.div_eq_of_lt hn, Nat.mod_eq_of_lt hn, fixedDigits_zero]
      simp
    · rename_i hn
      have hw : 0 < w := by
        rcases Nat.eq_zero_or_pos w with h0 | h0
        · subst h0; simp at h; omega
        · exact h0
      rw [fixedDigits, ← ih (n / 10) (by rw [Nat.pow_succ] at h; omega) hw]
      simp

theorem padNat_eq (w n : Nat) (h : n < 10 ^ w) (hw : 0 < w) : padNat w n = fixedDigits w n := by
  unfold padNat
  rw [toDigits_eq, decimal_pad w n h hw]

theorem monthNumber_eq (m : Month) : monthNumber m = months.idxOf m + 1 ∧ monthNumber m ≤ 12 := by
  cases m <;> decide

theorem isoDate_eq (d : UInt8) (m : Month) (y : UInt16) (hd : d.toNat < 100) (hy : y.toNat < 10000) :
    padNat 4 y.toNat ++ '-' :: (padNat 2 (monthNumber m) ++ '-' :: padNat 2 d.toNat) =
      isoDate y.toNat (months.idxOf m + 1) d.toNat := by
  obtain ⟨h1, h2⟩ := monthNumber_eq m
  rw [padNat_eq 4 _ (by omega) (by omega), padNat_eq 2 (monthNumber m) (by omega) (by omega),
    padNat_eq 2 d.toNat (by omega) (by omega), ← h1]
  simp [isoDate]

theorem isoTime_eq (h m s : UInt8) (h1 : h.toNat < 100) (h2 : m.toNat < 100) (h3 : s.toNat < 100) :
    padNat 2 h.toNat ++ ':' :: (padNat 2 m.toNat ++ ':' :: padNat 2 s.toNat) =
      isoTime h.toNat m.toNat s.toNat := by
  rw [padNat_eq 2 h.toNat (by omega) (by omega), padNat_eq 2 m.toNat (by omega) (by omega),
    padNat_eq 2 s.toNat (by omega) (by omega)]
  simp [isoTime]

theorem temporalIso_date (d : UInt8) (m : Month) (y : UInt16) (a b c : Option (SEI UInt8))
    (hd : d.toNat < 100) (hy : y.toNat < 10000) :
    temporalIso (.single d) (.single m) (.single y) a b c "date".toList =
      some (isoDate y.toNat (months.idxOf m + 1) d.toNat) := by
  rw [← isoDate_eq d m y hd hy]; rfl

theorem temporalIso_time (a : SEI UInt8) (b : SEI Month) (c : SEI UInt16) (h m s : UInt8)
    (h1 : h.toNat < 100) (h2 : m.toNat < 100) (h3 : s.toNat < 100) :
    temporalIso a b c (some (.single h)) (some (.single m)) (some (.single s)) "time".toList =
      some (isoTime h.toNat m.toNat s.toNat) := by
  rw [← isoTime_eq h m s h1 h2 h3]; rfl

theorem temporalIso_seconds (d : UInt8) (mo : Month) (y : UInt16) (h m s : UInt8)
    (hd : d.toNat < 100) (hy : y.toNat < 10000)
    (h1 : h.toNat < 100) (h2 : m.toNat < 100) (h3 : s.toNat < 100) :
    temporalIso (.single d) (.single mo) (.single y) (some (.single h)) (some (.single m))
      (some (.single s)) "datetime".toList =
      some (isoDate y.toNat (months.idxOf mo + 1) d.toNat ++ ['T'] ++ isoTime h.toNat m.toNat s.toNat) := by
  rw [← isoTime_eq h m s h1 h2 h3, ← isoDate_eq d mo y hd hy, List.append_assoc]; rfl

theorem temporalIso_datetime (d : UInt8) (mo : Month) (y : UInt16) (h m : UInt8)
    (hd : d.toNat < 100) (hy : y.toNat < 10000) (h1 : h.toNat < 100) (h2 : m.toNat < 100) :
    temporalIso (.single d) (.single mo) (.single y) (some (.single h)) (some (.single m))
      none "datetime".toList =
      some (isoDate y.toNat (months.idxOf mo + 1) d.toNat ++ ['T'] ++ isoTime h.toNat m.toNat 0) := by
  have : padNat 2 h.toNat ++ ':' :: (padNat 2 m.toNat ++ ":00".toList) = isoTime h.toNat m.toNat 0 := by
    rw [padNat_eq 2 h.toNat (by omega) (by omega), padNat_eq 2 m.toNat (by omega) (by omega)]
    simp [isoTime, fixedDigits]
  rw [← this, ← isoDate_eq d mo y hd hy, List.append_assoc]; rfl

/-! ## collecting records -/

theorem collectItems_spec (rs : List DataRecord) (e : RecordError) (out : List DataRecord) (o : Nat) :
    collectItems (rs.map .ok ++ [.err e]) out o =
      some (out ++ rs, some (o + (rs.map (·.rawBytes.length)).sum, e)) := by
  induction rs generalizing out o with
  | nil => simp [collectItems]
  | cons r rs ih => simp [collectItems, ih, Nat.add_assoc]

theorem collectItems_ok (rs : List DataRecord) (out : List DataRecord) (o : Nat) :
    collectItems (rs.map .ok) out o = some (out ++ rs, none) := by
  induction rs generalizing out o with
  | nil => simp [collectItems]
  | cons r rs ih => simp [collectItems, ih]

theorem collectItems_err (items : List (Res RecordError DataRecord)) (out rs : List DataRecord)
    (o off : Nat) (e : RecordError) (h : collectItems items out o = some (rs, some (off, e))) :
    ∃ rs' tail, items = rs'.map .ok ++ .err e :: tail ∧ rs = out ++ rs' ∧
      off = o + (rs'.map (·.rawBytes.length)).sum := by
  induction items generalizing out o with
  | nil => simp [collectItems] at h
  | cons x items ih =>
    cases x with
    | ok r =>
      obtain ⟨rs', tail, h1, h2, h3⟩ := ih _ _ h
      exact ⟨r :: rs', tail, by simp [h1], by simp [h2], by simp [h3, Nat.add_assoc]⟩
    | err e' =>
      simp only [collectItems, Option.some.injEq, Prod.mk.injEq] at h
      obtain ⟨rfl, rfl, rfl⟩ := h
      exact ⟨[], items, by simp⟩
    | panic => simp [collectItems] at h

theorem items_err_last {parse : List UInt8 → Res RecordError DataRecord} {data : List UInt8}
    {items : List (Res RecordError DataRecord)} (h : Items parse data items) (rs : List DataRecord)
    (e : RecordError) (tail : List (Res RecordError DataRecord))
    (hi : items = rs.map .ok ++ .err e :: tail) : tail = [] := by
  induction h generalizing rs with
  | nil => simp at hi
  | skip b data items hs _ ih => exact ih rs hi
  | record b data rest r items _ _ hr hne _ ih =>
    cases rs with
    | nil => simp at hi
    | cons r' rs =>
      simp only [List.map_cons, List.cons_append, List.cons.injEq] at hi
      exact ih rs hi.2
  | fail b data _ hf =>
    cases rs with
    | nil => simp only [List.map_nil, List.nil_append, List.cons.injEq] at hi; exact hi.2.symm
    | cons r' rs => simp at hi

theorem tiles_length (data : List UInt8) (ps : List (List UInt8)) (h : Tiles data ps) :
    ps.flatten.length ≤ data.length := by
  induction h with
  | nil => simp
  | skip b data ps _ _ ih => simp only [List.length_cons]; omega
  | piece p data ps _ _ ih => simp only [List.flatten_cons, List.length_append]; omega

end MBus
