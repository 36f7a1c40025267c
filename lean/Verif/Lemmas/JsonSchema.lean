import Verif.Spec.JsonSchema
import Verif.Props.Json
import Verif.Props.ReadAgain
/-!
# The shape of every part of a document
-/
namespace MBus
open MBus.Spec

/-! ## What the data of a record can be -/

/-- The single values of a part are below a bound. -/
def Below (n : Nat) (x : SEI UInt8) : Prop := ∀ a, x = .single a → a.toNat < n

/-- A number that is not a 32-bit real. -/
def Whole (v : F64) : Prop := ∀ bits, v ≠ .real32 bits

/-- The values that data with the coding can have. -/
def Possible (real : Prop) : DataType → Prop
  | .number v | .lossyNumber v => (real ∧ ∃ bits, v = .real32 bits) ∨ (¬ real ∧ Whole v)
  | .text _ | .manufacturerSpecific _ => True
  | .date day _ year => Below 32 day ∧ ∀ y, year = .single y → y.toNat < 128
  | .time second minute hour => Below 64 second ∧ Below 64 minute ∧ Below 32 hour
  | .dateTime day _ year hour minute =>
    Below 32 day ∧ (∀ y, year = .single y → y.toNat < 128) ∧ Below 32 hour ∧ Below 64 minute
  | .dateTimeWithSeconds day _ year hour minute second =>
    Below 32 day ∧ (∀ y, year = .single y → y.toNat < 128) ∧ Below 32 hour ∧ Below 64 minute ∧ Below 64 second

theorem below_31 (b all : UInt8) : Below 32 (parseSingleOrEvery b 0x1F all) := by
  intro a h
  unfold parseSingleOrEvery at h
  split at h
  · cases h
  · cases h
    rw [UInt8.toNat_and]
    exact Nat.lt_succ_of_le Nat.and_le_right

theorem below_63 (b all : UInt8) : Below 64 (parseSingleOrEvery b 0x3F all) := by
  intro a h
  unfold parseSingleOrEvery at h
  split at h
  · cases h
  · cases h
    rw [UInt8.toNat_and]
    exact Nat.lt_succ_of_le Nat.and_le_right

theorem year_below (input : List UInt8) : ∀ y, parseYear input = .single y → y.toNat < 128 := by
  intro y h
  unfold parseYear at h
  simp only at h
  split at h
  · cases h
  · cases h
    rw [UInt16.toNat_or]
    refine Nat.or_lt_two_pow (n := 7) ?_ ?_
    · rw [UInt16.toNat_shiftRight, UInt8.toNat_toUInt16, Nat.shiftRight_eq_div_pow]
      have := ((input[1]?.getD 0) &&& 0xF0).toNat_lt
      show _ / 2 ^ 1 < 2 ^ 7
      omega
    · rw [UInt16.toNat_shiftRight, UInt8.toNat_toUInt16, Nat.shiftRight_eq_div_pow]
      have := ((input[0]?.getD 0) &&& 0xE0).toNat_lt
      show _ / 2 ^ 5 < 2 ^ 7
      omega

theorem ofInt_whole (i : Int) : Whole (F64.ofInt i) := by intro bits h; cases h

theorem withSign_whole (v sign : Int) : Whole (F64.withSign v sign) := by
  intro bits h
  unfold F64.withSign at h
  split at h <;> cases h

theorem integer_possible {cfg : Cfg} {input : List UInt8} {n : Nat} {d : Data} (h : integerChecked cfg input n = .ok d) :
    ∀ v ∈ d.value, Possible False v := by
  unfold integerChecked integerToValue at h
  split at h
  · cases h
  · generalize leLoop (input.take (if n > 8 then 8 else n)) 0 0 = p at h
    obtain ⟨value, shift⟩ := p
    simp only at h
    split at h
    · cases h
    · cases h
      intro v hv
      simp only [Option.mem_def, Option.some.injEq] at hv
      subst hv
      split <;> exact .inr ⟨id, ofInt_whole _⟩

theorem bcd_possible {input : List UInt8} {n : Nat} {sign : Int} {lsb : Bool} {d : Data} (h : bcdToValue input n sign lsb = .ok d) :
    ∀ v ∈ d.value, Possible False v := by
  unfold bcdToValue at h
  split at h
  · cases h
  · rw [Res.bind_eq_ok] at h
    obtain ⟨v, -, h⟩ := h
    cases h
    intro v hv
    simp only [Option.mem_def, Option.some.injEq] at hv
    subst hv
    exact .inr ⟨id, withSign_whole _ _⟩

theorem lvar_possible {r : Res RecordError Data} {d : Data} (hr : ∀ d, r = .ok d → ∀ v ∈ d.value, Possible False v)
    (h : addLvarByte r = .ok d) : ∀ v ∈ d.value, Possible False v := by
  unfold addLvarByte at h
  rw [Res.bind_eq_ok] at h
  obtain ⟨d', h1, h2⟩ := h
  cases h2
  exact hr d' h1

theorem variable_possible {cfg : Cfg} {lsb : Bool} {input : List UInt8} {d : Data} (h : parseVariableLength cfg lsb input = .ok d) :
    ∀ v ∈ d.value, Possible False v := by
  unfold parseVariableLength at h
  rw [Res.bind_eq_ok] at h
  obtain ⟨lvar, -, h⟩ := h
  simp only at h
  repeat' split at h
  all_goals first
    | (rw [Res.bind_eq_ok] at h
       obtain ⟨bytes, -, h⟩ := h
       first
         | with_reducible exact lvar_possible (fun _ => integer_possible) h
         | with_reducible exact lvar_possible (fun _ => bcd_possible) h
         | (cases h
            intro v hv
            simp only [Option.mem_def, Option.some.injEq] at hv
            subst hv
            trivial))
    | cases h

/-- The values of data by their coding. -/
theorem parse_possible {cfg : Cfg} {c : Coding} {lsb : Bool} {input : List UInt8} {d : Data} (h : c.parse cfg lsb input = .ok d) :
    ∀ v ∈ d.value, Possible (c = .real32) v := by
  have weaken : ∀ {v : DataType}, c ≠ .real32 → Possible False v → Possible (c = .real32) v := by
    intro v hc hv
    cases v <;> first | exact .inr ⟨hc, (hv.resolve_left (fun x => x.1)).2⟩ | exact hv
  cases c with
  | real32 =>
    simp only [Coding.parse, Res.bind_eq_ok] at h
    obtain ⟨b0, -, b1, -, b2, -, b3, -, h⟩ := h
    cases h
    intro v hv
    simp only [Option.mem_def, Option.some.injEq] at hv
    subst hv
    exact .inl ⟨rfl, _, rfl⟩
  | noData | selectionForReadout => simp only [Coding.parse] at h; cases h; simp
  | integer8 | integer16 | integer24 | integer32 | integer48 | integer64 =>
    exact fun v hv => weaken (by simp) (integer_possible h v hv)
  | bcd2 | bcd4 | bcd6 | bcd8 | bcd12 => exact fun v hv => weaken (by simp) (bcd_possible h v hv)
  | variableLength => exact fun v hv => weaken (by simp) (variable_possible h v hv)
  | specialFunctions f =>
    cases f <;> simp only [Coding.parse] at h <;> cases h <;> intro v hv <;>
      simp only [Option.mem_def, Option.some.injEq, reduceCtorEq] at hv <;> subst hv <;> trivial
  | dateTypeG =>
    simp only [Coding.parse, Res.bind_eq_ok] at h
    obtain ⟨b0, -, b1, -, h⟩ := h
    cases h
    intro v hv
    simp only [Option.mem_def, Option.some.injEq] at hv
    subst hv
    exact ⟨below_31 _ _, year_below _⟩
  | dateTimeTypeF =>
    simp only [Coding.parse, Res.bind_eq_ok] at h
    obtain ⟨b0, -, b1, -, b2, -, b3, -, h⟩ := h
    cases h
    intro v hv
    simp only [Option.mem_def, Option.some.injEq] at hv
    subst hv
    exact ⟨below_31 _ _, year_below _, below_31 _ _, below_63 _ _⟩
  | dateTimeTypeJ =>
    simp only [Coding.parse, Res.bind_eq_ok] at h
    obtain ⟨b0, -, b1, -, b2, -, h⟩ := h
    cases h
    intro v hv
    simp only [Option.mem_def, Option.some.injEq] at hv
    subst hv
    exact ⟨below_63 _ _, below_63 _ _, below_31 _ _⟩
  | dateTimeTypeI =>
    simp only [Coding.parse, Res.bind_eq_ok] at h
    obtain ⟨b0, -, b1, -, b2, -, b3, -, b4, -, h⟩ := h
    cases h
    intro v hv
    simp only [Option.mem_def, Option.some.injEq] at hv
    subst hv
    exact ⟨below_31 _ _, year_below _, below_31 _ _, below_63 _ _, below_63 _ _⟩

/-- Of the records that are read, those with 32-bit reals have 32-bit reals as values, and no others have. -/
theorem number_real32 {cfg : Cfg} {lsb : Bool} {data : List UInt8} {r : DataRecord} {v : F64}
    (h : DataRecord.parse cfg lsb data = .ok r) (hv : r.data.value = some (.number v) ∨ r.data.value = some (.lossyNumber v)) :
    (∃ bits, v = .real32 bits) ↔ ∃ di, r.header.processed.dataInfo = some di ∧ di.coding = .real32 := by
  obtain ⟨-, rest, di, -, hdi, hd, -⟩ := (record_ok cfg lsb data r).1 h
  have key : Possible (di.coding = .real32) (.number v) := by
    rcases hv with hv | hv
    · exact parse_possible hd _ hv
    · exact parse_possible hd (.lossyNumber v) hv
  rw [hdi]
  rcases key with ⟨h1, h2⟩ | ⟨h1, h2⟩
  · exact ⟨fun _ => ⟨di, rfl, h1⟩, fun _ => h2⟩
  · refine ⟨fun ⟨bits, hb⟩ => absurd hb (h2 bits), fun ⟨d, hd, hc⟩ => ?_⟩
    cases hd
    exact absurd hc h1

/-! ## Putting shapes together -/

theorem word_fits {words : List String} {w : String} (h : w ∈ words) : Conforms (.word words) (.str w.toList) := .text ⟨w, h, rfl⟩

theorem any_fits (t : List Char) : Conforms .any (.str t) := .text trivial

theorem natural_fits (n : Nat) : Conforms (.natural none) (.nat n) := by
  rw [doc_nat]; exact .number ⟨n, rfl, by simp⟩

theorem below_fits {n b : Nat} (h : n < b) : Conforms (.natural (some b)) (.nat n) := by
  rw [doc_nat]; exact .number ⟨n, rfl, by simpa using h⟩

theorem byte_fits (b : UInt8) : Conforms .byte (.nat b.toNat) := below_fits b.toNat_lt

theorem upperDigit_hex : ∀ n : Fin 16, upperHexDigit n.val ∈ "0123456789ABCDEF".toList := by decide +kernel

theorem hexString_upper (bytes : List UInt8) : UpperHex (hexString bytes) ∧ (hexString bytes).length = 2 * bytes.length := by
  induction bytes with
  | nil => exact ⟨fun c hc => by simp [hexString] at hc, rfl⟩
  | cons b bytes ih =>
    have hb := b.toNat_lt
    refine ⟨fun c hc => ?_, ?_⟩
    · have : hexString (b :: bytes) = upperHexDigit (b.toNat / 16) :: upperHexDigit (b.toNat % 16) :: hexString bytes := rfl
      rw [this, List.mem_cons, List.mem_cons] at hc
      obtain rfl | rfl | hc := hc
      · exact upperDigit_hex ⟨b.toNat / 16, by omega⟩
      · exact upperDigit_hex ⟨b.toNat % 16, by omega⟩
      · exact ih.1 c hc
    · have : (hexString (b :: bytes)).length = (hexString bytes).length + 2 := rfl
      rw [this, ih.2, List.length_cons]; omega

theorem hex_fits (bytes : List UInt8) : Conforms (.hex none) (.str (hexString bytes)) :=
  .text ⟨(hexString_upper bytes).1, by rw [(hexString_upper bytes).2]; omega, by simp⟩

theorem hexCount_fits (bytes : List UInt8) : Conforms (.hex (some bytes.length)) (.str (hexString bytes)) :=
  .text ⟨(hexString_upper bytes).1, by rw [(hexString_upper bytes).2]; omega, by simpa using (hexString_upper bytes).2⟩

theorem hex4_fits (n : UInt16) : Conforms (.hex (some 2)) (.str (hex4 n)) := hexCount_fits [_, _]

theorem bytes_fits (bytes : List UInt8) : Conforms .bytes (.str (hexSpaced bytes)) := by
  refine .text ⟨bytes.map (fun b => hexString [b]), ?_, rfl⟩
  intro p hp
  obtain ⟨b, -, rfl⟩ := List.mem_map.1 hp
  exact hexString_upper [b]

theorem id_fits (n : Nat) : Conforms (.digits 8) (.str (idDisplay n)) := by
  refine .text ⟨padNat_digits 8 n, ?_⟩
  unfold idDisplay padNat
  rw [List.length_append, List.length_replicate]
  omega

theorem each_fits {α : Type} {s : Schema} {f : α → Doc} {l : List α} (h : ∀ a ∈ l, Conforms s (f a)) : ConformsEach s (l.map f) := by
  induction l with
  | nil => exact .nil s
  | cons a l ih => exact .cons (h a (by simp)) (ih fun b hb => h b (by simp [hb]))

theorem fits_field {name : String} {always : Bool} {s : Schema} {d : Doc} {ms : List (String × Bool × Schema)}
    {rest : List (List Char × Doc)} (h : Conforms s d) (hr : ConformsAll ms rest) :
    ConformsAll ((name, always, s) :: ms) (field name d ++ rest) := .present h hr

theorem fits_opt {α : Type} {name : String} {s : Schema} {f : α → Doc} {x : Option α} {ms : List (String × Bool × Schema)}
    {rest : List (List Char × Doc)} (h : ∀ a, x = some a → Conforms s (f a)) (hr : ConformsAll ms rest) :
    ConformsAll ((name, false, s) :: ms) (fieldOpt name f x ++ rest) := by
  cases x with
  | none => exact .missing hr
  | some a => exact .present (h a rfl) hr

theorem fits_vec {α : Type} {name : String} {s : Schema} {f : α → Doc} {l : List α} {ms : List (String × Bool × Schema)}
    {rest : List (List Char × Doc)} (h : ∀ a ∈ l, Conforms s (f a)) (hr : ConformsAll ms rest) :
    ConformsAll ((name, false, .list s) :: ms) (fieldVec name f l ++ rest) := by
  unfold fieldVec
  split
  · exact .missing hr
  · exact .present (.list (each_fits h)) hr

theorem fits_object {ms : List (String × Bool × Schema)} {members : List (List Char × Doc)} (h : ConformsAll ms (members ++ [])) :
    Conforms (.object ms) (.obj members) := .object (by simpa using h)

/-! ## Values -/

theorem bytes_denote {bytes : List UInt8} {t : List Char} (h : signedLeDecimal bytes = some t) : ∃ i, DenotesInt t i := by
  have hne : bytes ≠ [] := by rintro rfl; cases h
  rw [C45_exact bytes hne] at h
  cases h
  exact ⟨_, C45_denotes _⟩

theorem format_denotes {v : F64} (h : Whole v) : ∃ i, DenotesInt (formatF64 v) i := by
  cases v with
  | int i => exact ⟨i, formatF64_int i ▸ C45_denotes i⟩
  | negZero => exact ⟨0, true, ['0'], by simp, by intro c hc; simp at hc; subst hc; decide, rfl, rfl⟩
  | real32 bits => exact absurd rfl (h bits)

theorem exact_denotes {r : DataRecord} {v : F64} {t : List Char} (hv : Whole v) (h : exactSignificand r v = some t) :
    ∃ i, DenotesInt t i := by
  unfold exactSignificand at h
  simp only [Option.bind_eq_bind, Option.bind_eq_some_iff] at h
  obtain ⟨info, -, data, -, h⟩ := h
  cases hc : info.coding <;> rw [hc] at h <;> simp only [Option.bind_eq_some_iff, reduceCtorEq, Option.some.injEq] at h <;>
    first
    | (obtain ⟨b, -, h⟩ := h; exact bytes_denote h)
    | (subst h; exact format_denotes hv)
    | (unfold exactVariableSignificand at h
       simp only [Option.bind_eq_bind, Option.bind_eq_some_iff] at h
       obtain ⟨m, -, h⟩ := h
       repeat' split at h
       all_goals first
         | (simp only [Option.some.injEq] at h; subst h; exact format_denotes hv)
         | (simp only [Option.bind_eq_some_iff] at h; obtain ⟨b, -, h⟩ := h; exact bytes_denote h)
         | cases h)

theorem significand_denotes {r : DataRecord} {v : F64} (hv : Whole v) :
    ∃ i, DenotesInt ((exactSignificand r v).getD (formatF64 v)) i := by
  cases h : exactSignificand r v with
  | none => exact format_denotes hv
  | some t => exact exact_denotes hv h

theorem part_below {env : TextEnv} {n : Nat} {x : SEI UInt8} (h : Below n x) :
    Conforms (.part (.natural (some n))) (partDoc env (componentJson (fun x : UInt8 => .nat x.toNat) x)) := by
  cases x with
  | single a => exact .one (below_fits (h a rfl))
  | every => exact .other (word_fits (w := "every") (by decide))
  | invalid => exact .other (word_fits (w := "invalid") (by decide))

theorem year_fits {env : TextEnv} {x : SEI UInt16} (h : ∀ y, x = .single y → y.toNat < 128) :
    Conforms yearShape (partDoc env (componentJson (fun y : UInt16 => .nat y.toNat) x)) := by
  cases x with
  | single a => exact .one (below_fits (h a rfl))
  | every => exact .other (word_fits (w := "every") (by decide))
  | invalid => exact .other (word_fits (w := "invalid") (by decide))

theorem month_fits {env : TextEnv} (x : SEI Month) :
    Conforms monthShape (partDoc env (componentJson (fun m => .str (monthName m)) x)) := by
  cases x with
  | single a =>
    have : ∃ w ∈ monthWords, monthName a = w.toList := by cases a <;> decide +kernel
    exact .one (.text this)
  | every => exact .other (word_fits (w := "every") (by decide))
  | invalid => exact .other (word_fits (w := "invalid") (by decide))

theorem month_bounds (m : Month) : 1 ≤ months.idxOf m + 1 ∧ months.idxOf m + 1 ≤ 12 := by cases m <;> decide

theorem date_is {d : UInt8} {m : Month} {y : UInt16} (hd : d.toNat < 32) (hy : y.toNat < 128) :
    IsDate (padNat 4 y.toNat ++ '-' :: (padNat 2 (monthNumber m) ++ '-' :: padNat 2 d.toNat)) :=
  ⟨_, _, _, hy, (month_bounds m).1, (month_bounds m).2, hd, isoDate_eq d m y (by omega) (by omega)⟩

theorem time_is {h m s : UInt8} (h1 : h.toNat < 32) (h2 : m.toNat < 64) (h3 : s.toNat < 64) :
    IsTime (padNat 2 h.toNat ++ ':' :: (padNat 2 m.toNat ++ ':' :: padNat 2 s.toNat)) :=
  ⟨_, _, _, h1, h2, h3, isoTime_eq h m s (by omega) (by omega) (by omega)⟩

theorem value_doc (env : TextEnv) (kind : List Char) (j : Json) :
    (ValueOutput.mk kind (some j)).doc env = .obj [("kind".toList, .str kind), ("value".toList, j.doc env)] := rfl

theorem date_value {env : TextEnv} {day : SEI UInt8} {month : SEI Month} {year : SEI UInt16} (hd : Below 32 day)
    (hy : ∀ y, year = .single y → y.toNat < 128) :
    Conforms valueShape ((temporalValue "date".toList day month year none none none).doc env) := by
  refine .other (.other (.other (.one ?_)))
  have iso : temporalIso day month year none none none "date".toList = none ∨
      ∃ t, temporalIso day month year none none none "date".toList = some t ∧ IsDate t := by
    unfold temporalIso
    simp only [if_true, Option.bind_eq_bind]
    cases year with
    | single y => cases month with
      | single m => cases day with
        | single d => exact .inr ⟨_, rfl, date_is (hd d rfl) (hy y rfl)⟩
        | _ => exact .inl rfl
      | _ => exact .inl rfl
    | _ => exact .inl rfl
  unfold temporalValue
  rcases iso with h | ⟨t, h, ht⟩
  · simp only [h]
    exact .object (.present (word_fits (w := "date") (by simp)) (.present (.other (.object
      (.present (part_below hd) (.present (month_fits month) (.present (year_fits hy) .nil))))) .nil))
  · simp only [h]
    exact .object (.present (word_fits (w := "date") (by simp)) (.present (.one (.text ht)) .nil))

theorem time_value {env : TextEnv} {hour minute second : SEI UInt8} (hh : Below 32 hour) (hm : Below 64 minute)
    (hs : Below 64 second) :
    Conforms valueShape ((temporalValue "time".toList .invalid .invalid .invalid (some hour) (some minute) (some second)).doc env) := by
  refine .other (.other (.other (.other (.one ?_))))
  have iso : temporalIso .invalid .invalid .invalid (some hour) (some minute) (some second) "time".toList = none ∨
      ∃ t, temporalIso .invalid .invalid .invalid (some hour) (some minute) (some second) "time".toList = some t ∧ IsTime t := by
    unfold temporalIso
    rw [if_neg (by decide), if_pos rfl]
    cases hour with
    | single h => cases minute with
      | single m => cases second with
        | single s => exact .inr ⟨_, rfl, time_is (hh h rfl) (hm m rfl) (hs s rfl)⟩
        | _ => exact .inl rfl
      | _ => exact .inl rfl
    | _ => exact .inl rfl
  unfold temporalValue
  rcases iso with h | ⟨t, h, ht⟩
  · simp only [h]
    exact .object (.present (word_fits (w := "time") (by simp)) (.present (.other (.object
      (.present (part_below hh) (.present (part_below hm) (.present (part_below hs) .nil))))) .nil))
  · simp only [h]
    exact .object (.present (word_fits (w := "time") (by simp)) (.present (.one (.text ht)) .nil))

theorem zero_seconds {h m : UInt8} (h1 : h.toNat < 32) (h2 : m.toNat < 64) :
    IsTime (padNat 2 h.toNat ++ ':' :: (padNat 2 m.toNat ++ ":00".toList)) :=
  time_is (s := 0) h1 h2 (by decide)

theorem dateTime_value {env : TextEnv} {day : SEI UInt8} {month : SEI Month} {year : SEI UInt16} {hour minute : SEI UInt8}
    {second : Option (SEI UInt8)} (hd : Below 32 day) (hy : ∀ y, year = .single y → y.toNat < 128) (hh : Below 32 hour)
    (hm : Below 64 minute) (hs : ∀ s, second = some s → Below 64 s) :
    Conforms valueShape ((temporalValue "datetime".toList day month year (some hour) (some minute) second).doc env) := by
  refine .other (.other (.other (.other (.other (.one ?_)))))
  have iso : temporalIso day month year (some hour) (some minute) second "datetime".toList = none ∨
      ∃ t, temporalIso day month year (some hour) (some minute) second "datetime".toList = some t ∧ IsDateTime t := by
    unfold temporalIso
    rw [if_neg (by decide), if_neg (by decide)]
    cases hsec : second.bind SEI.toSingle with
    | none =>
      simp only
      cases year with
      | single y => cases month with
        | single m => cases day with
          | single d => cases hour with
            | single h => cases minute with
              | single mi =>
                exact .inr ⟨_, rfl, _, _, date_is (m := m) (hd d rfl) (hy y rfl), zero_seconds (hh h rfl) (hm mi rfl), by simp⟩
              | _ => exact .inl rfl
            | _ => exact .inl rfl
          | _ => exact .inl rfl
        | _ => exact .inl rfl
      | _ => exact .inl rfl
    | some s =>
      have hs' : s.toNat < 64 := by
        cases second with
        | none => cases hsec
        | some x => cases x with
          | single a => cases hsec; exact hs _ rfl _ rfl
          | _ => cases hsec
      simp only
      cases year with
      | single y => cases month with
        | single m => cases day with
          | single d => cases hour with
            | single h => cases minute with
              | single mi =>
                exact .inr ⟨_, rfl, _, _, date_is (m := m) (hd d rfl) (hy y rfl), time_is (hh h rfl) (hm mi rfl) hs', by simp⟩
              | _ => exact .inl rfl
            | _ => exact .inl rfl
          | _ => exact .inl rfl
        | _ => exact .inl rfl
      | _ => exact .inl rfl
  unfold temporalValue
  rcases iso with h | ⟨t, h, ht⟩
  · simp only [h]
    refine .object (.present (word_fits (w := "datetime") (by simp)) (.present (.other ?_) .nil))
    cases second with
    | none =>
      exact .object (.present (part_below hd) (.present (part_below hh) (.present (part_below hm)
        (.present (month_fits month) (.missing (.present (year_fits hy) .nil))))))
    | some s =>
      exact .object (.present (part_below hd) (.present (part_below hh) (.present (part_below hm)
        (.present (month_fits month) (.present (part_below (hs s rfl)) (.present (year_fits hy) .nil))))))
  · simp only [h]
    exact .object (.present (word_fits (w := "datetime") (by simp)) (.present (.one (.text ht)) .nil))

theorem float_fits {env : TextEnv} (henv : ∀ bits, FiniteReal bits → NumberText (env.realText bits)) (bits : UInt32) :
    Conforms (.either .real (.word ["nan", "positive_infinity", "negative_infinity"])) ((floatJson bits).doc env) := by
  have hp := floatJson_plain bits
  unfold floatJson at hp ⊢
  split
  · exact .other (word_fits (w := "nan") (by simp))
  rename_i h1
  rw [if_neg h1] at hp
  split
  · exact .other (word_fits (w := "positive_infinity") (by simp))
  rename_i h2
  rw [if_neg h2] at hp
  split
  · exact .other (word_fits (w := "negative_infinity") (by simp))
  rename_i h3
  rw [if_neg h3] at hp
  exact .one (.number (henv bits hp))

/-- The value of every record that is read has one of the documented shapes. -/
theorem value_fits {cfg : Cfg} {lsb : Bool} {data : List UInt8} {r : DataRecord} {env : TextEnv}
    (henv : ∀ bits, FiniteReal bits → NumberText (env.realText bits)) (h : DataRecord.parse cfg lsb data = .ok r) :
    Conforms valueShape ((valueOutput r).doc env) := by
  obtain ⟨-, rest, di, -, hdi, hd, -⟩ := (record_ok cfg lsb data r).1 h
  have hpos := parse_possible hd
  have number : ∀ v : F64, Possible (di.coding = .real32) (.number v) →
      Conforms valueShape (ValueOutput.doc env (if r.header.processed.dataInfo.any (fun i => i.coding = .real32) then
        ⟨"float".toList, match v with
          | .real32 bits => some (floatJson bits)
          | .int _ | .negZero => none⟩
      else ⟨"decimal".toList, some (.str (scaledDecimal ((exactSignificand r v).getD (formatF64 v))
        ((r.header.processed.valueInfo.map ValueInfo.scale).getD 0) (recordOffsetPower10 r)))⟩)) := by
    intro v hv
    rw [hdi]
    rcases hv with ⟨h1, bits, rfl⟩ | ⟨h1, h2⟩
    · rw [if_pos (by simp [h1])]
      exact .other (.one (.object (.present (word_fits (w := "float") (by simp)) (.present (float_fits henv bits) .nil))))
    · rw [if_neg (by simp [h1])]
      obtain ⟨i, hi⟩ := significand_denotes (r := r) h2
      exact .one (.object (.present (word_fits (w := "decimal") (by simp)) (.present
        (.text ⟨_, C46_value _ i _ _ hi⟩) .nil)))
  unfold valueOutput
  simp only
  split
  · rename_i v hv; exact number v (hpos _ hv)
  · rename_i v hv; exact number v (hpos (.lossyNumber v) hv)
  · exact .other (.other (.one (.object (.present (word_fits (w := "text") (by simp)) (.present (any_fits _) .nil)))))
  · rename_i hv
    obtain ⟨h1, h2⟩ := hpos _ hv
    exact date_value h1 h2
  · rename_i hv
    obtain ⟨h1, h2, h3⟩ := hpos _ hv
    exact time_value h3 h2 h1
  · rename_i hv
    obtain ⟨h1, h2, h3, h4⟩ := hpos _ hv
    exact dateTime_value h1 h2 h3 h4 (by simp)
  · rename_i hv
    obtain ⟨h1, h2, h3, h4, h5⟩ := hpos _ hv
    exact dateTime_value h1 h2 h3 h4 (by rintro s ⟨⟩; exact h5)
  · exact .other (.other (.other (.other (.other (.other (.object (.present
      (word_fits (w := "manufacturer_specific") (by simp)) .nil)))))))
  · exact .other (.other (.other (.other (.other (.other (.object (.present (word_fits (w := "none") (by simp)) .nil)))))))

/-! ## Records and headers -/

theorem function_word (di : DataInfo) (hr : di.coding ≠ .specialFunctions .reserved) :
    ∃ w ∈ functionWords, (match di.coding with
      | .specialFunctions f => specialFunctionName f
      | _ => recordFunctionName di.functionField) = w.toList := by
  have key : ∀ f : FunctionField, ∃ w ∈ functionWords, recordFunctionName f = w.toList := by
    intro f; cases f <;> decide +kernel
  cases hc : di.coding with
  | specialFunctions f => cases f <;> first | exact absurd hc hr | (show ∃ w ∈ functionWords, specialFunctionName _ = w.toList; decide +kernel)
  | _ => exact key _

theorem coding_word (c : Coding) (hr : c ≠ .specialFunctions .reserved) : ∃ w ∈ codingWords, dataCodingName c = w.toList := by
  cases c with
  | specialFunctions f => cases f <;> first | exact absurd rfl hr | decide +kernel
  | _ => decide +kernel

theorem record_fits {cfg : Cfg} {lsb : Bool} {data : List UInt8} {r : DataRecord} {env : TextEnv} (i : Nat)
    (henv : ∀ bits, FiniteReal bits → NumberText (env.realText bits)) (h : DataRecord.parse cfg lsb data = .ok r) :
    Conforms recordShape ((recordOutput i r).doc env) := by
  obtain ⟨-, rest, di, -, hdi, hd, -⟩ := (record_ok cfg lsb data r).1 h
  have hr : di.coding ≠ .specialFunctions .reserved := by intro hc; rw [hc] at hd; cases hd
  have hv := value_fits henv h
  unfold recordOutput RecordOutput.doc
  rw [hdi]
  refine fits_object ?_
  simp only [List.append_assoc]
  refine fits_field (natural_fits _) (fits_field (.text (function_word di hr)) (fits_field (natural_fits _)
    (fits_field (natural_fits _) (fits_field (natural_fits _) (fits_field (.list (each_fits fun a _ => any_fits a))
    (fits_field hv (fits_opt (fun a _ => any_fits a) (fits_field (.text (coding_word _ hr))
    (fits_field (bytes_fits _) (fits_field (bytes_fits _) .nil))))))))))

theorem next_parsed (cfg : Cfg) (s s' : DataRecords) (r : DataRecord) (h : s.next cfg = (some (.ok r), s')) :
    ∃ lsb data, DataRecord.parse cfg lsb data = .ok r := by
  fun_induction DataRecords.next cfg s
  all_goals first
    | (rename_i ih; exact ih h)
    | (simp only [Prod.mk.injEq, Option.some.injEq, reduceCtorEq, false_and] at h; done)
    | (simp only [Prod.mk.injEq, Option.some.injEq, Res.ok.injEq] at h
       first
         | exact ⟨_, _, h.1⟩
         | (obtain ⟨rfl, -⟩ := h; exact ⟨_, _, by assumption⟩))

theorem collect_parsed (cfg : Cfg) (s : DataRecords) (r : DataRecord) (h : .ok r ∈ s.collect cfg) :
    ∃ lsb data, DataRecord.parse cfg lsb data = .ok r := by
  have key : ∀ n (s : DataRecords), some (.ok r) ∈ DataRecords.calls cfg n s →
      ∃ lsb data, DataRecord.parse cfg lsb data = .ok r := by
    intro n
    induction n with
    | zero => intro s h; cases h
    | succ n ih =>
      intro s h
      unfold DataRecords.calls at h
      split at h
      · simp at h
      · rename_i x s' _ hx
        rcases List.mem_cons.1 h with rfl | h
        · exact next_parsed cfg s s' r hx
        · exact ih s' h
  unfold DataRecords.collect at h
  obtain ⟨x, hx, hr⟩ := List.mem_filterMap.1 h
  simp only [id_eq] at hr
  subst hr
  exact key _ _ (List.takeWhile_subset _ hx)

theorem collected_fits {cfg : Cfg} {records : Option DataRecords} {outs : List DataRecord} {err : Option (Nat × RecordError)}
    {env : TextEnv} (henv : ∀ bits, FiniteReal bits → NumberText (env.realText bits))
    (h : collectRecords cfg records = some (outs, err)) :
    Conforms (.list recordShape) (.arr ((recordOutputs outs).map (RecordOutput.doc env))) := by
  refine .list (each_fits ?_)
  intro o ho
  simp only [recordOutputs, List.mem_map, Prod.exists] at ho
  obtain ⟨r, i, hm, rfl⟩ := ho
  have hr : r ∈ outs := by
    have := List.mem_zipIdx hm
    exact this.2.2 ▸ List.getElem_mem _
  cases records with
  | none => cases h; cases hr
  | some s =>
    obtain ⟨t, h1, -⟩ := collected h
    have hm : .ok r ∈ s.collect cfg := by rw [h1]; simp [hr]
    obtain ⟨lsb, data, hp⟩ := collect_parsed cfg s r hm
    exact record_fits i henv hp

theorem wired_frame_fits (f : WiredFrame) : Conforms wiredFrameShape (wiredFrameOutput f).1.doc := by
  cases f with
  | longFrame =>
    exact .one (.object (.present (word_fits (w := "long") (by simp)) (.present (any_fits _) (.present (any_fits _) .nil))))
  | controlFrame =>
    exact .one (.object (.present (word_fits (w := "control") (by simp)) (.present (any_fits _) (.present (any_fits _) .nil))))
  | shortFrame =>
    exact .one (.object (.present (word_fits (w := "short") (by simp)) (.present (any_fits _) (.present (any_fits _) .nil))))
  | singleCharacter => exact .other (.object (.present (word_fits (w := "single_character") (by simp)) .nil))

theorem wireless_frame_fits (f : WirelessFrame) : Conforms wirelessFrameShape (wirelessFrameOutput f).doc := by
  unfold wirelessFrameOutput FrameOutput.doc
  cases f.function with
  | none => exact .object (.present (word_fits (w := "wireless") (by simp)) (.missing (.present (hexCount_fits [_]) .nil)))
  | some g =>
    exact .object (.present (word_fits (w := "wireless") (by simp)) (.present (any_fits _) (.present (hexCount_fits [_]) .nil)))

theorem link_fits (id : ManufacturerId) : Conforms identityShape (identityFromWireless id).doc :=
  .one (.object (.present (word_fits (w := "link.wireless") (by simp)) (.present (id_fits _) (.present (any_fits _)
    (.present (byte_fits _) (.present (any_fits _) (.present (byte_fits _) .nil)))))))

theorem long_fits (header : LongTplHeader) : Conforms identityShape (identityFromLong header).doc := by
  refine .one ?_
  unfold identityFromLong MeterIdentity.doc
  refine fits_object ?_
  simp only [List.append_assoc]
  exact fits_field (word_fits (w := "tpl.long") (by simp)) (.present (id_fits _) (fits_opt (fun a _ => any_fits a)
    (.present (byte_fits _) (.present (any_fits _) (.present (byte_fits _) .nil)))))

theorem ell_fits (e : ExtendedLinkLayer) : Conforms ellShape (ellOutput e).doc := by
  unfold ellOutput EllOutput.doc
  refine fits_object ?_
  simp only [List.append_assoc]
  refine fits_field (hexCount_fits [_]) (fits_field (byte_fits _) (fits_opt ?_ (fits_opt ?_ (fits_opt ?_ (fits_opt ?_ .nil)))))
  all_goals (intro a ha; obtain ⟨x, -, rfl⟩ := Option.map_eq_some_iff.1 ha)
  · exact hex4_fits _
  · exact hex_fits _
  · exact hex_fits _
  · exact hex4_fits _

theorem meter_fits {identity : Option MeterIdentity} {others : List MeterIdentity} (h : ∀ i, identity = some i → Conforms identityShape i.doc)
    (h' : ∀ i ∈ others, Conforms identityShape i.doc) : Conforms meterShape (MeterOutput.mk identity others).doc := by
  unfold MeterOutput.doc
  exact fits_object (by
    simp only [List.append_assoc]
    exact fits_opt h (fits_vec h' .nil))

theorem transport_fits {t : TransportOutput} (h1 : ∀ k, t.headerKind = some k → ∃ w ∈ ["long_tpl", "short_tpl", "ell", "none", "fixed", "application_reset"], k = w.toList)
    (h2 : ∀ a ∈ t.accessNumbers, ∃ w ∈ ["tpl.long", "tpl.short", "ell", "application.fixed"], a.1 = w.toList)
    (h3 : ∀ a ∈ t.statuses, (∃ w ∈ ["tpl.long", "tpl.short", "ell", "application.fixed"], a.source = w.toList) ∧
      ∃ b, a.raw = hexString [b])
    (h4 : ∀ a, t.configuration = some a → (∃ w ∈ ["tpl.long", "tpl.short", "ell", "application.fixed"], a.1 = w.toList) ∧
      ∃ n, a.2 = hex4 n)
    (h5 : ∀ e, t.ell = some e → ∃ l, e = ellOutput l) : Conforms transportShape t.doc := by
  unfold TransportOutput.doc
  refine fits_object ?_
  simp only [List.append_assoc]
  refine fits_opt (fun k hk => .text (h1 k hk)) (fits_vec (fun a ha => ?_) (fits_vec (fun a ha => ?_)
    (fits_opt (fun a ha => ?_) (fits_opt (fun e he => ?_) .nil))))
  · exact .object (.present (.text (h2 a ha)) (.present (byte_fits _) .nil))
  · obtain ⟨hs, b, hb⟩ := h3 a ha
    refine .object (.present (.text hs) (.present ?_ (.present (any_fits _) .nil)))
    rw [hb]; exact hexCount_fits [b]
  · obtain ⟨hs, n, hn⟩ := h4 a ha
    refine .object (.present (.text hs) (.present ?_ .nil))
    rw [hn]; exact hex4_fits n
  · obtain ⟨l, rfl⟩ := h5 e he
    exact ell_fits l

/-- The meter and the transport layer have the documented shapes. -/
theorem header_fits (userData : Option UserDataBlock) (link : Option ManufacturerId) :
    Conforms meterShape (meterAndTransport userData link).1.doc ∧ Conforms transportShape (meterAndTransport userData link).2.doc := by
  have hl : ∀ i, link.map identityFromWireless = some i → Conforms identityShape i.doc := by
    intro i hi
    obtain ⟨x, -, rfl⟩ := Option.map_eq_some_iff.1 hi
    exact link_fits x
  have he : ∀ (x : Option ExtendedLinkLayer) e, x.map ellOutput = some e → ∃ l, e = ellOutput l := by
    intro x e h
    obtain ⟨l, -, rfl⟩ := Option.map_eq_some_iff.1 h
    exact ⟨l, rfl⟩
  unfold meterAndTransport
  split
  · rename_i ell header _
    refine ⟨meter_fits (by rintro i ⟨⟩; exact long_fits header) ?_, transport_fits ?_ ?_ ?_ ?_ (he ell)⟩
    · intro i hi
      split at hi
      · rename_i l hx
        split at hi
        · rw [List.mem_singleton] at hi; subst hi; exact hl i hx
        · cases hi
      · cases hi
    · rintro k ⟨⟩; exact ⟨"long_tpl", by simp, rfl⟩
    · simp [addShortTransport, TransportOutput.empty]
    · simp [addShortTransport, TransportOutput.empty]
      exact ⟨_, rfl⟩
    · rintro a ⟨⟩; exact ⟨⟨"tpl.long", by simp, rfl⟩, _, rfl⟩
  · rename_i ell header _
    simp only
    split
    · cases ell with
      | none => rename_i h; simp at h
      | some e =>
        refine ⟨meter_fits hl (by simp), transport_fits ?_ ?_ ?_ ?_ (he (some e))⟩
        · rintro k ⟨⟩; exact ⟨"ell", by simp, rfl⟩
        · simp [TransportOutput.empty]
        · simp [TransportOutput.empty]
        · rintro a ⟨⟩
    · refine ⟨meter_fits hl (by simp), transport_fits ?_ ?_ ?_ ?_ (he ell)⟩
      · rintro k ⟨⟩; exact ⟨"short_tpl", by simp, rfl⟩
      · simp [addShortTransport, TransportOutput.empty]
      · simp [addShortTransport, TransportOutput.empty]
        exact ⟨_, rfl⟩
      · rintro a ⟨⟩; exact ⟨⟨"tpl.short", by simp, rfl⟩, _, rfl⟩
  · rename_i ell _
    cases ell with
    | none =>
      refine ⟨meter_fits hl (by simp), transport_fits ?_ ?_ ?_ ?_ ?_⟩
      · rintro k ⟨⟩; exact ⟨"none", by simp, rfl⟩
      all_goals simp [TransportOutput.empty]
    | some e =>
      refine ⟨meter_fits hl (by simp), transport_fits ?_ ?_ ?_ ?_ ?_⟩
      · rintro k ⟨⟩; exact ⟨"ell", by simp, rfl⟩
      · simp [TransportOutput.empty]
      · simp [TransportOutput.empty]
      · simp [TransportOutput.empty]
      · rintro x ⟨⟩; exact ⟨e, rfl⟩
  · refine ⟨meter_fits ?_ (by simp), transport_fits ?_ ?_ ?_ ?_ ?_⟩
    · rintro i ⟨⟩
      exact .other (.object (.present (word_fits (w := "application.fixed") (by simp)) (.present (id_fits _)
        (.present (any_fits _) .nil))))
    · rintro k ⟨⟩; exact ⟨"fixed", by simp, rfl⟩
    · simp
    · simp
      exact ⟨_, rfl⟩
    all_goals simp [TransportOutput.empty]
  · refine ⟨meter_fits hl (by simp), transport_fits ?_ ?_ ?_ ?_ ?_⟩
    · rintro k ⟨⟩; exact ⟨"application_reset", by simp, rfl⟩
    all_goals simp [TransportOutput.empty]
  · refine ⟨meter_fits hl (by simp), transport_fits ?_ ?_ ?_ ?_ ?_⟩
    all_goals simp [TransportOutput.empty]

/-! ## The whole telegram -/

theorem security_states {aes : AesBlock} {userData : Option UserDataBlock} {link : Option ManufacturerId} {key : Option (List UInt8)}
    {output : List UInt8} {c : SecurityContext} (h : prepareSecurity aes userData link key output = .ok c) :
    (c.encrypted = false ∧ c.ellEncrypted = false ∧ c.decrypted = false ∧ c.decryptedPayload = none) ∨
    (c.encrypted = true ∧ userData.isSome ∧ c.decrypted = false ∧ c.decryptedPayload = none) ∨
    (c.encrypted = true ∧ userData.isSome ∧ c.decrypted = true ∧ ∃ p, c.decryptedPayload = some p) := by
  have fields : (securityFields userData).1 = false → (securityFields userData).2.2 = false := by
    unfold securityFields
    split
    · intro _; rfl
    · simp only
      split
      · intro h; cases h
      · rename_i ell header _ hn
        intro hf
        simp only [Bool.and_eq_true, not_and] at hn
        by_contra hc
        simp only [Bool.not_eq_false] at hc
        have := hn hc
        simp_all
    · intro _; rfl
  unfold prepareSecurity at h
  generalize hs : securityFields userData = f at h fields
  obtain ⟨encrypted, mode, ell⟩ := f
  simp only at h fields
  split at h
  · cases h; exact .inl ⟨rfl, fields rfl, rfl, rfl⟩
  · cases hs
  · split at h
    · cases h; exact .inr (.inl ⟨rfl, rfl, rfl, rfl⟩)
    · split at h
      · cases h
      · split at h
        · split at h
          · cases h; exact .inr (.inr ⟨rfl, rfl, rfl, _, rfl⟩)
          · cases h
        · cases h
        · cases h

theorem diagnostics_fit {applicationError : Option AppError} {c : SecurityContext} {recordError : Option (Nat × RecordError)} :
    ∀ d ∈ (applicationError.map applicationDiagnostic).toList ++ (securityDiagnostics c ++ (recordError.map recordDiagnostic).toList),
      Conforms diagnosticShape d.doc := by
  intro d hd
  simp only [List.mem_append, Option.mem_toList, Option.map_eq_some_iff] at hd
  obtain ⟨e, -, rfl⟩ | hd | ⟨e, -, rfl⟩ := hd
  · exact .one (.object (.present (word_fits (w := "warning") (by simp)) (.present (word_fits (w := "application.partial") (by simp))
      (.present (word_fits (w := "application") (by simp)) (.present (any_fits _) .nil)))))
  · unfold securityDiagnostics at hd
    split at hd
    · rw [List.mem_singleton] at hd; subst hd
      exact .other (.other (.one (.object (.present (word_fits (w := "warning") (by simp))
        (.present (word_fits (w := "security.key_missing") (by simp)) (.present (word_fits (w := "security") (by simp))
        (.present (any_fits _) .nil)))))))
    · split at hd
      · rw [List.mem_singleton] at hd; subst hd
        exact .other (.other (.other (.object (.present (word_fits (w := "info") (by simp))
          (.present (word_fits (w := "security.decrypted_unverified") (by simp)) (.present (word_fits (w := "security") (by simp))
          (.present (any_fits _) .nil)))))))
      · split at hd
        · rw [List.mem_singleton] at hd; subst hd
          exact .other (.other (.other (.object (.present (word_fits (w := "info") (by simp))
            (.present (word_fits (w := "security.key_unused") (by simp)) (.present (word_fits (w := "security") (by simp))
            (.present (any_fits _) .nil)))))))
        · cases hd
  · exact .other (.one (.object (.present (word_fits (w := "warning") (by simp))
      (.present (word_fits (w := "application.record_partial") (by simp)) (.present (word_fits (w := "application") (by simp))
      (.present (any_fits _) (.present (natural_fits _) .nil)))))))

theorem finish_fits {F : Type} {w : String} {s : Schema} {cfg : Cfg} {aes : AesBlock} {protocol : List Char} {frame : FrameOutput}
    {data normalized : List UInt8} {stripped : Bool} {payload : Option (List UInt8)} {parsed : MbusData F}
    {link : Option ManufacturerId} {options : DecodeOptions} {o : DecodedOutput} {env : TextEnv}
    (henv : ∀ bits, FiniteReal bits → NumberText (env.realText bits))
    (hprotocol : protocol = w.toList) (hframe : Conforms s frame.doc)
    (hpayload : parsed.userData.isSome → payload.isSome)
    (h : finish cfg aes protocol frame data normalized stripped payload parsed link options = .ok o) :
    o.raw.input = none ∧ ∀ input, Conforms (telegramOf w s) (DecodedOutput.doc env { o with raw := { o.raw with input := input } }) := by
  unfold finish at h
  cases hc : prepareSecurity aes parsed.userData link options.key (List.replicate 512 0) with
  | panic => rw [hc] at h; cases h
  | err e => rw [hc] at h; cases h
  | ok c =>
    rw [hc] at h
    simp only [buildOutput] at h
    rcases hcol : collectRecords cfg (recordsToShow parsed c) with _ | ⟨outs, err⟩
    · simp [hcol] at h
    · simp only [hcol] at h
      cases h
      refine ⟨rfl, fun input => ?_⟩
      have hs := security_states hc
      have hh := header_fits parsed.userData link
      unfold DecodedOutput.doc
      refine fits_object ?_
      simp only [List.append_assoc]
      refine fits_field (.number rfl) (fits_field ?_ (fits_field (.text ⟨w, by simp, hprotocol⟩) (fits_field hframe (fits_field hh.1
        (fits_field hh.2 (fits_field ?_ (fits_field (collected_fits henv hcol) (fits_field ?_
        (fits_field (.list (each_fits diagnostics_fit)) (fits_opt ?_ .nil))))))))))
      · split
        · exact word_fits (w := "partial") (by simp)
        · exact word_fits (w := "complete") (by simp)
      · rcases hs with ⟨h1, h2, h3, h4⟩ | ⟨h1, h2, h3, h4⟩ | ⟨h1, h2, h3, p, h4⟩
        · refine .one ?_
          simp only [h1, h2, h4, Bool.false_eq_true, if_false, Bool.not_false, if_true, Option.map_none]
          unfold SecurityOutput.doc
          refine fits_object ?_
          simp only [List.append_assoc]
          refine fits_field (word_fits (w := "cleartext") (by simp)) (fits_opt (fun a _ => any_fits a)
            (fits_opt (fun a _ => byte_fits a) (fits_field (word_fits (w := "not_applicable") (by simp)) (fits_field (.flag _) .nil))))
        · refine .other (.one ?_)
          obtain ⟨b, hb⟩ := Option.isSome_iff_exists.1 (hpayload h2)
          simp only [h1, h3, h4, hb, Bool.false_eq_true, if_false, Bool.not_true, if_true, Option.map_none, Option.map_some]
          unfold SecurityOutput.doc
          refine fits_object ?_
          simp only [List.append_assoc]
          refine fits_field (word_fits (w := "encrypted") (by simp)) (fits_opt (fun a _ => any_fits a)
            (fits_opt (fun a _ => byte_fits a) (fits_field (word_fits (w := "key_missing") (by simp)) (fits_field (.flag _)
            (.present (hex_fits _) .nil)))))
        · refine .other (.other ?_)
          obtain ⟨b, hb⟩ := Option.isSome_iff_exists.1 (hpayload h2)
          simp only [h1, h3, h4, hb, Bool.false_eq_true, if_false, Bool.not_true, if_true, Option.map_some]
          unfold SecurityOutput.doc
          refine fits_object ?_
          simp only [List.append_assoc]
          refine fits_field (word_fits (w := "encrypted") (by simp)) (fits_opt (fun a _ => any_fits a)
            (fits_opt (fun a _ => byte_fits a) (fits_field (word_fits (w := "decrypted_unverified") (by simp)) (fits_field (.flag _)
            (.present (hex_fits _) (.present (hex_fits _) .nil))))))
      · unfold RawOutput.doc
        refine fits_object ?_
        simp only [List.append_assoc]
        refine fits_opt (fun a _ => any_fits a) (fits_field (hex_fits _) (fits_field (hex_fits _) (fits_field (natural_fits _)
          (fits_field (.flag _) (fits_opt ?_ .nil)))))
        intro a ha
        obtain ⟨x, -, rfl⟩ := Option.map_eq_some_iff.1 ha
        exact hex_fits x
      · intro e he
        split at he
        · obtain ⟨code, -, hcode⟩ := Option.bind_eq_some_iff.1 he
          unfold enrichmentFor at hcode
          obtain ⟨info, -, rfl⟩ := Option.map_eq_some_iff.1 hcode
          exact .object (.present (word_fits (w := "bundled_manufacturer_registry") (by simp)) (.present (any_fits _)
            (.present (any_fits _) (.present (any_fits _) (.present (any_fits _) .nil)))))
        · cases he

/-- Every decoded telegram has the documented shape, with and without the input it was read from. -/
theorem telegram_fits {cfg : Cfg} {env : TextEnv} {aes : AesBlock} {data : List UInt8} {options : DecodeOptions} {o : DecodedOutput}
    (henv : ∀ bits, FiniteReal bits → NumberText (env.realText bits)) (h : decodeBytes cfg aes data options = .ok o) :
    o.raw.input = none ∧ ∀ input, Conforms telegramShape (DecodedOutput.doc env { o with raw := { o.raw with input := input } }) := by
  have := decoding cfg aes data options
  rw [h] at this
  generalize hr : (Res.ok o : Res OutputError DecodedOutput) = r at this
  cases this with
  | empty => cases hr
  | crash => cases hr
  | wired g m _ ht hg hm =>
    have hp : m.userData.isSome → (wiredFrameOutput g).2.isSome := by
      intro hu
      subst hg
      unfold MbusData.tryFromWired at hm
      rw [Res.bind_eq_ok] at hm
      obtain ⟨f, hf, hm⟩ := hm
      cases f with
      | longFrame fn a p =>
        have : m.frame = .longFrame fn a p := by
          simp only [MbusData.ofPayload] at hm
          split at hm <;> (cases hm; try rfl)
        rw [this]; rfl
      | _ => cases hm; cases hu
    obtain ⟨h1, h2⟩ := finish_fits (w := "wired") henv rfl (wired_frame_fits g) hp hr.symm
    exact ⟨h1, fun input => .one (h2 input)⟩
  | wireless f m frame =>
    obtain ⟨h1, h2⟩ := finish_fits (w := "wireless") henv rfl (wireless_frame_fits f) (fun _ => rfl) hr.symm
    exact ⟨h1, fun input => .other (h2 input)⟩
  | neither => cases hr

end MBus
