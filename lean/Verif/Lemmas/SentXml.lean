import Verif.Spec.SentXml
import Verif.Lemmas.Sent
import Verif.Props.XmlNames
import Verif.Props.XmlFloat
/-!
# Lemmas for C136: what a meter sends, in the XML report
-/
namespace MBus
open MBus.Spec MBus.Spec.Xml MBus.Xml

/-! ## Values -/

/-- The decoded value of a field. -/
def xmlField (env : XmlEnv) : MBus.Spec.Content → DecodedValue F64
  | .number v => .real (F64.ofInt v)
  | .real bits => .real (.real32 (UInt32.ofNat bits))
  | .text t => .str (env.lossy (utf8 t))
  | .date day month year => .str (isoDate (2000 + year) month day)
  | .dateTime day month year hour minute second =>
    .str (isoDate (2000 + year) month day ++ ['T'] ++ isoTime hour minute (second.getD 0) ++ ['Z'])
  | .nothing => .str []

theorem decode_field {code : Nat} {content : MBus.Spec.Content} {field : List UInt8} (h : Field 7 code content field)
    (env : XmlEnv) (dif vif : UInt8) (vife : Option UInt8) (hc : dif.toNat % 16 = code) (h8 : code ≠ 8)
    (h13 : code = 13 → ∃ t, content = .text t) (hd : vif.toNat % 128 = 0x6C ↔ ∃ d m y, content = .date d m y)
    (hdt : (vif &&& 0x7F = 0x6D ∨ (vif = 0xFD ∧ vife.map (· &&& 0x7F) = some 0x30) ∨
      (vif = 0xFD ∧ vife.map (· &&& 0x7F) = some 0x70)) ↔ ∃ a b c d e f, content = .dateTime a b c d e f) :
    variableValueDecode env dif vif vife field = some (xmlField env content) := by
  have hnib : ∀ k : UInt8, k.toNat = code → dif &&& 0x0F = k := by
    intro k hk
    apply UInt8.toNat_inj.1
    rw [← nibble_nat, hc, hk]
  have h6c : (∀ d m y, content ≠ .date d m y) → ¬ vif &&& 0x7F = 0x6C := by
    intro h1 h2
    rw [low7 _ _ (by decide)] at h2
    obtain ⟨d, m, y, h3⟩ := hd.1 h2
    exact h1 d m y h3
  have whole : ∀ n (l : List UInt8), l.length = n → sliceTo? l n = some l := by
    intro n l hl
    have := sliceTo_take l n (by omega)
    rwa [← hl, List.take_length, hl] at this
  cases h with
  | binary _ n v h1 h2 h3 =>
    have hv : n ≤ 8 → n ≠ 0 → intDecode (encodeLe n v) = F64.ofInt v := by
      intro hn h0
      rw [intDecode_eq _ (by intro h; have := congrArg List.length h; simp [encodeLe_length] at this; omega)
        (by rw [encodeLe_length]; exact hn), twosComplement_encodeLe n v h2 h3]
      rfl
    have hs := whole n (encodeLe n v) (encodeLe_length n v)
    have hdt := fun h => (show ¬ ∃ a b c d e f, MBus.Spec.Content.number v = .dateTime a b c d e f by simp) (hdt.1 h)
    simp only [binaryFields, List.mem_cons, List.not_mem_nil, or_false, Prod.mk.injEq] at h1
    unfold variableValueDecode
    rcases h1 with ⟨rfl, rfl⟩ | ⟨rfl, rfl⟩ | ⟨rfl, rfl⟩ | ⟨rfl, rfl⟩ | ⟨rfl, rfl⟩ | ⟨rfl, rfl⟩
    · rw [hnib 1 rfl]; simp (config := { decide := true }) only [if_true, if_false, hs, Option.map_some, xmlField]; rw [hv (by decide) (by decide)]
    · rw [hnib 2 rfl]; simp (config := { decide := true }) only [if_true, if_false, if_neg (h6c (by simp)), hs, Option.map_some, xmlField]; rw [hv (by decide) (by decide)]
    · rw [hnib 3 rfl]; simp (config := { decide := true }) only [if_true, if_false, hs, Option.map_some, xmlField]; rw [hv (by decide) (by decide)]
    · rw [hnib 4 rfl]; simp (config := { decide := true }) only [if_true, if_false, if_neg hdt, hs, Option.map_some, xmlField]; rw [hv (by decide) (by decide)]
    · rw [hnib 6 rfl]; simp (config := { decide := true }) only [if_true, if_false, if_neg hdt, hs, Option.map_some, xmlField]; rw [hv (by decide) (by decide)]
    · rw [hnib 7 rfl]; simp (config := { decide := true }) only [if_true, if_false, hs, Option.map_some, xmlField]; rw [hv (by decide) (by decide)]
  | bcd _ n v h1 h2 =>
    have hv : n ≤ 6 → bcdDecode (encodeBcd n v) = F64.ofInt v := by
      intro hn
      have hlt : v < 2 ^ 53 := by
        have : 100 ^ n ≤ 100 ^ 6 := Nat.pow_le_pow_right (by omega) hn
        omega
      rw [bcdDecode_eq _ (encodeBcd_isBcd n v) (by rw [encodeBcd_length]; exact hn), bcdValue_encodeBcd,
        Nat.mod_eq_of_lt h2, F64.ofInt, roundF64_small v (by simpa using hlt.le)]
    have hs := whole n (encodeBcd n v) (encodeBcd_length n v)
    simp only [bcdFields, List.mem_cons, List.not_mem_nil, or_false, Prod.mk.injEq] at h1
    unfold variableValueDecode
    rcases h1 with ⟨rfl, rfl⟩ | ⟨rfl, rfl⟩ | ⟨rfl, rfl⟩ | ⟨rfl, rfl⟩ | ⟨rfl, rfl⟩
    · rw [hnib 9 rfl]; simp (config := { decide := true }) only [if_true, if_false, hs, Option.map_some, xmlField]; rw [hv (by decide)]
    · rw [hnib 10 rfl]; simp (config := { decide := true }) only [if_true, if_false, hs, Option.map_some, xmlField]; rw [hv (by decide)]
    · rw [hnib 11 rfl]; simp (config := { decide := true }) only [if_true, if_false, hs, Option.map_some, xmlField]; rw [hv (by decide)]
    · rw [hnib 12 rfl]; simp (config := { decide := true }) only [if_true, if_false, hs, Option.map_some, xmlField]; rw [hv (by decide)]
    · rw [hnib 14 rfl]; simp (config := { decide := true }) only [if_true, if_false, hs, Option.map_some, xmlField]; rw [hv (by decide)]
  | variableBinary n v h1 h2 h3 h4 => obtain ⟨t, h⟩ := h13 rfl; cases h
  | variableBcd n v h1 h2 => obtain ⟨t, h⟩ := h13 rfl; cases h
  | variableNegative n v h1 h2 => obtain ⟨t, h⟩ := h13 rfl; cases h
  | text t h1 =>
    have hle : UInt8.ofNat (utf8 t).length ≤ 0xBF := by
      rw [UInt8.le_iff_toNat_le, UInt8.toNat_ofNat', show (0xBF : UInt8).toNat = 191 from rfl]
      omega
    unfold variableValueDecode
    rw [hnib 13 rfl]
    simp (config := { decide := true }) only [if_true, if_false, if_pos hle, strDecode, List.reverse_reverse, xmlField]
  | real bits h1 =>
    have hv := leValue_encodeLe 4 bits
    unfold variableValueDecode
    rw [hnib 5 rfl]
    have hs := whole 4 (encodeLe 4 bits) (encodeLe_length 4 bits)
    have key : ∀ l : List UInt8, l.length = 4 → leValue l = bits → sliceTo? l 4 = some l →
        (match sliceTo? l 4 with
        | some [b0, b1, b2, b3] => some (DecodedValue.real (F64.real32 (b0.toUInt32 ||| (b1.toUInt32 <<< 8) ||| (b2.toUInt32 <<< 16)
          ||| (b3.toUInt32 <<< 24))))
        | _ => none) = some (.real (.real32 (UInt32.ofNat bits))) := by
      intro l hl hv hs
      rw [hs]
      match l, hl with
      | [b0, b1, b2, b3], _ =>
        simp only [Option.some.injEq, DecodedValue.real.injEq, F64.real32.injEq]
        rw [← hv]
        obtain ⟨b, h1, h2⟩ := C23_real32 cfgDebug false b0 b1 b2 b3 []
        have h3 : b0.toUInt32 ||| (b1.toUInt32 <<< 8) ||| (b2.toUInt32 <<< 16) ||| (b3.toUInt32 <<< 24) = b := by
          have h4 : Coding.real32.parse cfgDebug false [b0, b1, b2, b3] = .ok ⟨some (.number (.real32
            (b0.toUInt32 ||| (b1.toUInt32 <<< 8) ||| (b2.toUInt32 <<< 16) ||| (b3.toUInt32 <<< 24)))), 4⟩ := rfl
          rw [h4] at h1
          simpa using h1
        rw [h3, ← h2, UInt32.ofNat_toNat]
    simp (config := { decide := true }) only [if_true, if_false, xmlField]
    exact key _ (encodeLe_length 4 bits) (by omega) hs
  | date day month year h1 h2 h3 =>
    have h6 : vif &&& 0x7F = 0x6C := by rw [low7 _ _ (by decide)]; exact hd.2 ⟨_, _, _, rfl⟩
    unfold variableValueDecode
    rw [hnib 2 rfl]
    simp (config := { decide := true }) only [if_true, if_false, if_pos h6, xmlField]
    exact congrArg (fun t => some (DecodedValue.str t)) (dateG_encode year month day (by omega) (by omega) (by omega))
  | dateTime day month year hour minute h1 h2 h3 h4 h5 =>
    unfold variableValueDecode
    rw [hnib 4 rfl]
    simp (config := { decide := true }) only [if_true, if_false, if_pos (hdt.2 ⟨_, _, _, _, _, _, rfl⟩), xmlField]
    exact congrArg (fun t => some (DecodedValue.str t))
      (dateF_encode false year month day hour minute (by omega) (by omega) (by omega) (by omega) (by omega))
  | dateTimeSeconds day month year hour minute second week h1 h2 h3 h4 h5 h6 =>
    unfold variableValueDecode
    rw [hnib 6 rfl]
    simp (config := { decide := true }) only [if_true, if_false, if_pos (hdt.2 ⟨_, _, _, _, _, _, rfl⟩), xmlField]
    exact congrArg (fun t => some (DecodedValue.str t))
      (dateI_encode false year month day hour minute second (by omega) (by omega) (by omega) (by omega) (by omega)
        (by omega))
  | nothing =>
    unfold variableValueDecode
    rw [hnib 0 rfl]
    rfl
  | selection => exact absurd rfl h8

/-! ## Units and names -/

def amountGood (e : ValueInfo) (unit : List Char) (factor : Rat) : Bool :=
  if e.units = [] then (xmlUnit (String.ofList unit)).isNone && factor == ten e.scale
  else match libraryQuantity e.scale e.units, xmlUnit (String.ofList unit) with
    | some a, some us => a.same ⟨factor * (product 1 us).factor, (product 1 us).dim⟩
    | _, _ => false

def correctionExponent : Correction → Option Int
  | .none => some 0
  | .times k => some k
  | .plus _ => none

/-- The XML output shows named codes with their name and unit. -/
def codesGood (c : Nat) (rest : List Nat) : Bool :=
  match codeMeanings (c :: rest) with
  | none => true
  | some es =>
    match reportName (total es) with
    | none => true
    | some name =>
      match vibUnit (vibOf c rest).vif (codeBytes rest) none, ValueInfo.tryFrom (vibOf c rest),
        correctionExponent (vifeCorrection (vibOf c rest).vif (codeBytes rest)) with
      | some (u, f, q), .ok v, some k =>
        q == name.toList && blanked u == u && blanked q == q && f.mantissa != 0 && c != 0x7C &&
        (c != 0x7D || rest != [0x30]) &&
        (if c = 0x6C then decide (ValueLabel.date ∈ v.labels) else if c = 0x6D then
          decide (ValueLabel.dateTime ∈ v.labels ∧ ValueLabel.date ∉ v.labels) else dateLabels.all (fun l => l ∉ v.labels)) &&
        amountGood (total es) u (f.mantissa * ten f.exponent * ten k)
      | _, _, _ => false

def powerCodes : List Nat := [0x70, 0x71, 0x72, 0x73, 0x74, 0x75, 0x76, 0x77, 0x7D]

theorem codesGood_one : ∀ c : Fin 128, codesGood c.val [] = true := by decide +kernel

theorem codesGood_main : ∀ c : Fin 128, codesGood 0x7D [c.val] = true := by decide +kernel

theorem codesGood_alternate : ∀ c : Fin 128, c.val ∉ [0x08, 0x09, 0x0C, 0x0D, 0x0E, 0x0F, 0x20, 0x30, 0x31, 0x79] →
    codesGood 0x7B [c.val] = true := by decide +kernel

theorem codesGood_power : ∀ c : Fin 128, c.val ∉ [0x6C, 0x6D, 0x7B, 0x7D] →
    ∀ k ∈ powerCodes, codesGood c.val [k] = true := by decide +kernel

theorem codesGood_of (codes : List Nat) (c : Nat) (rest : List Nat) (hc : codes = c :: rest) (h : reportCodes codes = true)
    (hl : ∀ x ∈ codes, x < 128) : codesGood c rest = true ∧ rest.length ≤ 10 ∧ (c = 0x6C → rest = []) ∧
      (c = 0x6D → rest = []) ∧ (c = 0x7D → rest = [] ∨ ∃ d, rest = [d]) := by
  subst hc
  unfold reportCodes at h
  split at h
  · rename_i d heq
    injection heq with h1 h2
    subst h1 h2
    have := codesGood_alternate ⟨d, hl d (by simp)⟩ (by simpa using h)
    exact ⟨this, by simp, by simp, by simp, by simp⟩
  · rename_i d heq
    injection heq with h1 h2
    subst h1 h2
    have := codesGood_main ⟨d, hl d (by simp)⟩
    exact ⟨this, by simp, by simp, by simp, fun _ => .inr ⟨d, rfl⟩⟩
  · rename_i d heq
    injection heq with h1 h2
    subst h1 h2
    have := codesGood_one ⟨c, hl c (by simp)⟩
    exact ⟨this, by simp, by simp, by simp, by simp⟩
  · rename_i d k h1 h2 heq
    injection heq with h3 h4
    subst h3 h4
    simp only [List.mem_cons, List.not_mem_nil, or_false, decide_eq_true_eq, Bool.decide_and, Bool.and_eq_true] at h
    obtain ⟨h3, h4⟩ := h
    have h5 : c ≠ 0x7B := by rintro rfl; exact h1 rfl
    have h6 : c ≠ 0x7D := by rintro rfl; exact h2 rfl
    have := codesGood_power ⟨c, hl c (by simp)⟩ (by simp; omega) k (by unfold powerCodes; simp; omega)
    exact ⟨this, by simp, by omega, by omega, by omega⟩
  · cases h

theorem ten_eq (e : Int) : (ten e : ℚ) = 10 ^ e := by
  unfold ten
  split
  · obtain ⟨n, hn⟩ : ∃ n : Nat, e = -n := ⟨e.natAbs, by omega⟩
    subst hn
    simp
  · obtain ⟨n, rfl⟩ : ∃ n : Nat, e = n := ⟨e.natAbs, by omega⟩
    simp

theorem amountGood_spec (e : ValueInfo) (u : List Char) (factor : ℚ) (h : amountGood e u factor = true) :
    UnitShown e u ∧ ∀ sent, SameAmount e u sent (sent * factor) := by
  unfold amountGood at h
  unfold UnitShown SameAmount
  split at h
  · rename_i hu
    simp only [Bool.and_eq_true, Option.isNone_iff_eq_none, beq_iff_eq] at h
    rw [if_pos hu]
    refine ⟨h.1, fun sent => ?_⟩
    rw [if_pos hu, h.2, ten_eq]
  · rename_i hu
    rw [if_neg hu]
    split at h
    · rename_i a us h1 h2
      simp only [Quantity.same, Bool.and_eq_true, beq_iff_eq, List.all_eq_true] at h
      have hall : ∀ x : Base, x ∈ Base.all := by intro x; cases x <;> decide
      refine ⟨⟨a, us, h1, h2, fun x => (h.2 x (hall x)).symm⟩, fun sent => ?_⟩
      rw [if_neg hu]
      refine ⟨a, us, h1, h2, ?_⟩
      rw [h.1]
      ring
    · cases h

theorem codesGood_spec (c : Nat) (rest : List Nat) (es : List Effect) (name : String)
    (h : codesGood c rest = true) (he : codeMeanings (c :: rest) = some es) (hn : reportName (total es) = some name) :
    c ≠ 0x7C ∧ (c = 0x7D → rest ≠ [0x30]) ∧ ∃ u f v k, vibUnit (vibOf c rest).vif (codeBytes rest) none = some (u, f, name.toList) ∧
      ValueInfo.tryFrom (vibOf c rest) = .ok v ∧
      correctionExponent (vifeCorrection (vibOf c rest).vif (codeBytes rest)) = some k ∧
      (∀ cd, dateCoding v.labels cd = if c = 0x6C then .dateTypeG else if c = 0x6D then
        (if cd = .integer48 then .dateTimeTypeI else .dateTimeTypeF) else cd) ∧
      blanked u = u ∧ blanked name.toList = name.toList ∧ f.mantissa ≠ 0 ∧ UnitShown (total es) u ∧
      ∀ sent, SameAmount (total es) u sent (sent * (factorValue f * 10 ^ k)) := by
  unfold codesGood at h
  rw [he] at h
  simp only [hn] at h
  split at h
  · rename_i u f q v k h1 h2 h3
    simp only [Bool.and_eq_true, beq_iff_eq, bne_iff_ne, ne_eq] at h
    obtain ⟨⟨⟨⟨⟨⟨⟨g1, g2⟩, g3⟩, g4⟩, g5⟩, g0⟩, g6⟩, g7⟩ := h
    subst g1
    obtain ⟨g8, g9⟩ := amountGood_spec _ _ _ g7
    refine ⟨g5, fun hc => by simpa [hc] using g0, u, f, v, k, h1, h2, h3, ?_, g2, g3, g4, g8, fun sent => ?_⟩
    · intro cd
      split at g6
      · rename_i hc
        simp only [decide_eq_true_eq] at g6
        rw [if_pos hc]
        unfold dateCoding
        rw [if_pos g6]
      · rename_i hc
        rw [if_neg hc]
        split at g6
        · rename_i hc
          simp only [decide_eq_true_eq] at g6
          rw [if_pos hc]
          unfold dateCoding
          rw [if_neg g6.2, if_pos g6.1]
        rename_i hc
        rw [if_neg hc]
        simp only [List.all_eq_true, decide_eq_true_eq] at g6
        unfold dateCoding
        rw [if_neg (g6 _ (by decide)), if_neg (g6 _ (by decide)), if_neg (g6 _ (by decide)), if_neg (g6 _ (by decide))]
    · have := g9 sent
      rwa [ten_eq, ten_eq, ← show factorValue f = f.mantissa * 10 ^ f.exponent from rfl] at this
  · cases h

theorem meant_of (v : ℚ) (f : Factor) (c : Correction) (k : Int) (h : correctionExponent c = some k) :
    meant v f c = v * (factorValue f * 10 ^ k) ∧ magnitude v f c = |v * (factorValue f * 10 ^ k)| := by
  cases c with
  | none => cases h; simp [meant, magnitude]
  | times n => cases h; simp [meant, magnitude, mul_assoc]
  | plus n => cases h

theorem fixedDigits_blanked (k n : Nat) : ∀ c ∈ fixedDigits k n, ¬ isControl c := by
  induction k generalizing n with
  | zero => simp [fixedDigits]
  | succ k ih =>
    intro c hc
    simp only [fixedDigits, List.mem_append, List.mem_singleton] at hc
    rcases hc with hc | hc
    · exact ih _ c hc
    · subst hc
      have key : ∀ d : Fin 10, ¬ isControl (Char.ofNat (48 + d.val)) := by decide +kernel
      exact key ⟨n % 10, by omega⟩

theorem blanked_plain (t : List Char) (h : ∀ c ∈ t, ¬ isControl c) : blanked t = t := by
  unfold blanked
  conv_rhs => rw [← List.map_id t]
  apply List.map_congr_left
  intro c hc
  rw [if_neg (h c hc)]
  rfl

theorem date_noControl (y m d : Nat) : ∀ c ∈ isoDate y m d, ¬ isControl c := by
  intro c hc
  simp only [isoDate, List.mem_append, List.mem_singleton] at hc
  rcases hc with (((hc | hc) | hc) | hc) | hc
  · exact fixedDigits_blanked _ _ c hc
  · subst hc; decide
  · exact fixedDigits_blanked _ _ c hc
  · subst hc; decide
  · exact fixedDigits_blanked _ _ c hc

theorem dateTime_noControl (y mo d h mi s : Nat) :
    ∀ c ∈ isoDate y mo d ++ ['T'] ++ isoTime h mi s ++ ['Z'], ¬ isControl c := by
  intro c hc
  simp only [List.mem_append, List.mem_singleton, isoTime] at hc
  rcases hc with ((hc | hc) | (((hc | hc) | hc) | hc) | hc) | hc
  · exact date_noControl _ _ _ c hc
  · subst hc; decide
  · exact fixedDigits_blanked _ _ c hc
  · subst hc; decide
  · exact fixedDigits_blanked _ _ c hc
  · subst hc; decide
  · exact fixedDigits_blanked _ _ c hc
  · subst hc; decide

/-- The text of a value. -/
theorem reportValue_shown (env : XmlEnv) (hf : env.fmt6 = shownNumber) (hl : ∀ t, env.lossy (utf8 t) = t) (e : ValueInfo)
    (u : List Char) (f : Factor) (c : Correction) (k : Int) (hk : correctionExponent c = some k)
    (hm : f.mantissa ≠ 0) (hs : ∀ sent, SameAmount e u sent (sent * (factorValue f * 10 ^ k)))
    (content : MBus.Spec.Content) (hb : ∀ bits, content = .real bits → bits < 2 ^ 32) :
    ValueShown e u content (valueText env (shownValue f c (xmlField env content))) := by
  cases content with
  | number v =>
    obtain ⟨m1, m2⟩ := meant_of v f c k hk
    refine ⟨_, hs v, ?_⟩
    simp only [xmlField, shownValue, valueText, hf, NumberShown]
    by_cases hx : |(v : ℚ)| ≤ 2 ^ 53 ∧ |(v : ℚ) * (factorValue f * 10 ^ k)| ≤ 10 ^ 9 ∧
        ∃ j : Int, (v : ℚ) * (factorValue f * 10 ^ k) = j / 10 ^ 6
    · obtain ⟨x1, x2, j, x3⟩ := hx
      have := C135_exact ⟨F64.ofInt v, f, c⟩ v rfl ?_ (by rw [m2]; exact x2) j (by rw [m1]; exact x3)
      · simp only [m1] at this
        refine ⟨_, this, ?_, fun _ _ _ => rfl⟩
        simp only [sub_self, abs_zero]
        positivity
      · have h1 : ((v.natAbs : Nat) : ℚ) ≤ 2 ^ 53 := by rw [Nat.cast_natAbs]; push_cast; exact x1
        exact_mod_cast h1
    · obtain ⟨q, h1, h2⟩ := C135_integer ⟨F64.ofInt v, f, c⟩ v rfl
      simp only [m1, m2] at h2
      exact ⟨q, h1, h2, fun a b c => absurd ⟨a, b, c⟩ hx⟩
  | real bits =>
    have hbits : (UInt32.ofNat bits).toNat = bits := by
      rw [UInt32.toNat_ofNat']; exact Nat.mod_eq_of_lt (hb bits rfl)
    simp only [xmlField, shownValue, valueText, hf, ValueShown]
    by_cases hsp : bits / 2 ^ 23 % 256 = 255
    · rw [if_pos hsp]
      have := C135_special ⟨.real32 (UInt32.ofNat bits), f, c⟩ _ rfl (by rw [hbits]; exact hsp) hm
      rw [hbits] at this
      rw [this]
      split <;> [rfl; split <;> rfl]
    · rw [if_neg hsp]
      have hsp' : (UInt32.ofNat bits).toNat / 2 ^ 23 % 256 ≠ 255 := by rw [hbits]; exact hsp
      obtain ⟨m1, m2⟩ := meant_of (realValue bits) f c k hk
      refine ⟨_, hs _, ?_⟩
      by_cases hx : |realValue bits * (factorValue f * 10 ^ k)| ≤ 10 ^ 9 ∧
        ∃ j : Int, realValue bits * (factorValue f * 10 ^ k) = j / 10 ^ 6
      · obtain ⟨x2, j, x3⟩ := hx
        have := C135_exact_real ⟨.real32 (UInt32.ofNat bits), f, c⟩ _ rfl hsp' (by rw [hbits, m2]; exact x2) j
          (by rw [hbits, m1]; exact x3)
        rw [hbits] at this
        simp only [m1] at this
        refine ⟨_, this, ?_, fun _ _ => rfl⟩
        simp only [sub_self, abs_zero]
        positivity
      · obtain ⟨q, h1, h2⟩ := C135_real ⟨.real32 (UInt32.ofNat bits), f, c⟩ _ rfl hsp'
        rw [hbits] at h2
        simp only [m1, m2] at h2
        exact ⟨q, h1, h2, fun a b => absurd ⟨a, b⟩ hx⟩
  | text t => simp only [xmlField, shownValue, valueText, ValueShown, hl]
  | date day month year =>
    simp only [xmlField, shownValue, valueText, ValueShown]
    exact blanked_plain _ (date_noControl _ _ _)
  | dateTime day month year hour minute second =>
    simp only [xmlField, shownValue, valueText, ValueShown]
    exact blanked_plain _ (dateTime_noControl _ _ _ _ _ _)
  | nothing => rfl

/-! ## Records -/

/-- The record of a reading is read with the headers and data it was sent with. -/
theorem sent_record (cfg : Cfg) (r : MeterReading) (dif : UInt8) (record s : List UInt8) (h : Sent 7 r (dif :: record))
    (c : Nat) (rest : List Nat) (hcr : r.codes = c :: rest) (v : ValueInfo)
    (hv : ValueInfo.tryFrom (vibOf c rest) = .ok v)
    (hnd : ∀ cd, dateCoding v.labels cd = if c = 0x6C then .dateTypeG else if c = 0x6D then
      (if cd = .integer48 then .dateTimeTypeI else .dateTimeTypeF) else cd) (hc7 : c ≠ 0x7C)
    (hl : rest.length ≤ 10) (hdate : c = 0x6C ↔ ∃ day month year, r.content = .date day month year)
    (htime : c = 0x6D → ∃ day month year hour minute second, r.content = .dateTime day month year hour minute second) :
    ∃ rec n code field, DataRecord.parse cfg false ((dif :: record) ++ s) = .ok rec ∧ rec.rawBytes = dif :: record ∧
      r.storage < 2 * 16 ^ n ∧ r.tariff < 4 ^ n ∧ r.subunit < 2 ^ n ∧
      rec.header.raw = ⟨⟨dif, if n = 0 then none else some (difeBytes n (r.storage / 2) r.tariff r.subunit)⟩,
        some (vibOf c rest)⟩ ∧
      Field 7 code r.content field ∧ dif.toNat % 16 = code ∧ dif.toNat / 16 % 4 = r.function ∧
      dif.toNat / 64 % 2 = r.storage % 2 ∧ (∀ x ∈ r.codes, x < 128) ∧ r.function < 4 ∧ code ≤ 14 ∧
      sliceFrom? rec.rawBytes rec.header.size = some field := by
  generalize hbs : dif :: record = bytes at h
  cases h with
  | record n code field h1 h2 h3 h4 h5 h6 h7 h8 =>
  have h7' := h7
  rw [hcr] at h7
  have hcode := field_code h8
  generalize hdn : code + 16 * r.function + 64 * (r.storage % 2) = dn at hbs ⊢
  have hdn' : dn < 128 := by omega
  have hdif : (UInt8.ofNat (dn + (if n = 0 then 0 else 128))).toNat = dn + (if n = 0 then 0 else 128) := by
    rw [UInt8.toNat_ofNat']; split <;> omega
  injection hbs with hdifb hrec
  subst hrec
  rw [← hdifb] at hdif ⊢
  have hmod : dif.toNat % 16 = code ∧ dif.toNat / 16 % 4 = r.function ∧ dif.toNat / 64 % 2 = r.storage % 2 := by
    rw [hdif]; split <;> omega
  let tail : List UInt8 := codeBytes (c :: rest) ++ (field ++ s)
  let dib : DIB := ⟨dif, if n = 0 then none else some (difeBytes n (r.storage / 2) r.tariff r.subunit)⟩
  let raw : RawHeader := ⟨dib, some (vibOf c rest)⟩
  have hdib : DIB.tryFrom (dif :: (difeBytes n (r.storage / 2) r.tariff r.subunit ++ tail)) = .ok dib := by
    rw [hdifb]; simpa [dib, hdifb] using dib_sent n dn (r.storage / 2) r.tariff r.subunit tail h2 hdn'
  have hhb : headerBytes cfg.plaintextFirst raw =
      dif :: (difeBytes n (r.storage / 2) r.tariff r.subunit ++ codeBytes (c :: rest)) := by
    simp only [headerBytes, raw, dib, difeBytes_getD, codeBytes_cons, vibOf, textBytes]
    cases hr : rest with
    | nil => simp [codeBytes]
    | cons a b => simp
  have hsz : dib.size = 1 + n := by
    rw [dib_size]; simp [dibBytes, dib, difeBytes_getD, difeBytes_length]; omega
  have hraw : RawHeader.tryFrom cfg (dif :: (difeBytes n (r.storage / 2) r.tariff r.subunit ++ tail)) = .ok raw := by
    unfold RawHeader.tryFrom
    rw [hdib]
    have hsp : isSpecialFunction dif = false := by
      rw [Bool.eq_false_iff, ne_eq, special_iff]; omega
    have hsl : sliceFrom? (dif :: (difeBytes n (r.storage / 2) r.tariff r.subunit ++ tail)) dib.size = some tail := by
      rw [hsz, sliceFrom?_length _ _ (by simp [difeBytes_length]; omega), Nat.add_comm 1 n, List.drop_succ_cons,
        List.drop_left' (difeBytes_length ..)]
    have hvib := vib_sent cfg c rest (field ++ s) h7 hc7 hl
    simp only [Res.mapErr_ok, Res.bind_ok, show dib.dif = dif from rfl, hsp, Bool.not_false, if_true, hsl,
      Res.ofOption_some, tail, hvib]
    rfl
  obtain ⟨di, hdi, d1, d2, d3, d4, d5, d6⟩ := dataInfo_ok dib (by simp [dib, difeBytes_getD, difeBytes_length]; omega)
  have hcoding : codings[code]? = some di.coding := by
    rw [d5, ← hmod.1]; exact codingOf_codings dif (by omega)
  let di' : DataInfo := { di with coding := dateCoding v.labels di.coding }
  have hcoding' : CodingOf r.content code di'.coding := by
    simp only [di', hnd]
    unfold CodingOf
    split
    · rename_i heq
      rw [if_pos (hdate.2 ⟨_, _, _, heq⟩)]
    · rename_i heq
      have h4 : code = 4 := by rw [heq] at h8; cases h8; rfl
      subst h4
      have hi : di.coding = .integer32 := by simpa [codings] using hcoding.symm
      rw [hi, if_neg (by intro hc; obtain ⟨_, _, _, h⟩ := hdate.1 hc; rw [heq] at h; cases h)]
      split
      · left; rfl
      · right; rfl
    · rename_i heq
      have h6 : code = 6 := by rw [heq] at h8; cases h8; rfl
      subst h6
      have hi : di.coding = .integer48 := by simpa [codings] using hcoding.symm
      rw [hi, if_neg (by intro hc; obtain ⟨_, _, _, h⟩ := hdate.1 hc; rw [heq] at h; cases h)]
      split
      · left; rfl
      · right; rfl
    · rename_i hno hno1 hno2
      rw [if_neg ?_, if_neg ?_]
      · exact hcoding
      · intro hc
        obtain ⟨a, b, y, h, m, s, heq⟩ := htime hc
        cases s with
        | none => exact hno1 _ _ _ _ _ heq
        | some => exact hno2 _ _ _ _ _ _ heq
      · intro hc
        obtain ⟨a, b, y, heq⟩ := hdate.1 hc
        exact hno _ _ _ heq
  let processed : ProcessedHeader := ⟨some di', some v⟩
  have hproc : ProcessedHeader.tryFrom raw = .ok processed := by
    unfold ProcessedHeader.tryFrom
    simp only [raw, hv, hdi, Res.mapErr_ok, Res.bind_ok, processed, di']
  obtain ⟨d, hd, hdsz⟩ := field_coding h8 di'.coding hcoding' cfg s
  let rec' : DataRecord := ⟨⟨raw, processed⟩, d, headerBytes cfg.plaintextFirst raw ++ field⟩
  have hdata : dif :: (difeBytes n (r.storage / 2) r.tariff r.subunit ++ tail) =
      headerBytes cfg.plaintextFirst raw ++ (field ++ s) := by rw [hhb]; simp [tail]
  have hparse : DataRecord.parse cfg false (dif :: (difeBytes n (r.storage / 2) r.tariff r.subunit ++ tail)) = .ok rec' := by
    rw [record_ok]
    refine ⟨?_, field ++ s, di', hdata, rfl, hd, ?_⟩
    · unfold RecordHeader.tryFrom
      rw [hraw, Res.bind_ok, hproc]
      rfl
    · simp only [rec', hdsz, List.take_left']
  refine ⟨rec', n, code, field, ?_, ?_, h3, h4, h5, rfl, h8, hmod.1, hmod.2.1, hmod.2.2, h7', h1, hcode, ?_⟩
  · rw [← hparse, hcr]; simp [tail]
  · simp only [rec', hhb, hcr]; simp
  · have hdb : rec'.dataBytes = field := by
      obtain ⟨_, e1, e2, _, _⟩ := C29_raw_bytes cfg false _ rec' hparse
      rw [e2] at e1
      exact List.append_cancel_left e1
    obtain ⟨_, _, -, -, -, hsl⟩ := dataBytes_eq cfg false _ rec' hparse
    rw [hsl, hdb]

theorem noNon_of_small (t : List Char) (h : ∀ c ∈ t, c.toNat < 128) : noNon t := by
  intro c hc
  have := h c hc
  constructor <;> omega

theorem fixedDigits_small : ∀ k n, ∀ c ∈ fixedDigits k n, c.toNat < 128 := by
  intro k
  induction k with
  | zero => simp [fixedDigits]
  | succ k ih =>
    intro n c hc
    simp only [fixedDigits, List.mem_append, List.mem_singleton] at hc
    rcases hc with hc | hc
    · exact ih _ c hc
    · subst hc
      have key : ∀ d : Fin 10, (Char.ofNat (48 + d.val)).toNat < 128 := by decide +kernel
      exact key ⟨n % 10, by omega⟩

theorem date_small (y m d : Nat) : noNon (isoDate y m d) := by
  have dig := fixedDigits_small
  apply noNon_of_small
  intro c hc
  simp only [isoDate, List.mem_append, List.mem_singleton] at hc
  rcases hc with (((hc | hc) | hc) | hc) | hc
  · exact dig _ _ c hc
  · subst hc; decide
  · exact dig _ _ c hc
  · subst hc; decide
  · exact dig _ _ c hc

theorem dateTime_small (y mo d h mi s : Nat) : noNon (isoDate y mo d ++ ['T'] ++ isoTime h mi s ++ ['Z']) := by
  intro c hc
  simp only [List.mem_append, List.mem_singleton, isoTime] at hc
  have tail := fun k n => noNon_of_small _ (fixedDigits_small k n)
  rcases hc with ((hc | hc) | (((hc | hc) | hc) | hc) | hc) | hc
  · exact date_small _ _ _ c hc
  · subst hc; decide
  · exact tail _ _ c hc
  · subst hc; decide
  · exact tail _ _ c hc
  · subst hc; decide
  · exact tail _ _ c hc
  · subst hc; decide

/-- The record of a reading in the report. -/
theorem sent_reported (cfg : Cfg) (env : XmlEnv) (hf : env.fmt6 = shownNumber) (hlo : ∀ t, env.lossy (utf8 t) = t)
    (r : MeterReading) (dif : UInt8) (record s : List UInt8) (h : Sent 7 r (dif :: record)) (h8 : dif.toNat % 16 ≠ 8)
    (h13 : dif.toNat % 16 = 13 → ∃ t, r.content = .text t) (hr : Reportable r) :
    ∃ rec n, DataRecord.parse cfg false ((dif :: record) ++ s) = .ok rec ∧ rec.rawBytes = dif :: record ∧
      dif.toNat % 16 ≠ 15 ∧ normalizeRecord env rec = some n ∧ Reported r (recordElements env n) ∧
      ∀ t, n.value = .str t → noNon t := by
  obtain ⟨r1, ⟨es, name, r2, r3⟩, r4, r6, r5⟩ := hr
  have hne : r.codes ≠ [] := by intro h0; rw [h0] at r1; cases r1
  obtain ⟨c, rest, hcr⟩ := List.exists_cons_of_ne_nil hne
  have hl128 : ∀ x ∈ r.codes, x < 128 := by
    generalize dif :: record = bytes at h
    cases h; assumption
  obtain ⟨g, hl, h6c, h6d, h7d⟩ := codesGood_of r.codes c rest hcr r1 hl128
  rw [hcr] at r2
  obtain ⟨hc7, h30, u, f, v, k, v1, v2, v3, v4, v5, v6, v7, v8, v9⟩ := codesGood_spec c rest es name g r2 r3
  have hdate : c = 0x6C ↔ ∃ day month year, r.content = .date day month year := by
    rw [hcr] at r4; simpa using r4
  obtain ⟨rec, n, code, field, p1, p2, p3, p4, p5, p6, p7, p8, p9, p10, p11, p12, p13, p14⟩ :=
    sent_record cfg r dif record s h c rest hcr v v2 v4 hc7 hl hdate
      (fun hc => r6.1 (.inl (by rw [hcr, hc, h6d hc])))
  have hcl : c < 128 := hl128 c (by rw [hcr]; simp)
  have hvm : (vibOf c rest).vif.toNat % 128 = c := by rw [vibOf_vif c rest hcl]; split <;> omega
  have hdec : variableValueDecode env dif (vibOf c rest).vif (codeBytes rest).head? field = some (xmlField env r.content) := by
    apply decode_field p7 env dif _ _ p8 (by omega) (by intro hc; exact h13 (by omega))
    · rw [hvm]; exact hdate
    · have e7 : ∀ b : UInt8, (b &&& 0x7F).toNat = b.toNat % 128 := by decide +kernel
      have hvif := hvm
      rw [← r6, hcr]
      constructor
      rotate_left
      · rintro (h1 | h1)
        · injection h1 with h1 h2
          left
          rw [low7 _ _ (by decide), hvif, h1]; rfl
        · injection h1 with h1 h2
          subst h1 h2
          right; right
          exact ⟨rfl, rfl⟩
      rintro (h1 | ⟨h1, h2⟩ | ⟨h1, h2⟩)
      · rw [low7 _ _ (by decide), hvif] at h1
        left; rw [show c = 0x6D from h1, h6d h1]
      · rw [h1] at hvif
        have hc : c = 0x7D := by rw [← hvif]; rfl
        rcases h7d hc with rfl | ⟨d, rfl⟩
        · cases h2
        · have hd : d < 128 := hl128 d (by rw [hcr]; simp)
          simp only [codeBytes, List.head?_cons, Option.map_some, Option.some.injEq] at h2
          have := congrArg UInt8.toNat h2
          rw [e7, UInt8.toNat_ofNat'] at this
          exact absurd (by rw [show d = 0x30 by have h3 : (0x30 : UInt8).toNat = 0x30 := rfl; omega]) (h30 hc)
      · rw [h1] at hvif
        have hc : c = 0x7D := by rw [← hvif]; rfl
        rcases h7d hc with rfl | ⟨d, rfl⟩
        · cases h2
        · have hd : d < 128 := hl128 d (by rw [hcr]; simp)
          simp only [codeBytes, List.head?_cons, Option.map_some, Option.some.injEq] at h2
          have := congrArg UInt8.toNat h2
          rw [e7, UInt8.toNat_ofNat'] at this
          right
          rw [hc, show d = 0x70 by have h3 : (0x70 : UInt8).toNat = 0x70 := rfl; omega]
  have hvib : rec.header.raw.vib = some (vibOf c rest) := by rw [p6]
  have hdib : rec.header.raw.dib.dif = dif := by rw [p6]
  have hdifes : rec.header.raw.dib.difes.getD [] = difeBytes n (r.storage / 2) r.tariff r.subunit := by
    rw [p6]; exact difeBytes_getD ..
  have hn := (normalize_parts env rec _ (vibOf c rest) field hvib (by rw [hdib]; omega) p14).2
    ⟨xmlField env r.content, u, f, name.toList, by rw [hdib, vibOf_vifes]; exact hdec, by
      rw [vibOf_vifes, show (vibOf c rest).plaintext = none from rfl]; exact v1, rfl⟩
  have hno := C81_function env rec _ hn
  rw [hdib, hdifes, vibOf_vifes] at hn
  refine ⟨rec, _, p1, p2, by omega, hn, ?_, ?_⟩
  · obtain ⟨n1, n2, n3⟩ := difeBytes_numbers n (r.storage / 2) r.tariff r.subunit
    have hfn : ∃ fn, functionNames[r.function]? = some fn ∧ functionString dif = fn ∧ blanked fn.toList = fn.toList := by
      have key : ∀ b : UInt8, functionNames[b.toNat / 16 % 4]? = some (functionString b) ∧
        blanked (functionString b).toList = (functionString b).toList := by decide +kernel
      rw [← p9]
      exact ⟨_, (key dif).1, rfl, (key dif).2⟩
    obtain ⟨fn, f1, f2, f3⟩ := hfn
    have hst : MBus.Xml.storageNumber dif (difeBytes n (r.storage / 2) r.tariff r.subunit) = r.storage := by
      rw [storageNumber_eq, Spec.storageNumber, n1, p10, Nat.mod_eq_of_lt (show r.storage / 2 < 16 ^ n by omega)]; omega
    have hta : MBus.Xml.tariff (difeBytes n (r.storage / 2) r.tariff r.subunit) = r.tariff := by
      rw [tariff_eq, n2, Nat.mod_eq_of_lt p4]
    have hde : MBus.Xml.device (difeBytes n (r.storage / 2) r.tariff r.subunit) = r.subunit := by
      rw [device_eq, n3, Nat.mod_eq_of_lt p5]
    refine ⟨es, name, fn, u, _, ((if n = 0 then none else some r.tariff).map (fun t =>
        [leaf "Tariff".toList (decimal t), leaf "Device".toList (decimal r.subunit)])).getD [],
      by rw [hcr]; exact r2, r3, f1, v8,
      reportValue_shown env hf hlo (total es) u f _ k v3 v7 v9 r.content ?_, ?_, ?_⟩
    · intro bits hb
      rw [hb] at p7
      cases p7
      assumption
    · by_cases h0 : n = 0
      · left
        subst h0
        exact ⟨rfl, by simpa using p4, by simpa using p5⟩
      · right; rw [if_neg h0]; rfl
    · unfold recordElements
      simp only [hst, hta, hde, v5, v6, f2, f3]
      have he : (difeBytes n (r.storage / 2) r.tariff r.subunit).isEmpty = decide (n = 0) := by
        cases n <;> simp [difeBytes]
      rw [he]
      by_cases h0 : n = 0 <;> simp [h0]
  · intro t ht
    cases hcn : r.content with
    | number => rw [hcn] at ht; cases ht
    | real => rw [hcn] at ht; cases ht
    | text t' => rw [hcn] at ht; simp only [xmlField, shownValue, hlo] at ht; cases ht; exact r5 _ hcn
    | date d m y => rw [hcn] at ht; cases ht; exact date_small _ _ _
    | dateTime => rw [hcn] at ht; cases ht; exact dateTime_small _ _ _ _ _ _
    | nothing => rw [hcn] at ht; cases ht; intro c hc; cases hc

end MBus
