import Verif.Spec.Xml
import Verif.Lemmas.RecordOutput
import Verif.Lemmas.Decimal
import Verif.Lemmas.Record
import Verif.Lemmas.F64
import Verif.Props.DataInfo
/-!
# Lemmas about the values of the XML output
-/
namespace MBus.Xml
open MBus.Spec MBus.Spec.Xml

/-! ## DIFE fields -/

theorem storageLoop_eq (l : List UInt8) (v k : Nat) (h : v < 2 ^ k) :
    storageLoop l v k = v + 2 ^ k * storageBits l := by
  induction l generalizing v k with
  | nil => simp [storageLoop, storageBits]
  | cons d l ih =>
    have hd : (d &&& 0x0F).toNat < 16 := by rw [nib_lo]; omega
    have e : v ||| ((d &&& 0x0F).toNat <<< k) = v + 2 ^ k * (d &&& 0x0F).toNat := or_shift_add _ _ _ h
    rw [storageLoop, e, ih]
    · rw [nib_lo, storageBits, pow_add]; ring
    · rw [pow_add]
      have : 2 ^ k * (d &&& 0x0F).toNat ≤ 2 ^ k * 15 := Nat.mul_le_mul_left _ (by omega)
      omega

theorem tariffLoop_eq (l : List UInt8) (v k : Nat) (h : v < 2 ^ k) :
    tariffLoop l v k = v + 2 ^ k * tariffNumber l := by
  induction l generalizing v k with
  | nil => simp [tariffLoop, tariffNumber]
  | cons d l ih =>
    have hd : ((d &&& 0x30) >>> 4).toNat < 4 := by rw [nib_tariff]; omega
    have e : v ||| (((d &&& 0x30) >>> 4).toNat <<< k) = v + 2 ^ k * ((d &&& 0x30) >>> 4).toNat :=
      or_shift_add _ _ _ h
    rw [tariffLoop, e, ih]
    · rw [nib_tariff, tariffNumber, pow_add]; ring
    · rw [pow_add]
      have : 2 ^ k * ((d &&& 0x30) >>> 4).toNat ≤ 2 ^ k * 3 := Nat.mul_le_mul_left _ (by omega)
      omega

theorem deviceLoop_eq (l : List UInt8) (v k : Nat) (h : v < 2 ^ k) :
    deviceLoop l v k = v + 2 ^ k * subunitNumber l := by
  induction l generalizing v k with
  | nil => simp [deviceLoop, subunitNumber]
  | cons d l ih =>
    have hd : ((d &&& 0x40) >>> 6).toNat < 2 := by rw [nib_bit6]; omega
    have e : v ||| (((d &&& 0x40) >>> 6).toNat <<< k) = v + 2 ^ k * ((d &&& 0x40) >>> 6).toNat :=
      or_shift_add _ _ _ h
    rw [deviceLoop, e, ih]
    · rw [nib_bit6, subunitNumber, pow_add]; ring
    · rw [pow_add]
      have : 2 ^ k * ((d &&& 0x40) >>> 6).toNat ≤ 2 ^ k * 1 := Nat.mul_le_mul_left _ (by omega)
      omega

theorem storageNumber_eq (dif : UInt8) (difes : List UInt8) :
    storageNumber dif difes = Spec.storageNumber dif difes := by
  unfold storageNumber Spec.storageNumber
  rw [storageLoop_eq _ _ _ (by rw [nib_bit6]; omega), nib_bit6]
  omega

theorem tariff_eq (difes : List UInt8) : tariff difes = tariffNumber difes := by
  unfold tariff; rw [tariffLoop_eq _ _ _ (by omega)]; omega

theorem device_eq (difes : List UInt8) : device difes = subunitNumber difes := by
  unfold device; rw [deviceLoop_eq _ _ _ (by omega)]; omega

/-! ## Integers -/

/-- The byte as the integer loop sees it. -/
def seen (neg : Bool) (b : UInt8) : UInt8 := if neg then ~~~ b else b

theorem bmod_small (x : Int) (h0 : 0 ≤ x) (h1 : x < 2 ^ 63) : Int.bmod x (2 ^ 64) = x := by
  apply Int.bmod_eq_of_le <;> norm_num <;> omega

theorem intLoop_eq (neg : Bool) (l : List UInt8) (v : Nat)
    (h : v * 256 ^ l.length + leValue (l.reverse.map (seen neg)) < 2 ^ 63) :
    intLoop neg l v = (v * 256 ^ l.length + leValue (l.reverse.map (seen neg)) : Nat) := by
  induction l generalizing v with
  | nil => simp [intLoop, leValue]
  | cons b l ih =>
    have hx : (if neg then b ^^^ 0xFF else b) = seen neg b := by
      have : ∀ b : UInt8, b ^^^ 0xFF = ~~~ b := by decide +kernel
      unfold seen; rw [this]
    have e : leValue ((b :: l).reverse.map (seen neg)) =
        leValue (l.reverse.map (seen neg)) + 256 ^ l.length * (seen neg b).toNat := by
      rw [List.reverse_cons, List.map_append, unsignedLe_append]
      simp [leValue]
    rw [e] at h ⊢
    have hp : 1 ≤ 256 ^ l.length := Nat.one_le_pow _ _ (by omega)
    have hv : v * 256 + (seen neg b).toNat < 2 ^ 63 := by
      have h2 : (v * 256 + (seen neg b).toNat) * 1 ≤ (v * 256 + (seen neg b).toNat) * 256 ^ l.length :=
        Nat.mul_le_mul_left _ hp
      have h3 : (v * 256 + (seen neg b).toNat) * 256 ^ l.length =
        v * 256 ^ (b :: l).length + 256 ^ l.length * (seen neg b).toNat := by
        rw [List.length_cons, pow_succ]; ring
      omega
    rw [intLoop]
    simp only [hx]
    have e1 : Int.bmod ((v : Int) * 256) (2 ^ 64) = ((v * 256 : Nat) : Int) := by
      rw [bmod_small _ (by omega) (by norm_num; omega)]; push_cast; ring
    have e2 : Int.bmod (((v * 256 : Nat) : Int) + (seen neg b).toNat) (2 ^ 64) =
        ((v * 256 + (seen neg b).toNat : Nat) : Int) := by
      rw [bmod_small _ (by omega) (by norm_num; omega)]; push_cast; ring
    rw [e1, e2, ih]
    · have e3 : (v * 256 + (seen neg b).toNat) * 256 ^ l.length + leValue (l.reverse.map (seen neg)) =
        v * 256 ^ (b :: l).length + (leValue (l.reverse.map (seen neg)) +
          256 ^ l.length * (seen neg b).toNat) := by
        rw [List.length_cons, pow_succ]; ring
      rw [e3]
    · rw [List.length_cons, pow_succ] at h
      calc _ = v * (256 ^ l.length * 256) + (leValue (l.reverse.map (seen neg)) +
          256 ^ l.length * (seen neg b).toNat) := by ring
        _ < _ := h

theorem intDecode_eq (bytes : List UInt8) (hne : bytes ≠ []) (hl : bytes.length ≤ 8) :
    intDecode bytes = .int (roundF64 (twosComplement bytes)) := by
  obtain ⟨last, hlast⟩ : ∃ x, bytes.getLast? = some x := ⟨_, List.getLast?_eq_some_getLast hne⟩
  have hneg := negative_iff bytes last hlast
  have hlt := unsignedLe_lt bytes
  have hp : 256 ^ bytes.length ≤ 2 ^ 64 := by
    calc 256 ^ bytes.length ≤ 256 ^ 8 := Nat.pow_le_pow_right (by omega) hl
      _ = _ := by norm_num
  unfold intDecode F64.ofInt twosComplement
  simp only [hlast, Option.any_some]
  by_cases hn : 2 * leValue bytes < 256 ^ bytes.length
  · have hf : (last &&& 0x80 != 0) = false := by
      rw [Bool.eq_false_iff, ne_eq, hneg]; simp [hn]
    have hm : ∀ l : List UInt8, l.map (seen false) = l := by
      intro l; exact List.map_id l
    have := intLoop_eq false bytes.reverse 0 (by rw [List.reverse_reverse, hm]; omega)
    rw [List.reverse_reverse, hm] at this
    rw [hf, if_pos hn]
    simp only [Nat.cast_zero, zero_mul, zero_add] at this
    simp [this]
  · have ht : (last &&& 0x80 != 0) = true := hneg.2 hn
    have hc := unsignedLe_compl bytes
    have hm : bytes.map (seen true) = bytes.map (~~~ ·) := rfl
    have := intLoop_eq true bytes.reverse 0 (by rw [List.reverse_reverse, hm]; omega)
    rw [List.reverse_reverse, hm] at this
    simp only [Nat.cast_zero, zero_mul, zero_add] at this
    rw [ht, if_neg hn, if_pos rfl, this]
    have h1 : ((256 ^ bytes.length : Nat) : Int) = 256 ^ bytes.length := by push_cast; rfl
    rw [← h1]
    congr 2
    omega

/-! ## BCD -/

theorem bcdLoop_eq (l : List UInt8) (v : Nat) (h : ∀ b ∈ l, IsBcd b) :
    bcdLoop l v = (v * 100 ^ l.length + bcdValue l.reverse : Nat) := by
  have happ : ∀ a b : List UInt8, bcdValue (a ++ b) = bcdValue a + 100 ^ a.length * bcdValue b := by
    intro a b
    induction a with
    | nil => simp [bcdValue]
    | cons x t ih => simp only [List.cons_append, bcdValue, ih, List.length_cons, pow_succ]; ring
  induction l generalizing v with
  | nil => simp [bcdLoop, bcdValue]
  | cons b l ih =>
    have hb : ∀ b : UInt8, IsBcd b → b >>> 4 < 0xA ∧ (b >>> 4).toNat = hi b ∧ (b &&& 0x0F).toNat = lo b := by
      decide +kernel
    obtain ⟨h1, h2, h3⟩ := hb b (h b (by simp))
    rw [bcdLoop, if_pos h1, h2, h3]
    have e : ((v : Int) * 10 + hi b) * 10 + lo b = ((v * 100 + 10 * hi b + lo b : Nat) : Int) := by
      push_cast; ring
    rw [e, ih _ (fun x hx => h x (by simp [hx])), List.reverse_cons, happ]
    congr 1
    simp only [bcdValue, List.length_cons, List.length_reverse, pow_succ]
    ring

theorem bcdDecode_eq (bytes : List UInt8) (h : ∀ b ∈ bytes, IsBcd b) (hl : bytes.length ≤ 6) :
    bcdDecode bytes = .int (bcdValue bytes) := by
  unfold bcdDecode F64.ofInt
  have hlast : bytes.getLast?.any (fun byte : UInt8 => byte >>> 4 == 0xF) = false := by
    cases hg : bytes.getLast? with
    | none => rfl
    | some x =>
      have hx : ∀ b : UInt8, IsBcd b → (b >>> 4 == 0xF) = false := by decide +kernel
      exact hx x (h x (List.mem_of_getLast? hg))
  have e := bcdLoop_eq bytes.reverse 0 (fun b hb => h b (by simpa using hb))
  rw [List.reverse_reverse] at e
  simp only [Nat.cast_zero, zero_mul, zero_add] at e
  simp only [hlast, e, Bool.false_eq_true, if_false]
  rw [roundF64_small]
  have := bcdValue_lt bytes h
  have : 100 ^ bytes.length ≤ 100 ^ 6 := Nat.pow_le_pow_right (by omega) hl
  norm_num at this ⊢
  omega

/-! ## Decoded values -/

theorem sliceTo_take (rest : List UInt8) (n : Nat) (h : n ≤ rest.length) :
    sliceTo? (rest.take n) n = some (rest.take n) := by
  unfold sliceTo?
  rw [if_pos (by simp [h])]
  simp

theorem xml_int (cfg : Cfg) (lsb : Bool) (c : Coding) (n : Nat) (rest : List UInt8) (d : Data) (v : F64)
    (hc : integerWidth c = some n) (hp : c.parse cfg lsb rest = .ok d) (hv : d.value = some (.number v)) :
    (sliceTo? (rest.take d.size) n).map (fun b => DecodedValue.real (intDecode b)) = some (.real v) := by
  rw [C23_integer_value cfg lsb c n rest hc] at hp
  split at hp
  · simp at hp
  · rename_i hl
    cases hp
    have hn : 0 < n ∧ n ≤ 8 := by cases c <;> simp_all [integerWidth] <;> omega
    simp only at hv ⊢
    rw [sliceTo_take _ _ (by omega), Option.map_some, intDecode_eq]
    · injection hv with hv; injection hv with hv; rw [hv]
    · intro he
      have := congrArg List.length he
      rw [List.length_take, List.length_nil] at this; omega
    · simp; omega

theorem xml_bcd (cfg : Cfg) (c : Coding) (n : Nat) (rest : List UInt8) (d : Data) (v : F64)
    (hc : bcdWidth c = some n) (hp : c.parse cfg false rest = .ok d) (hv : d.value = some (.number v)) :
    (sliceTo? (rest.take d.size) n).map (fun b => DecodedValue.real (bcdDecode b)) = some (.real v) := by
  rw [C24_bcd_value cfg false c n rest hc] at hp
  split at hp
  · simp at hp
  · rename_i hl
    split at hp
    · rename_i hb
      cases hp
      have hn : n ≤ 6 := by cases c <;> simp_all [bcdWidth] <;> omega
      simp only [Bool.false_eq_true, if_false] at hv ⊢
      rw [sliceTo_take _ _ (by omega), Option.map_some, bcdDecode_eq _ hb (by simp; omega)]
      injection hv with hv; injection hv with hv; rw [hv]
    · simp at hp

theorem nibble_cases (dif : UInt8) : dif &&& 0x0F ∈
    [0, 1, 2, 3, 4, 5, 6, 7, 8, 9, 10, 11, 12, 13, 14, (15 : UInt8)] := by
  revert dif; decide +kernel

theorem nibble_nat (dif : UInt8) : dif.toNat % 16 = (dif &&& 0x0F).toNat := (nib_lo dif).symm

theorem low7 (b : UInt8) (n : UInt8) (h : n.toNat < 128) : b &&& 0x7F = n ↔ b.toNat % 128 = n.toNat := by
  have key : ∀ b : UInt8, (b &&& 0x7F).toNat = b.toNat % 128 := by decide +kernel
  rw [← key, UInt8.toNat_inj]

theorem dateTime_iff (vif : UInt8) (vife : Option UInt8) :
    (vif &&& 0x7F = 0x6D ∨ (vif = 0xFD ∧ vife.map (· &&& 0x7F) = some 0x30) ∨
      (vif = 0xFD ∧ vife.map (· &&& 0x7F) = some 0x70)) ↔
    (vif.toNat % 128 = 0x6D ∨ (vif = 0xFD ∧ ∃ b, vife = some b ∧
      (b.toNat % 128 = 0x30 ∨ b.toNat % 128 = 0x70))) := by
  have e : ∀ k : UInt8, k.toNat < 128 → (vife.map (· &&& 0x7F) = some k ↔
      ∃ b, vife = some b ∧ b.toNat % 128 = k.toNat) := by
    intro k hk
    cases vife with
    | none => simp
    | some b => simp [low7 b k hk]
  rw [low7 vif 0x6D (by decide), e 0x30 (by decide), e 0x70 (by decide)]
  constructor
  · rintro (h | ⟨h, b, h1, h2⟩ | ⟨h, b, h1, h2⟩)
    · exact Or.inl h
    · exact Or.inr ⟨h, b, h1, Or.inl h2⟩
    · exact Or.inr ⟨h, b, h1, Or.inr h2⟩
  · rintro (h | ⟨h, b, h1, h2 | h2⟩)
    · exact Or.inl h
    · exact Or.inr (Or.inl ⟨h, b, h1, h2⟩)
    · exact Or.inr (Or.inr ⟨h, b, h1, h2⟩)

/-- A number of the library is the number of the XML output, unless that shows a date. -/
theorem decode_number (cfg : Cfg) (env : XmlEnv) (dif vif : UInt8) (vife : Option UInt8)
    (rest : List UInt8) (d : Data) (v : F64) (hd : ¬ showsDate dif vif vife)
    (hl : dif.toNat % 16 ≠ 13) (hp : (codingOf dif).parse cfg false rest = .ok d)
    (hv : d.value = some (.number v)) :
    variableValueDecode env dif vif vife (rest.take d.size) = some (.real v) := by
  have hn := nibble_cases dif
  have hi := fun c n => xml_int cfg false c n rest d v
  have hb := fun c n => xml_bcd cfg c n rest d v
  rw [nibble_nat] at hl
  unfold showsDate at hd
  rw [nibble_nat, ← dateTime_iff] at hd
  simp only [List.mem_cons, List.not_mem_nil, or_false] at hn
  unfold variableValueDecode
  unfold codingOf at hp
  rcases hn with hn | hn | hn | hn | hn | hn | hn | hn | hn | hn | hn | hn | hn | hn | hn | hn <;>
    rw [hn] at hp hl hd ⊢ <;>
    simp (config := { decide := true }) only [if_true, if_false, false_and, true_and, false_or, or_false,
      true_or, or_true] at hp hl hd ⊢
  · cases hp; simp at hv
  · exact hi _ 1 rfl hp hv
  · rw [if_neg (by rw [low7 _ _ (by decide)]; exact hd)]; exact hi _ 2 rfl hp hv
  · exact hi _ 3 rfl hp hv
  · rw [if_neg hd]; exact hi _ 4 rfl hp hv
  · match rest with
    | [] | [_] | [_, _] | [_, _, _] => exact absurd hp (by simp [Coding.parse, byteAt])
    | b0 :: b1 :: b2 :: b3 :: s =>
      cases hp
      injection hv with hv; injection hv with hv
      rw [← hv]; rfl
  · rw [if_neg hd]; exact hi _ 6 rfl hp hv
  · exact hi _ 8 rfl hp hv
  · cases hp; simp at hv
  · exact hb _ 1 rfl hp hv
  · exact hb _ 2 rfl hp hv
  · exact hb _ 3 rfl hp hv
  · exact hb _ 4 rfl hp hv
  · exact hb _ 6 rfl hp hv
  · cases hs : specialFunction dif <;> rw [hs] at hp
    all_goals first
      | (cases hp; simp at hv)
      | simp [Coding.parse] at hp

/-- What the XML output shows as a date is not a number. -/
theorem decode_date (env : XmlEnv) (dif vif : UInt8) (vife : Option UInt8) (data : List UInt8)
    (hd : showsDate dif vif vife) (x : F64) : variableValueDecode env dif vif vife data ≠ some (.real x) := by
  unfold showsDate at hd
  rw [nibble_nat, ← dateTime_iff] at hd
  rcases hd with ⟨h1, h2⟩ | ⟨h1 | h1, h2⟩
  · have h1 : dif &&& 0x0F = 2 := UInt8.toNat_inj.1 h1
    unfold variableValueDecode
    rw [h1]
    simp (config := { decide := true }) only [if_true, if_false]
    rw [if_pos (by rw [low7 _ _ (by decide)]; exact h2)]
    split <;> simp
  · have h1 : dif &&& 0x0F = 4 := UInt8.toNat_inj.1 h1
    unfold variableValueDecode
    rw [h1]
    simp (config := { decide := true }) only [if_true, if_false]
    rw [if_pos h2]
    split <;> simp
  · have h1 : dif &&& 0x0F = 6 := UInt8.toNat_inj.1 h1
    unfold variableValueDecode
    rw [h1]
    simp (config := { decide := true }) only [if_true, if_false]
    rw [if_pos h2]
    split <;> simp

/-- Text and binary data are not shown as a number. -/
theorem decode_lvar (env : XmlEnv) (dif vif : UInt8) (vife : Option UInt8) (data : List UInt8)
    (hd : dif.toNat % 16 = 13) (x : F64) : variableValueDecode env dif vif vife data ≠ some (.real x) := by
  rw [nibble_nat] at hd
  have h1 : dif &&& 0x0F = 13 := UInt8.toNat_inj.1 hd
  unfold variableValueDecode
  rw [h1]
  simp (config := { decide := true }) only [if_true, if_false]
  split
  · simp
  · split <;> simp

/-- A record with a number or text has the coding of its DIF. -/
theorem value_coding (cfg : Cfg) (lsb : Bool) (data : List UInt8) (r : DataRecord)
    (h : DataRecord.parse cfg lsb data = .ok r)
    (hv : (∃ v, r.data.value = some (.number v)) ∨ ∃ t, r.data.value = some (.text t)) :
    ∃ rest vib, r.header.raw.vib = some vib ∧ r.header.raw.dib.dif.toNat % 16 ≠ 15 ∧
      (codingOf r.header.raw.dib.dif).parse cfg lsb rest = .ok r.data ∧
      r.dataBytes = rest.take r.data.size ∧ sliceFrom? r.rawBytes r.header.size = some r.dataBytes := by
  obtain ⟨rest, di, hdi, hp, hb, hs⟩ := dataBytes_eq _ _ _ _ h
  obtain ⟨hd, -⟩ := (record_ok _ _ _ _).mp h
  obtain ⟨hraw, hproc⟩ := recordHeader_ok _ _ _ hd
  obtain ⟨_, hvib, hdib, _⟩ := rawHeader_ok _ _ _ hraw
  have h11 : (r.header.raw.dib.difes.getD []).length ≤ 11 := by
    rcases (dib_ok _ _).mp hdib with ⟨_, _, _, _, hb⟩ | ⟨_, _, _, _, _, _, hl, hb⟩
    · rw [hb]; simp
    · rw [hb]; simpa using hl
  obtain ⟨d0, hd0, _, _, _, _, hc0, _⟩ := dataInfo_ok r.header.raw.dib h11
  unfold ProcessedHeader.tryFrom at hproc
  have hdate : ∀ labels c, dateCoding labels c = .dateTypeG ∨ dateCoding labels c = .dateTimeTypeF ∨
      dateCoding labels c = .dateTimeTypeJ ∨ dateCoding labels c = .dateTimeTypeI ∨
      dateCoding labels c = c := by
    intro labels c
    unfold dateCoding
    split_ifs <;> simp
  cases hvv : r.header.raw.vib with
  | none =>
    have h15 := hvib.1 hvv
    rw [hvv] at hproc
    simp only [(special_iff _).mpr h15, if_true, hd0, Res.mapErr_ok, Res.bind_ok, Res.ok.injEq] at hproc
    rw [← hproc] at hdi
    cases hdi
    rw [hc0] at hp
    exfalso
    have hsp : ∀ b : UInt8, b.toNat % 16 = 15 → codingOf b = .specialFunctions (specialFunction b) := by
      decide +kernel
    rw [hsp _ h15] at hp
    cases hs : specialFunction r.header.raw.dib.dif <;> rw [hs] at hp <;>
      simp only [Coding.parse, Res.ok.injEq, reduceCtorEq] at hp <;> rw [← hp] at hv <;> simp at hv
  | some vib =>
    rw [hvv] at hproc
    simp only [hd0, Res.mapErr_ok, Res.bind_ok, Res.bind_eq_ok, Res.ok.injEq] at hproc
    obtain ⟨vi, _, hproc⟩ := hproc
    rw [← hproc] at hdi
    injection hdi with hdi
    have hdc : di.coding = dateCoding vi.labels (codingOf r.header.raw.dib.dif) := by
      rw [← hdi, ← hc0]
    refine ⟨rest, vib, rfl, fun h15 => ?_, ?_, hb, hs⟩
    · rw [hvib.2 h15] at hvv; cases hvv
    · rw [hdc] at hp
      rcases hdate vi.labels (codingOf r.header.raw.dib.dif) with e | e | e | e | e <;> rw [e] at hp
      all_goals first
        | exact hp
        | (exfalso
           simp only [Coding.parse, Res.bind_eq_ok, Res.ok.injEq] at hp
           obtain ⟨_, _, _, _, hp⟩ := hp
           first
             | (rw [← hp] at hv; simp at hv; done)
             | (obtain ⟨_, _, hp⟩ := hp
                first
                  | (rw [← hp] at hv; simp at hv; done)
                  | (obtain ⟨_, _, hp⟩ := hp
                     first
                       | (rw [← hp] at hv; simp at hv; done)
                       | (obtain ⟨_, _, hp⟩ := hp
                          rw [← hp] at hv; simp at hv))))

theorem number_coding (cfg : Cfg) (lsb : Bool) (data : List UInt8) (r : DataRecord) (v : F64)
    (h : DataRecord.parse cfg lsb data = .ok r) (hv : r.data.value = some (.number v)) :
    ∃ rest vib, r.header.raw.vib = some vib ∧ r.header.raw.dib.dif.toNat % 16 ≠ 15 ∧
      (codingOf r.header.raw.dib.dif).parse cfg lsb rest = .ok r.data ∧
      r.dataBytes = rest.take r.data.size ∧ sliceFrom? r.rawBytes r.header.size = some r.dataBytes :=
  value_coding cfg lsb data r h (Or.inl ⟨v, hv⟩)

/-- The value of a normalized record: the decoded data, with the factor and correction of the VIF. -/
def shownValue (f : Factor) (c : Correction) : DecodedValue F64 → DecodedValue XmlReal
  | .real raw => .real ⟨raw, f, c⟩
  | .str text => .str text

theorem normalize_parts (env : XmlEnv) (r : DataRecord) (n : NormalizedRecord) (vib : VIB)
    (bytes : List UInt8) (hv : r.header.raw.vib = some vib) (h15 : r.header.raw.dib.dif.toNat % 16 ≠ 15)
    (hb : sliceFrom? r.rawBytes r.header.size = some bytes) :
    normalizeRecord env r = some n ↔ ∃ value u f q,
      variableValueDecode env r.header.raw.dib.dif vib.vif (vib.vifes.getD []).head? bytes = some value ∧
      vibUnit vib.vif (vib.vifes.getD [])
        (vib.plaintext.map (fun chars => chars.reverse.map (fun b => Char.ofNat b.toNat))) =
          some (u, f, q) ∧
      n = ⟨(functionString r.header.raw.dib.dif).toList,
        storageNumber r.header.raw.dib.dif (r.header.raw.dib.difes.getD []),
        if (r.header.raw.dib.difes.getD []).isEmpty then none
          else some (tariff (r.header.raw.dib.difes.getD [])),
        device (r.header.raw.dib.difes.getD []), u, q,
        shownValue f (vifeCorrection vib.vif (vib.vifes.getD [])) value⟩ := by
  have hne : ∀ b : UInt8, b.toNat % 16 ≠ 15 → ¬ (b = 0x0F ∨ b = 0x1F) := by decide +kernel
  unfold normalizeRecord
  simp only [hv, hb, if_neg (hne _ h15), Option.getD_some]
  simp only [bind, Option.bind_eq_some_iff, Option.some.injEq]
  constructor
  · rintro ⟨v', rfl, value, h1, ⟨u, f, q⟩, h2, h3⟩
    refine ⟨value, u, f, q, h1, h2, ?_⟩
    rw [← h3]
    cases value <;> rfl
  · rintro ⟨value, u, f, q, h1, h2, rfl⟩
    refine ⟨vib, rfl, value, h1, (u, f, q), h2, ?_⟩
    cases value <;> rfl

/-! ## Dates -/

theorem day_bits : ∀ d < 32, ∀ y < 8,
    (UInt8.ofNat (d + 32 * y) &&& 0x1F).toNat = d ∧ (UInt8.ofNat (d + 32 * y) &&& 0xE0) >>> 5 = UInt8.ofNat y := by
  decide +kernel

theorem month_bits : ∀ m < 16, ∀ y < 16,
    (UInt8.ofNat (m + 16 * y) &&& 0x0F).toNat = m ∧
      (UInt8.ofNat (m + 16 * y) &&& 0xF0) >>> 1 = UInt8.ofNat (8 * y) := by
  decide +kernel

theorem year_bits : ∀ a < 8, ∀ b < 16, (UInt8.ofNat a ||| UInt8.ofNat (8 * b)).toNat = a + 8 * b := by
  decide +kernel

theorem minute_bits : ∀ m < 64, ∀ i : Bool,
    (UInt8.ofNat (m + if i then 128 else 0) &&& 0x80 != 0) = i ∧
    (UInt8.ofNat m &&& 0x3F).toNat = m := by
  decide +kernel

theorem hour_bits : ∀ h < 32, (UInt8.ofNat h &&& 0x1F).toNat = h := by decide +kernel

theorem year_field (y month day : Nat) (hy : y < 128) (hm : month < 16) (hd : day < 32) :
    ((UInt8.ofNat (day + 32 * (y % 8)) &&& 0xE0) >>> 5 |||
      (UInt8.ofNat (month + 16 * (y / 8)) &&& 0xF0) >>> 1).toNat = y := by
  rw [(day_bits day hd _ (Nat.mod_lt _ (by omega))).2, (month_bits month hm (y / 8) (by omega)).2,
    year_bits _ (Nat.mod_lt _ (by omega)) _ (by omega)]
  omega

theorem date_text (y month day : Nat) (hy : y < 128) (hm : month < 16) (hd : day < 32) :
    padNat 4 (2000 + y) ++ ['-'] ++ padNat 2 month ++ ['-'] ++ padNat 2 day =
      isoDate (2000 + y) month day := by
  unfold isoDate
  rw [padNat_eq 4 _ (by omega) (by omega), padNat_eq 2 _ (by omega) (by omega),
    padNat_eq 2 _ (by omega) (by omega)]

theorem dateG_encode (y month day : Nat) (hy : y < 128) (hm : month < 16) (hd : day < 32) :
    dateGDecode (UInt8.ofNat (day + 32 * (y % 8))) (UInt8.ofNat (month + 16 * (y / 8))) =
      isoDate (2000 + y) month day := by
  unfold dateGDecode
  simp only [year_field y month day hy hm hd, (day_bits day hd _ (Nat.mod_lt y (by omega : 0 < 8))).1,
    (month_bits month hm (y / 8) (by omega)).1]
  exact date_text y month day hy hm hd

theorem dateF_encode (invalid : Bool) (y month day hour minute : Nat) (hy : y < 128) (hm : month < 16)
    (hd : day < 32) (hh : hour < 32) (hmi : minute < 64) :
    dateFDecode (UInt8.ofNat (minute + if invalid then 128 else 0)) (UInt8.ofNat hour)
      (UInt8.ofNat (day + 32 * (y % 8))) (UInt8.ofNat (month + 16 * (y / 8))) =
    if invalid then "1900-01-00T00:00:00Z".toList
      else isoDate (2000 + y) month day ++ ['T'] ++ isoTime hour minute 0 ++ ['Z'] := by
  unfold dateFDecode
  rw [(minute_bits minute hmi invalid).1]
  cases invalid with
  | true =>
    have e : invalidDate = "1900-01-00T00:00:00Z".toList := by decide +kernel
    rw [← e]
    generalize invalidDate = t
    simp only [if_true]
  | false =>
    rw [if_neg Bool.false_ne_true, if_neg Bool.false_ne_true]
    simp only [Bool.false_eq_true, if_false, Nat.add_zero, year_field y month day hy hm hd,
      (day_bits day hd _ (Nat.mod_lt y (by omega : 0 < 8))).1, (month_bits month hm (y / 8) (by omega)).1,
      (minute_bits minute hmi false).2, hour_bits hour hh]
    rw [date_text y month day hy hm hd]
    unfold isoTime
    rw [padNat_eq 2 hour (by omega) (by omega), padNat_eq 2 minute (by omega) (by omega)]
    have : fixedDigits 2 0 = ['0', '0'] := by decide
    rw [this]
    simp

theorem dateI_encode (invalid : Bool) (y month day hour minute second : Nat) (hy : y < 128)
    (hm : month < 16) (hd : day < 32) (hh : hour < 32) (hmi : minute < 64) (hs : second < 64) :
    dateIDecode (UInt8.ofNat second) (UInt8.ofNat (minute + if invalid then 128 else 0))
      (UInt8.ofNat hour) (UInt8.ofNat (day + 32 * (y % 8))) (UInt8.ofNat (month + 16 * (y / 8))) =
    if invalid then "1900-01-00T00:00:00Z".toList
      else isoDate (2000 + y) month day ++ ['T'] ++ isoTime hour minute second ++ ['Z'] := by
  unfold dateIDecode
  rw [(minute_bits minute hmi invalid).1]
  cases invalid with
  | true =>
    have e : invalidDate = "1900-01-00T00:00:00Z".toList := by decide +kernel
    rw [← e]
    generalize invalidDate = t
    simp only [if_true]
  | false =>
    rw [if_neg Bool.false_ne_true, if_neg Bool.false_ne_true]
    simp only [Bool.false_eq_true, if_false, Nat.add_zero, year_field y month day hy hm hd,
      (day_bits day hd _ (Nat.mod_lt y (by omega : 0 < 8))).1, (month_bits month hm (y / 8) (by omega)).1,
      (minute_bits minute hmi false).2, (minute_bits second hs false).2, hour_bits hour hh]
    rw [date_text y month day hy hm hd]
    unfold isoTime
    rw [padNat_eq 2 hour (by omega) (by omega), padNat_eq 2 minute (by omega) (by omega),
      padNat_eq 2 second (by omega) (by omega)]
    simp

end MBus.Xml
