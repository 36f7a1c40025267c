import Verif.Spec.ValueInfo
import Verif.Lemmas.DataInfo
namespace MBus
open Spec

/-! ## The VIFE loop -/

theorem vifeLoop_eq (rest acc : List UInt8) (hacc : acc.length ≤ 10) :
    vifeLoop rest acc =
      let k := (rest.takeWhile (fun b => hasExt b)).length
      if k < rest.length then
        if acc.length + k + 1 ≤ 10 then .ok (acc ++ rest.take (k + 1), rest.drop (k + 1)) else .panic
      else if acc.length + rest.length ≤ 10 then .ok (acc ++ rest, []) else .panic := by
  induction rest generalizing acc with
  | nil => simp [vifeLoop]; omega
  | cons b rest ih =>
    unfold vifeLoop
    by_cases hb : hasExt b
    · simp only [hb, Bool.not_true, Bool.false_eq_true, if_false, List.takeWhile_cons, if_true,
        List.length_cons, List.take_succ_cons, List.drop_succ_cons]
      by_cases ha : acc.length ≥ 10
      · rw [if_pos ha]
        simp only [Nat.add_lt_add_iff_right]
        split
        · rw [if_neg (by omega)]
        · rw [if_neg (by omega)]
      · rw [if_neg ha, if_neg (by simp; omega), ih _ (by simp; omega)]
        simp only [List.length_append, List.length_cons, List.length_nil, Nat.add_lt_add_iff_right,
          List.append_assoc, List.cons_append, List.nil_append]
        have e1 : acc.length + (0 + 1) + (rest.takeWhile fun b => hasExt b).length + 1 =
          acc.length + ((rest.takeWhile fun b => hasExt b).length + 1) + 1 := by omega
        have e2 : acc.length + (0 + 1) + rest.length = acc.length + (rest.length + 1) := by omega
        rw [e1, e2]
    · simp only [hb, Bool.not_false, if_true, List.takeWhile_cons, Bool.false_eq_true, if_false,
        List.length_nil, List.length_cons, Nat.zero_lt_succ, Nat.zero_add, List.take_succ_cons,
        List.take_zero, List.drop_succ_cons, List.drop_zero]
      by_cases ha : acc.length ≥ 10
      · rw [if_pos ha, if_neg (by omega)]
      · rw [if_neg ha, if_pos (by omega)]

/-- Outcomes of the VIFE loop from the start. -/
theorem vifeLoop_ok (rest : List UInt8) (v r : List UInt8) : vifeLoop rest [] = .ok (v, r) ↔
    (rest = v ++ r ∧ Chain v ∧ v.length ≤ 10) ∨
    (rest = v ∧ r = [] ∧ (∀ b ∈ v, 128 ≤ b.toNat) ∧ v.length ≤ 10) := by
  rw [vifeLoop_eq rest [] (by simp)]
  simp only [List.length_nil, Nat.zero_add, List.nil_append]
  have hle := takeWhile_le rest
  by_cases hk : (rest.takeWhile (fun b => hasExt b)).length < rest.length
  · rw [if_pos hk]
    constructor
    · intro h
      split at h
      · cases h
        left
        refine ⟨by simp, takeWhile_chain rest (by omega), by simp; omega⟩
      · simp at h
    · rintro (⟨rfl, hc, hl⟩ | ⟨rfl, rfl, hall, hl⟩)
      · have := chain_takeWhile hc r
        rw [if_pos (by omega), this]
        simp
      · rw [← takeWhile_all] at hall; omega
  · rw [if_neg hk]
    have hall := (takeWhile_all rest).mp (by omega)
    constructor
    · intro h
      split at h
      · cases h
        right; exact ⟨rfl, rfl, hall, by assumption⟩
      · simp at h
    · rintro (⟨rfl, hc, hl⟩ | ⟨rfl, rfl, _, hl⟩)
      · have := chain_takeWhile hc r
        simp at hk
        omega
      · rw [if_pos hl]

theorem vifeLoop_panic (rest : List UInt8) : vifeLoop rest [] = .panic ↔
    11 ≤ rest.length ∧ ∀ b ∈ rest.take 10, 128 ≤ b.toNat := by
  rw [vifeLoop_eq rest [] (by simp)]
  simp only [List.length_nil, Nat.zero_add]
  have hle := takeWhile_le rest
  have h10 := takeWhile_ge rest 10
  constructor
  · intro h
    split at h
    · split at h
      · simp at h
      · exact ⟨by omega, (h10.mp (by omega)).2⟩
    · split at h
      · simp at h
      · exact ⟨by omega, (h10.mp (by omega)).2⟩
  · rintro ⟨h1, h2⟩
    have := h10.mpr ⟨by omega, h2⟩
    split
    · rw [if_neg (by omega)]
    · rw [if_neg (by omega)]

theorem vifeLoop_ne_err (rest : List UInt8) (e : DataInfoError) : vifeLoop rest [] ≠ .err e := by
  rw [vifeLoop_eq rest [] (by simp)]
  simp only
  repeat' split
  all_goals simp

/-! ## Plain text -/

theorem slice1' (data : List UInt8) (n : UInt8) (rest : List UInt8) (h : data = n :: rest) :
    slice? data 1 (n.toNat + 1) = if n.toNat ≤ rest.length then some (rest.take n.toNat) else none := by
  subst h
  rw [Nat.add_comm, slice1]

theorem extract_ok (data p : List UInt8) : extractPlaintext data = .ok p ↔
    p.length ≤ 9 ∧ ∃ rest, data = UInt8.ofNat p.length :: (p ++ rest) := by
  unfold extractPlaintext
  cases data with
  | nil => simp
  | cons n rest =>
    simp only [List.head?_cons, Res.ofOption_some, Res.bind_ok, slice1' _ n rest rfl]
    by_cases hl : n.toNat ≤ rest.length
    · rw [if_pos hl]
      simp only [Res.ofOption_some, Res.bind_ok, List.length_take, Nat.min_eq_left hl]
      constructor
      · intro h
        split at h
        · simp at h
        · cases h
          rw [List.length_take, Nat.min_eq_left hl]
          refine ⟨by omega, rest.drop n.toNat, by simp⟩
      · rintro ⟨h9, rest', he⟩
        simp only [List.cons.injEq] at he
        obtain ⟨rfl, rfl⟩ := he
        have : (UInt8.ofNat p.length).toNat = p.length := by
          rw [UInt8.toNat_ofNat']; exact Nat.mod_eq_of_lt (by omega)
        rw [this, if_neg (by omega)]
        simp
    · rw [if_neg hl]
      simp only [Res.ofOption_none, Res.bind_err, reduceCtorEq, false_iff, not_and, not_exists,
        List.cons.injEq]
      rintro h9 rest' rfl rfl
      have : (UInt8.ofNat p.length).toNat = p.length := by
        rw [UInt8.toNat_ofNat']; exact Nat.mod_eq_of_lt (by omega)
      rw [this] at hl
      simp at hl

theorem extract_panic (data : List UInt8) : extractPlaintext data = .panic ↔
    ∃ n rest, data = n :: rest ∧ 10 ≤ n.toNat ∧ n.toNat ≤ rest.length := by
  unfold extractPlaintext
  cases data with
  | nil => simp
  | cons n rest =>
    simp only [List.head?_cons, Res.ofOption_some, Res.bind_ok, slice1' _ n rest rfl,
      List.cons.injEq]
    by_cases hl : n.toNat ≤ rest.length
    · rw [if_pos hl]
      simp only [Res.ofOption_some, Res.bind_ok, List.length_take, Nat.min_eq_left hl]
      constructor
      · intro h
        split at h
        · exact ⟨n, rest, ⟨rfl, rfl⟩, by omega, hl⟩
        · simp at h
      · rintro ⟨_, _, ⟨rfl, rfl⟩, h10, _⟩
        rw [if_pos (by omega)]
    · rw [if_neg hl]
      simp only [Res.ofOption_none, Res.bind_err, reduceCtorEq, false_iff, not_exists, not_and]
      rintro _ _ ⟨rfl, rfl⟩ _ h
      exact absurd h hl

/-! ## Effects -/

theorem total_append (es fs : List Effect) :
    total (es ++ fs) = ⟨(total es).offset + (total fs).offset, (total es).labels ++ (total fs).labels,
      (total es).scale + (total fs).scale, (total es).units ++ (total fs).units⟩ := by
  simp [total]

/-- The contributions of the orthogonal VIFEs. -/
def orthogonalEffects : List UInt8 → Bool → List Effect
  | [], _ => []
  | b :: rest, fc =>
    if b = 0xFC then orthogonalEffects rest true
    else (if fc then orthogonalExtVife b else orthogonalVife b) :: orthogonalEffects rest false

theorem consume_eq (vifes : List UInt8) (fc : Bool) (es : List Effect)
    (hl : (total es).labels.length ≤ 10) (hu : (total es).units.length ≤ 10) :
    consumeOrthogonal vifes fc (total es) =
      let t := total (es ++ orthogonalEffects vifes fc)
      if t.labels.length > 10 ∨ t.units.length > 10 then .panic else .ok t := by
  induction vifes generalizing fc es with
  | nil =>
    simp only [consumeOrthogonal, orthogonalEffects, List.append_nil]
    rw [if_neg (by omega)]
  | cons b rest ih =>
    unfold consumeOrthogonal orthogonalEffects
    by_cases hb : b = 0xFC
    · rw [if_pos hb, if_pos hb]; exact ih true es hl hu
    · rw [if_neg hb, if_neg hb]
      generalize (if fc then orthogonalExtVife b else orthogonalVife b) = e
      simp only
      rw [show es ++ e :: orthogonalEffects rest false =
        (es ++ [e]) ++ orthogonalEffects rest false by simp]
      have hstep : total (es ++ [e]) = ⟨(total es).offset + e.offset, (total es).labels ++ e.labels,
          (total es).scale + e.scale, (total es).units ++ e.units⟩ := by
        simp [total]
      unfold ValueInfo.apply
      by_cases hp : (total es).labels.length + e.labels.length > 10 ∨
          (total es).units.length + e.units.length > 10
      · rw [if_pos hp]
        simp only [Res.bind_panic]
        rw [if_pos]
        rw [total_append, hstep]
        simp only [List.length_append]
        omega
      · rw [if_neg hp, Res.bind_ok, ← hstep]
        apply ih
        · rw [hstep]; simp; omega
        · rw [hstep]; simp; omega

theorem apply_empty (e : Effect) (hl : e.labels.length ≤ 10) (hu : e.units.length ≤ 10) :
    ({} : ValueInfo).apply e = .ok (total [e]) := by
  unfold ValueInfo.apply
  rw [if_neg (by simp; omega)]
  simp [total]

/-! ## Blocks -/

theorem containsAscii_iff (v : UInt8) : containsAscii v = true ↔ v = 0x7C ∨ v = 0xFC := by
  simp [containsAscii]

/-- The four shapes of `ValueInformationBlock::try_from`. -/
theorem vib_nil (cfg : Cfg) : VIB.tryFrom cfg [] = .err .dataTooShort := rfl

theorem vib_short (cfg : Cfg) (vif : UInt8) (rest : List UInt8) (h : vif.toNat < 128)
    (ht : ¬ (cfg.plaintextFirst = true ∧ vif = 0x7C)) :
    VIB.tryFrom cfg (vif :: rest) = .ok ⟨vif, none, none⟩ := by
  have h1 := (hasExt_false vif).mpr h
  have hfc : vif ≠ 0xFC := by rintro rfl; simp at h
  have : ¬ (cfg.plaintextFirst = true ∧ containsAscii vif = true) := by
    rw [containsAscii_iff]; tauto
  simp [VIB.tryFrom, this, h1]

theorem vib_7C (cfg : Cfg) (rest : List UInt8) (ht : cfg.plaintextFirst = true) :
    VIB.tryFrom cfg (0x7C :: rest) = (extractPlaintext rest >>= fun p => .ok ⟨0x7C, none, some p⟩) := by
  have h1 : hasExt 0x7C = false := by decide
  have h2 : containsAscii 0x7C = true := by decide
  simp only [VIB.tryFrom, List.head?_cons, Res.ofOption_some, Res.bind_ok, ht, h2, and_self, if_true,
    sliceFrom?, List.length_cons, h1, Bool.false_eq_true, if_false]
  rw [if_pos (by omega)]
  simp only [Res.ofOption_some, Res.bind_ok, List.drop_succ_cons, List.drop_zero]

theorem vib_ext (cfg : Cfg) (vif : UInt8) (rest : List UInt8) (h : 128 ≤ vif.toNat) (hf : vif ≠ 0xFC) :
    VIB.tryFrom cfg (vif :: rest) = (vifeLoop rest [] >>= fun x =>
      .ok ⟨vif, if x.1 = [] then none else some x.1, none⟩) := by
  have h1 := (hasExt_true vif).mpr h
  have h7 : vif ≠ 0x7C := by rintro rfl; simp at h
  have h2 : containsAscii vif = false := by
    rw [← Bool.not_eq_true, containsAscii_iff]; tauto
  simp only [VIB.tryFrom, List.head?_cons, Res.ofOption_some, Res.bind_ok, h2, Bool.false_eq_true,
    and_false, if_false, h1, if_true, List.drop_succ_cons, List.drop_zero]
  cases vifeLoop rest [] with
  | ok x => obtain ⟨v, r⟩ := x; simp [List.isEmpty_iff]
  | err e => rfl
  | panic => rfl

theorem vib_FC_last (cfg : Cfg) (rest : List UInt8) (ht : cfg.plaintextFirst = false) :
    VIB.tryFrom cfg (0xFC :: rest) = (vifeLoop rest [] >>= fun x => extractPlaintext x.2 >>= fun p =>
      .ok ⟨0xFC, if x.1 = [] then none else some x.1, some p⟩) := by
  have h1 : hasExt 0xFC = true := by decide
  have h2 : containsAscii 0xFC = true := by decide
  simp only [VIB.tryFrom, List.head?_cons, Res.ofOption_some, Res.bind_ok, ht, h2, Bool.false_eq_true,
    false_and, if_false, h1, if_true, List.drop_succ_cons, List.drop_zero, Bool.not_false, and_self]
  cases vifeLoop rest [] with
  | ok x =>
    obtain ⟨v, r⟩ := x
    simp only [Res.bind_ok]
    cases extractPlaintext r <;> simp [List.isEmpty_iff]
  | err e => rfl
  | panic => rfl

theorem vib_FC_first (cfg : Cfg) (rest : List UInt8) (ht : cfg.plaintextFirst = true) :
    VIB.tryFrom cfg (0xFC :: rest) = (extractPlaintext rest >>= fun p =>
      vifeLoop (rest.drop (1 + p.length)) [] >>= fun x =>
      .ok ⟨0xFC, if x.1 = [] then none else some x.1, some p⟩) := by
  have h1 : hasExt 0xFC = true := by decide
  have h2 : containsAscii 0xFC = true := by decide
  simp only [VIB.tryFrom, List.head?_cons, Res.ofOption_some, Res.bind_ok, ht, h2, and_self, if_true,
    sliceFrom?, List.length_cons, h1]
  rw [if_pos (by omega)]
  simp only [Res.ofOption_some, Res.bind_ok, List.drop_succ_cons, List.drop_zero]
  cases extractPlaintext rest with
  | ok p =>
    simp only [Res.bind_ok, Bool.not_true, Bool.false_eq_true, false_and, if_false]
    rw [show 2 + p.length = (1 + p.length) + 1 by omega, List.drop_succ_cons]
    cases vifeLoop (rest.drop (1 + p.length)) [] with
    | ok x => obtain ⟨v, r⟩ := x; simp [List.isEmpty_iff]
    | err e => rfl
    | panic => rfl
  | err e => rfl
  | panic => rfl

theorem vib_ok (cfg : Cfg) (data : List UInt8) (b : VIB) :
    VIB.tryFrom cfg data = .ok b ↔ VibLayout cfg.plaintextFirst data b := by
  constructor
  · intro h
    cases data with
    | nil => rw [vib_nil] at h; simp at h
    | cons vif rest =>
      by_cases hv : vif.toNat < 128
      · by_cases ht : cfg.plaintextFirst = true ∧ vif = 0x7C
        · obtain ⟨ht, rfl⟩ := ht
          rw [vib_7C cfg rest ht, Res.bind_eq_ok] at h
          obtain ⟨p, hp, h⟩ := h
          cases h
          obtain ⟨h9, r, rfl⟩ := (extract_ok _ _).mp hp
          exact .singleText p r ht h9
        · rw [vib_short cfg vif rest hv ht] at h
          cases h
          exact .single vif rest hv ht
      · by_cases hf : vif = 0xFC
        · subst hf
          cases ht : cfg.plaintextFirst with
          | false =>
            rw [vib_FC_last cfg rest ht, Res.bind_eq_ok] at h
            obtain ⟨⟨v, r⟩, hv, h⟩ := h
            rw [Res.bind_eq_ok] at h
            obtain ⟨p, hp, h⟩ := h
            cases h
            obtain ⟨h9, r', hr⟩ := (extract_ok _ _).mp hp
            rcases (vifeLoop_ok _ _ _).mp hv with ⟨rfl, hc, hl⟩ | ⟨_, rfl, _, _⟩
            · simp only [hc.ne_nil, if_false]
              simp only at hr
              rw [hr]
              exact .textLast v p r' rfl hc hl h9
            · simp at hr
          | true =>
            rw [vib_FC_first cfg rest ht, Res.bind_eq_ok] at h
            obtain ⟨p, hp, h⟩ := h
            rw [Res.bind_eq_ok] at h
            obtain ⟨⟨v, r⟩, hv, h⟩ := h
            cases h
            obtain ⟨h9, r', rfl⟩ := (extract_ok _ _).mp hp
            rw [Nat.add_comm, List.drop_succ_cons, List.drop_left] at hv
            rcases (vifeLoop_ok _ _ _).mp hv with ⟨rfl, hc, hl⟩ | ⟨rfl, _, ha, hl⟩
            · simp only [hc.ne_nil, if_false]
              exact .textBefore v p r rfl hc hl h9
            · exact .cutOffText r' p rfl ha hl h9
        · rw [vib_ext cfg vif rest (by omega) hf, Res.bind_eq_ok] at h
          obtain ⟨⟨v, r⟩, hv, h⟩ := h
          cases h
          rcases (vifeLoop_ok _ _ _).mp hv with ⟨rfl, hc, hl⟩ | ⟨rfl, _, ha, hl⟩
          · simp only [hc.ne_nil, if_false]
            exact .extended vif v r (by omega) hf hc hl
          · exact .cutOff vif rest (by omega) hf ha hl
  · intro h
    cases h with
    | single vif rest hv ht => exact vib_short cfg vif rest hv ht
    | singleText text rest ht h9 =>
      rw [vib_7C cfg _ ht, (extract_ok _ text).mpr ⟨h9, rest, rfl⟩]; rfl
    | extended vif vifes rest hv hf hc hl =>
      rw [vib_ext cfg vif _ hv hf, (vifeLoop_ok _ vifes rest).mpr (.inl ⟨rfl, hc, hl⟩)]
      simp [hc.ne_nil]
    | textLast vifes text rest ht hc hl h9 =>
      rw [vib_FC_last cfg _ ht, (vifeLoop_ok _ vifes _).mpr (.inl ⟨rfl, hc, hl⟩)]
      simp only [Res.bind_ok]
      rw [(extract_ok _ text).mpr ⟨h9, rest, rfl⟩]
      simp [hc.ne_nil]
    | textBefore vifes text rest ht hc hl h9 =>
      rw [vib_FC_first cfg _ ht, (extract_ok _ text).mpr ⟨h9, _, rfl⟩]
      simp only [Res.bind_ok]
      rw [Nat.add_comm, List.drop_succ_cons, List.drop_left,
        (vifeLoop_ok _ vifes rest).mpr (.inl ⟨rfl, hc, hl⟩)]
      simp [hc.ne_nil]
    | cutOff vif vifes hv hf ha hl =>
      rw [vib_ext cfg vif _ hv hf, (vifeLoop_ok _ vifes []).mpr (.inr ⟨rfl, rfl, ha, hl⟩)]
      rfl
    | cutOffText vifes text ht ha hl h9 =>
      rw [vib_FC_first cfg _ ht, (extract_ok _ text).mpr ⟨h9, _, rfl⟩]
      simp only [Res.bind_ok]
      rw [Nat.add_comm, List.drop_succ_cons, List.drop_left,
        (vifeLoop_ok _ vifes []).mpr (.inr ⟨rfl, rfl, ha, hl⟩)]
      rfl

/-! ## Interpretation -/

/-- The contributions of all codes of a block, in order. -/
def blockEffects (b : VIB) : Res DataInfoError (List Effect) := do
  let vifes := b.vifes.getD []
  match ← vifCoding b.vif with
  | .primary => do
    let e ← primaryVif b.vif
    .ok (e :: orthogonalEffects vifes false)
  | .mainExtension => do
    let first ← Res.ofOption .dataTooShort vifes[0]?
    .ok (mainVif first vifes[1]? :: orthogonalEffects (vifes.drop 1) false)
  | .alternateExtension => do
    let first ← Res.ofOption .dataTooShort vifes[0]?
    .ok (alternateVif first :: orthogonalEffects (vifes.drop 1) false)
  | .plainText => .ok ({ labels := [.plainText] } :: orthogonalEffects vifes false)
  | .manufacturerSpecific => .ok [{ labels := [.manufacturerSpecific] }]

def smallEffect (e : Effect) : Bool := decide (e.labels.length ≤ 2) && decide (e.units.length ≤ 2)

theorem primary_small : ∀ v : UInt8,
    ((primaryVif v).toOption.map smallEffect).getD true = true := by decide +kernel
theorem alternate_small : ∀ v : UInt8, smallEffect (alternateVif v) = true := by decide +kernel
theorem orthogonal_small : ∀ v : UInt8, smallEffect (orthogonalVife v) = true := by decide +kernel
theorem orthogonalExt_small : ∀ v : UInt8, smallEffect (orthogonalExtVife v) = true := by
  decide +kernel
theorem main_small_none : ∀ v : UInt8, smallEffect (mainVif v none) = true := by decide +kernel

theorem main_small (v : UInt8) (s : Option UInt8) : smallEffect (mainVif v s) = true := by
  have h := main_small_none v
  unfold mainVif at h ⊢
  simp only at h ⊢
  by_cases h1 : (v &&& 0x7F).toNat ≤ 0x03
  · simp only [h1, if_true] at h ⊢; exact h
  by_cases h2 : (v &&& 0x7F).toNat ≤ 0x07
  · simp only [h1, h2, if_true, if_false] at h ⊢; exact h
  by_cases h3 : 0x40 ≤ (v &&& 0x7F).toNat ∧ (v &&& 0x7F).toNat ≤ 0x4F
  · simp only [h1, h2, h3, if_true, if_false] at h ⊢; exact h
  by_cases h4 : 0x50 ≤ (v &&& 0x7F).toNat ∧ (v &&& 0x7F).toNat ≤ 0x5F
  · simp only [h1, h2, h3, h4, if_true, if_false] at h ⊢; exact h
  by_cases h5 : (v &&& 0x7F).toNat = 0x7D
  · rw [if_neg h1, if_neg h2, if_neg h3, if_neg h4, if_pos h5]
    split <;> rfl
  · simp only [h1, h2, h3, h4, h5, if_false] at h ⊢; exact h

theorem small_bounds {e : Effect} (h : smallEffect e = true) :
    e.labels.length ≤ 2 ∧ e.units.length ≤ 2 := by
  simpa [smallEffect] using h

theorem after_first (e : Effect) (vifes : List UInt8) (h : smallEffect e = true) :
    (({} : ValueInfo).apply e >>= fun v => consumeOrthogonal vifes false v) =
      let t := total (e :: orthogonalEffects vifes false)
      if t.labels.length > 10 ∨ t.units.length > 10 then .panic else .ok t := by
  have hs := small_bounds h
  rw [apply_empty e (by omega) (by omega), Res.bind_ok, consume_eq]
  · rfl
  · simp [total]; omega
  · simp [total]; omega

theorem valueInfo_eq (b : VIB) : ValueInfo.tryFrom b = (blockEffects b >>= fun es =>
    if (total es).labels.length > 10 ∨ (total es).units.length > 10 then .panic
    else .ok (total es)) := by
  unfold ValueInfo.tryFrom blockEffects
  simp only
  cases hc : vifCoding b.vif with
  | err e => rfl
  | panic => rfl
  | ok c =>
    cases c with
    | primary =>
      simp only [Res.bind_ok]
      have hs := primary_small b.vif
      cases hp : primaryVif b.vif with
      | err e => rfl
      | panic => rfl
      | ok e => rw [hp] at hs; exact after_first e _ (by simpa using hs)
    | mainExtension =>
      simp only [Res.bind_ok]
      cases hv : (b.vifes.getD [])[0]? with
      | none => rfl
      | some x => exact after_first _ _ (main_small _ _)
    | alternateExtension =>
      simp only [Res.bind_ok]
      cases hv : (b.vifes.getD [])[0]? with
      | none => rfl
      | some x => exact after_first _ _ (alternate_small _)
    | plainText => exact after_first { labels := [.plainText] } _ rfl
    | manufacturerSpecific => rfl

theorem orthogonal_bounds (vifes : List UInt8) (fc : Bool) :
    (total (orthogonalEffects vifes fc)).labels.length ≤ 2 * vifes.length ∧
      (total (orthogonalEffects vifes fc)).units.length ≤ 2 * vifes.length := by
  induction vifes generalizing fc with
  | nil => simp [orthogonalEffects, total]
  | cons b rest ih =>
    unfold orthogonalEffects
    by_cases hb : b = 0xFC
    · rw [if_pos hb]
      have := ih true
      simp only [List.length_cons]; omega
    · rw [if_neg hb]
      have hs : smallEffect (if fc then orthogonalExtVife b else orthogonalVife b) = true := by
        cases fc
        · exact orthogonal_small b
        · exact orthogonalExt_small b
      have := small_bounds hs
      have h2 := ih false
      generalize (if fc then orthogonalExtVife b else orthogonalVife b) = e at *
      rw [show e :: orthogonalEffects rest false = [e] ++ orthogonalEffects rest false by rfl,
        total_append]
      simp only [List.length_append, List.length_cons]
      have e1 : (total [e]).labels = e.labels := by simp [total]
      have e2 : (total [e]).units = e.units := by simp [total]
      rw [e1, e2]
      omega

end MBus
