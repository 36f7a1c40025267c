import Verif.Spec.Sent
import Verif.Props.DataInfo
import Verif.Props.ValueInfo
import Verif.Props.RecordOutput
import Verif.Props.Record
import Verif.Props.Ucum
import Mathlib.Tactic.IntervalCases
/-!
# Lemmas for C123: what a meter sends is parsed
-/
namespace MBus
open MBus.Spec

/-! ## Data information -/

theorem difeBytes_length (n s t u : Nat) : (difeBytes n s t u).length = n := by
  induction n generalizing s t u with
  | zero => rfl
  | succ n ih => simp [difeBytes, ih]

theorem dife_toNat (n s t u : Nat) :
    (UInt8.ofNat ((if n = 0 then 0 else 128) + 64 * (u % 2) + 16 * (t % 4) + s % 16)).toNat =
      (if n = 0 then 0 else 128) + 64 * (u % 2) + 16 * (t % 4) + s % 16 := by
  rw [UInt8.toNat_ofNat', Nat.mod_eq_of_lt]
  split <;> omega

theorem difeBytes_chain (n s t u : Nat) : Chain (difeBytes (n + 1) s t u) := by
  induction n generalizing s t u with
  | zero =>
    apply Chain.last
    rw [dife_toNat]
    simp only [if_true]
    omega
  | succ n ih =>
    apply Chain.more
    · rw [dife_toNat, if_neg (by omega)]
      omega
    · exact ih ..

theorem difeBytes_numbers (n s t u : Nat) :
    storageBits (difeBytes n s t u) = s % 16 ^ n ∧ tariffNumber (difeBytes n s t u) = t % 4 ^ n ∧
      subunitNumber (difeBytes n s t u) = u % 2 ^ n := by
  induction n generalizing s t u with
  | zero => simp [difeBytes, storageBits, tariffNumber, subunitNumber, Nat.mod_one]
  | succ n ih =>
    obtain ⟨h1, h2, h3⟩ := ih (s / 16) (t / 4) (u / 2)
    simp only [difeBytes, storageBits, tariffNumber, subunitNumber, h1, h2, h3, dife_toNat, pow_succ']
    rw [Nat.mod_mul, Nat.mod_mul, Nat.mod_mul]
    refine ⟨?_, ?_, ?_⟩ <;> split <;> omega

/-! ## Codes -/

theorem codeBytes_cons (c : Nat) (rest : List Nat) : codeBytes (c :: rest) =
    UInt8.ofNat (if rest = [] then c else c + 128) :: codeBytes rest := by
  cases rest <;> simp [codeBytes]

theorem codeBytes_chain (codes : List Nat) (hne : codes ≠ []) (h : ∀ c ∈ codes, c < 128) : Chain (codeBytes codes) := by
  induction codes with
  | nil => exact absurd rfl hne
  | cons c rest ih =>
    have hc := h c (by simp)
    rw [codeBytes_cons]
    by_cases hr : rest = []
    · subst hr
      apply Chain.last
      simp only [if_true, UInt8.toNat_ofNat']
      omega
    · apply Chain.more
      · simp only [hr, if_false, UInt8.toNat_ofNat']
        omega
      · exact ih hr (fun c hc => h c (by simp [hc]))

theorem codeBytes_codes (codes : List Nat) (h : ∀ c ∈ codes, c < 128) :
    (codeBytes codes).map (fun b => b.toNat % 128) = codes := by
  induction codes with
  | nil => rfl
  | cons c rest ih =>
    have hc := h c (by simp)
    rw [codeBytes_cons, List.map_cons, ih (fun c hc => h c (by simp [hc]))]
    congr 1
    rw [UInt8.toNat_ofNat']
    split <;> omega

theorem codeBytes_length (codes : List Nat) : (codeBytes codes).length = codes.length := by
  induction codes with
  | nil => rfl
  | cons c rest ih => rw [codeBytes_cons]; simp [ih]

/-- The block of some codes. -/
def vibOf (c : Nat) (rest : List Nat) : VIB :=
  ⟨UInt8.ofNat (if rest = [] then c else c + 128), if rest = [] then none else some (codeBytes rest), none⟩

theorem vibOf_vifes (c : Nat) (rest : List Nat) : (vibOf c rest).vifes.getD [] = codeBytes rest := by
  unfold vibOf
  by_cases h : rest = []
  · subst h; rfl
  · simp [h]

theorem vibOf_vif (c : Nat) (rest : List Nat) (h : c < 128) :
    (vibOf c rest).vif.toNat = if rest = [] then c else c + 128 := by
  unfold vibOf
  rw [UInt8.toNat_ofNat']
  split <;> omega

theorem vib_sent (cfg : Cfg) (c : Nat) (rest : List Nat) (s : List UInt8) (h : ∀ x ∈ c :: rest, x < 128)
    (hc : c ≠ 0x7C) (hl : rest.length ≤ 10) :
    VIB.tryFrom cfg (codeBytes (c :: rest) ++ s) = .ok (vibOf c rest) := by
  rw [C20_accepts_iff, codeBytes_cons]
  have h0 := h c (by simp)
  by_cases hr : rest = []
  · subst hr
    have := VibLayout.single (textFirst := cfg.plaintextFirst) (UInt8.ofNat c) s (by
      rw [UInt8.toNat_ofNat']; omega) (by
      rintro ⟨_, hx⟩
      have := congrArg UInt8.toNat hx
      rw [UInt8.toNat_ofNat', Nat.mod_eq_of_lt (by omega)] at this
      exact hc this)
    simpa [codeBytes, vibOf] using this
  · have := VibLayout.extended (textFirst := cfg.plaintextFirst) (UInt8.ofNat (c + 128)) (codeBytes rest) s (by
      rw [UInt8.toNat_ofNat']; omega) (by
      intro hx
      have := congrArg UInt8.toNat hx
      rw [UInt8.toNat_ofNat', Nat.mod_eq_of_lt (by omega)] at this
      have h2 : (0xFC : UInt8).toNat = 252 := rfl
      omega) (codeBytes_chain rest hr (fun x hx => h x (by simp [hx]))) (by rw [codeBytes_length]; omega)
    simpa [hr, vibOf] using this

/-- Codes of the combinable table which the library gets wrong. -/
def wrongCombinable : List Nat := [0x2C, 0x6B, 0x6E, 0x6F]

theorem combinable_sent (xs : List UInt8) (es : List Effect)
    (h : combinableMeanings (xs.map (fun b => b.toNat % 128)) = some es)
    (hx : ∀ x ∈ xs, x.toNat % 128 ∉ wrongCombinable) : orthogonalEffects xs false = es := by
  induction xs generalizing es with
  | nil => simp [combinableMeanings] at h; subst h; rfl
  | cons x xs ih =>
    unfold combinableMeanings at h
    simp only [List.map_cons, List.mapM_cons, Option.bind_eq_bind, Option.bind_eq_some_iff, Option.pure_def,
      Option.some.injEq] at h
    obtain ⟨e, h1, es', h2, rfl⟩ := h
    split at h1
    · cases h1
    have hm : x ≠ 0xFC ∧ ¬ (0x78 ≤ x.toNat % 128 ∧ x.toNat % 128 ≤ 0x7B) := by
      have key : ∀ x : UInt8, (meaning orthogonalRows (x.toNat % 128)).isSome →
        x ≠ 0xFC ∧ ¬ (0x78 ≤ x.toNat % 128 ∧ x.toNat % 128 ≤ 0x7B) := by decide +kernel
      exact key x (by rw [h1]; rfl)
    have h3 := hx x (by simp)
    simp only [wrongCombinable, List.mem_cons, List.not_mem_nil, or_false, not_or] at h3
    rw [(C62_orthogonal_codes x xs).1 hm.1, ih es' h2 (fun y hy => hx y (by simp [hy])),
      (C61_orthogonal_table_partial x h3.1 h3.2.1 h3.2.2.1 h3.2.2.2).1 hm.2, h1]
    rfl

theorem total_bounds (b : VIB) (e : Effect) (xs : List UInt8) (hb : blockEffects b = .ok (e :: orthogonalEffects xs false))
    (he : smallEffect e = true) (hl : xs.length ≤ 4) :
    ValueInfo.tryFrom b = .ok (total (e :: orthogonalEffects xs false)) := by
  rw [valueInfo_eq, hb, Res.bind_ok, if_neg]
  have h1 := small_bounds he
  have h2 := orthogonal_bounds xs false
  rw [show ∀ l, e :: l = [e] ++ l from fun _ => rfl, total_append]
  simp only [List.length_append]
  have e1 : (total [e]).labels = e.labels := by simp [total]
  have e2 : (total [e]).units = e.units := by simp [total]
  rw [e1, e2]
  omega

/-- The labels that make the library read the data as a date. -/
def dateLabels : List ValueLabel := [.date, .dateTime, .time, .dateTimeWithSeconds]

theorem rows_noDate (n : Nat) (h : n < 128) (e : Effect) :
    (meaning alternateRows n = some e → ∀ l ∈ dateLabels, l ∉ e.labels) ∧
    (meaning mainRows n = some e → ∀ l ∈ dateLabels, l ∉ e.labels) ∧
    (meaning orthogonalRows n = some e → ∀ l ∈ dateLabels, l ∉ e.labels) ∧
    (n ∉ [0x6C, 0x6D] → meaning primaryRows n = some e → ∀ l ∈ dateLabels, l ∉ e.labels) := by
  have key : ∀ n : Fin 128, (∀ e ∈ meaning alternateRows n, ∀ l ∈ dateLabels, l ∉ e.labels) ∧
      (∀ e ∈ meaning mainRows n, ∀ l ∈ dateLabels, l ∉ e.labels) ∧
      (∀ e ∈ meaning orthogonalRows n, ∀ l ∈ dateLabels, l ∉ e.labels) ∧
      (n.val ∉ [0x6C, 0x6D] → ∀ e ∈ meaning primaryRows n, ∀ l ∈ dateLabels, l ∉ e.labels) := by decide +kernel
  obtain ⟨h1, h2, h3, h4⟩ := key ⟨n, h⟩
  exact ⟨fun hm => h1 e hm, fun hm => h2 e hm, fun hm => h3 e hm, fun hn hm => h4 hn e hm⟩

theorem combinable_noDate (codes : List Nat) (es : List Effect) (h : ∀ c ∈ codes, c < 128)
    (he : combinableMeanings codes = some es) : ∀ e ∈ es, ∀ l ∈ dateLabels, l ∉ e.labels := by
  induction codes generalizing es with
  | nil => simp [combinableMeanings] at he; subst he; simp
  | cons c rest ih =>
    unfold combinableMeanings at he
    simp only [List.mapM_cons, Option.bind_eq_bind, Option.bind_eq_some_iff, Option.pure_def,
      Option.some.injEq] at he
    obtain ⟨e, h1, es', h2, rfl⟩ := he
    split at h1
    · cases h1
    intro e' he'
    rcases List.mem_cons.1 he' with rfl | he'
    · exact (rows_noDate c (h c (by simp)) e').2.2.1 h1
    · exact ih es' (fun c hc => h c (by simp [hc])) h2 e' he'

theorem total_noDate (es : List Effect) (h : ∀ e ∈ es, ∀ l ∈ dateLabels, l ∉ e.labels) (c : Coding) :
    dateCoding (total es).labels c = c := by
  have : ∀ l ∈ dateLabels, l ∉ (total es).labels := by
    intro l hl hm
    simp only [total, List.mem_flatMap] at hm
    obtain ⟨e, he, hm⟩ := hm
    exact h e he l hl hm
  unfold dateCoding
  rw [if_neg (this _ (by decide)), if_neg (this _ (by decide)), if_neg (this _ (by decide)), if_neg (this _ (by decide))]

theorem codeMeanings_primary (c : Nat) (rest : List Nat) (es : List Effect) (h : codeMeanings (c :: rest) = some es)
    (hc : ¬ ((c = 0x7B ∨ c = 0x7D) ∧ rest ≠ [])) : ∃ e es', meaning primaryRows c = some e ∧
      combinableMeanings rest = some es' ∧ es = e :: es' := by
  unfold codeMeanings at h
  split at h
  · rename_i heq; injection heq with h1 h2; subst h1 h2; simp at hc
  · rename_i heq; injection heq with h1 h2; subst h1 h2; simp at hc
  · rename_i heq
    injection heq with h1 h2
    subst h1 h2
    simp only [Option.bind_eq_bind, Option.bind_eq_some_iff, Option.some.injEq] at h
    obtain ⟨e, h1, es', h2, h3⟩ := h
    exact ⟨e, es', h1, h2, h3.symm⟩
  · rename_i heq; cases heq

theorem misread_primary (c : Nat) (rest : List Nat) (h : misread (c :: rest) = false)
    (hc : ¬ ((c = 0x7B ∨ c = 0x7D) ∧ rest ≠ [])) :
    c ≠ 0x6D ∧ ¬ (0x70 ≤ c ∧ c ≤ 0x77) ∧ ∀ x ∈ rest, x ∉ wrongCombinable := by
  unfold misread at h
  split at h
  · rename_i heq; injection heq with h1 h2; subst h1 h2; simp at hc
  · rename_i heq; injection heq with h1 h2; subst h1 h2; simp at hc
  · rename_i heq
    injection heq with h1 h2
    subst h1 h2
    simpa [wrongCombinable, and_assoc] using h
  · rename_i heq; cases heq

theorem wrong_codes (rest : List Nat) (h : ∀ c ∈ rest, c < 128) (hw : ∀ x ∈ rest, x ∉ wrongCombinable) :
    ∀ x ∈ codeBytes rest, x.toNat % 128 ∉ wrongCombinable := by
  intro x hx
  have := List.mem_map_of_mem (f := fun b : UInt8 => b.toNat % 128) hx
  rw [codeBytes_codes rest h] at this
  exact hw _ this

theorem combinable_noCorrection (xs : List UInt8) (es : List Effect)
    (h : combinableMeanings (xs.map (fun b => b.toNat % 128)) = some es) : corrections xs = [] := by
  induction xs generalizing es with
  | nil => rfl
  | cons x xs ih =>
    unfold combinableMeanings at h
    simp only [List.map_cons, List.mapM_cons, Option.bind_eq_bind, Option.bind_eq_some_iff, Option.pure_def,
      Option.some.injEq] at h
    obtain ⟨e, h1, es', h2, rfl⟩ := h
    split at h1
    · cases h1
    have hm : ¬ (0x78 ≤ x.toNat % 128 ∧ x.toNat % 128 ≤ 0x7B) := by
      have key : ∀ x : UInt8, (meaning orthogonalRows (x.toNat % 128)).isSome →
        ¬ (0x78 ≤ x.toNat % 128 ∧ x.toNat % 128 ≤ 0x7B) := by decide +kernel
      exact key x (by rw [h1]; rfl)
    have := ih es' h2
    unfold corrections at this ⊢
    rw [List.filter_cons_of_neg (by simpa using hm)]
    exact this

theorem corrections_cons (x : UInt8) (xs : List UInt8) (h : ¬ (0x78 ≤ x.toNat % 128 ∧ x.toNat % 128 ≤ 0x7B))
    (hx : corrections xs = []) : corrections (x :: xs) = [] := by
  unfold corrections at hx ⊢
  rw [List.filter_cons_of_neg (by simpa using h)]
  exact hx

theorem codes_sent (c : Nat) (rest : List Nat) (es : List Effect) (h : ∀ x ∈ c :: rest, x < 128)
    (hm : codeMeanings (c :: rest) = some es) (hw : misread (c :: rest) = false) (hl : rest.length ≤ 4) :
    ValueInfo.tryFrom (vibOf c rest) = .ok (total es) ∧
      (∀ cd, dateCoding (total es).labels cd = if c = 0x6C then .dateTypeG else cd) ∧ c ≠ 0x7C ∧
      corrections (codeBytes rest) = [] := by
  have h0 := h c (by simp)
  have hr : ∀ x ∈ rest, x < 128 := fun x hx => h x (by simp [hx])
  by_cases hc : (c = 0x7B ∨ c = 0x7D) ∧ rest ≠ []
  · obtain ⟨hc, hne⟩ := hc
    obtain ⟨d, rest, rfl⟩ := List.exists_cons_of_ne_nil hne
    have hd := hr d (by simp)
    have hrr : ∀ x ∈ rest, x < 128 := fun x hx => hr x (by simp [hx])
    have hx : (UInt8.ofNat (if rest = [] then d else d + 128)).toNat % 128 = d := by
      rw [UInt8.toNat_ofNat']; split <;> omega
    have hlen : (codeBytes rest).length ≤ 4 := by rw [codeBytes_length]; simp at hl; omega
    have hv : (vibOf c (d :: rest)).vif = UInt8.ofNat (c + 128) ∧ (vibOf c (d :: rest)).vifes =
        some (UInt8.ofNat (if rest = [] then d else d + 128) :: codeBytes rest) := by
      simp [vibOf, codeBytes_cons]
    rcases hc with rfl | rfl
    · simp only [codeMeanings, Option.bind_eq_bind, Option.bind_eq_some_iff, Option.some.injEq] at hm
      obtain ⟨e, he, es', hes, rfl⟩ := hm
      simp only [misread, Bool.or_eq_false_iff, decide_eq_false_iff_not, List.any_eq_false, decide_eq_true_eq] at hw
      have hes' := hes
      rw [← codeBytes_codes rest hrr] at hes'
      have hw2 := wrong_codes rest hrr (by simpa [wrongCombinable] using hw.2)
      have ho := combinable_sent _ _ hes' hw2
      have ha : alternateVif (UInt8.ofNat (if rest = [] then d else d + 128)) = e := by
        rw [C60_alternate_table_partial _ (by rw [hx]; have := hw.1; simp at this; omega), hx, he]; rfl
      have hb := (C62_codes (vibOf 0x7B (d :: rest))).2.2 (by rw [hv.1]; rfl) _ _ hv.2
      have hs := alternate_small (UInt8.ofNat (if rest = [] then d else d + 128))
      refine ⟨?_, ?_, by decide, ?_⟩
      · rw [total_bounds _ _ _ hb hs hlen, ha, ho]
      · intro cd
        rw [if_neg (by decide)]
        apply total_noDate
        intro e' he'
        rcases List.mem_cons.1 he' with rfl | he'
        · exact (rows_noDate d hd e').1 he
        · exact combinable_noDate rest es' hrr hes e' he'
      · rw [codeBytes_cons]
        refine corrections_cons _ _ ?_ (combinable_noCorrection _ _ hes')
        rw [hx]
        have := hw.1
        simp at this
        omega
    · simp only [codeMeanings, Option.bind_eq_bind, Option.bind_eq_some_iff, Option.some.injEq] at hm
      obtain ⟨e, he, es', hes, rfl⟩ := hm
      simp only [misread, Bool.or_eq_false_iff, decide_eq_false_iff_not, List.any_eq_false, decide_eq_true_eq] at hw
      have hes' := hes
      rw [← codeBytes_codes rest hrr] at hes'
      have hw2 := wrong_codes rest hrr (by simpa [wrongCombinable] using hw.2)
      have ho := combinable_sent _ _ hes' hw2
      have hd2 : d ≠ 0x7D ∧ ¬ (0x78 ≤ d ∧ d ≤ 0x7B) := by
        have key : ∀ n : Fin 128, (meaning mainRows n).isSome → n.val ≠ 0x7D ∧ ¬ (0x78 ≤ n.val ∧ n.val ≤ 0x7B) := by
          decide +kernel
        exact key ⟨d, hd⟩ (by simp only [he]; rfl)
      have ha : ∀ next, mainVif (UInt8.ofNat (if rest = [] then d else d + 128)) next = e := by
        intro next
        have h1 := hw.1
        simp at h1
        rw [C59_main_table_partial _ (by rw [hx]; omega) (by rw [hx]; omega) (by rw [hx]; omega) (by rw [hx]; omega) next,
          hx, he]
        rfl
      have hb := (C62_codes (vibOf 0x7D (d :: rest))).2.1 (by rw [hv.1]; rfl) _ _ hv.2
      have hs := main_small (UInt8.ofNat (if rest = [] then d else d + 128)) (codeBytes rest)[0]?
      refine ⟨?_, ?_, by decide, ?_⟩
      · rw [total_bounds _ _ _ hb hs hlen, ha, ho]
      · intro cd
        rw [if_neg (by decide)]
        apply total_noDate
        intro e' he'
        rcases List.mem_cons.1 he' with rfl | he'
        · exact (rows_noDate d hd e').2.1 he
        · exact combinable_noDate rest es' hrr hes e' he'
      · rw [codeBytes_cons]
        refine corrections_cons _ _ ?_ (combinable_noCorrection _ _ hes')
        rw [hx]
        omega
  · obtain ⟨e, es', he, hes, rfl⟩ := codeMeanings_primary c rest es hm hc
    obtain ⟨hw0, hw1, hw2⟩ := misread_primary c rest hw hc
    have hes' := hes
    rw [← codeBytes_codes rest hr] at hes'
    have ho := combinable_sent _ _ hes' (wrong_codes rest hr hw2)
    have hcc : c < 0x7B ∧ c ≠ 0x6F := by
      have key : ∀ n : Fin 128, (meaning primaryRows n).isSome → n.val < 0x7B ∧ n.val ≠ 0x6F := by decide +kernel
      exact key ⟨c, h0⟩ (by simp only [he]; rfl)
    have hv := vibOf_vif c rest h0
    have hx : (vibOf c rest).vif.toNat % 128 = c := by rw [hv]; split <;> omega
    have hp : primaryVif (vibOf c rest).vif = .ok e := by
      have := C22_primary_table_partial (vibOf c rest).vif (by rw [hx]; omega)
      rw [hx, he] at this
      cases hq : primaryVif (vibOf c rest).vif <;> simp_all [Res.toOption]
    have hb := (C62_codes (vibOf c rest)).1 (by rw [hv]; split <;> omega) e hp
    rw [vibOf_vifes] at hb
    refine ⟨?_, ?_, by omega, combinable_noCorrection _ _ hes'⟩
    · rw [total_bounds _ _ _ hb (by have := primary_small (vibOf c rest).vif; rw [hp] at this; simpa using this)
        (by rw [codeBytes_length]; exact hl), ho]
    · intro cd
      by_cases h6c : c = 0x6C
      · subst h6c
        have hel : ValueLabel.date ∈ e.labels := by
          have key : ∀ e ∈ meaning primaryRows 0x6C, ValueLabel.date ∈ e.labels := by decide +kernel
          exact key e he
        rw [if_pos rfl]
        unfold dateCoding
        rw [if_pos]
        simp only [total, List.flatMap_cons, List.mem_append]
        exact .inl hel
      · rw [if_neg h6c]
        apply total_noDate
        intro e' he'
        rcases List.mem_cons.1 he' with rfl | he'
        · exact (rows_noDate c h0 e').2.2.2 (by simp [h6c, hw0]) he
        · exact combinable_noDate rest es' hr hes e' he'

/-! ## Data fields -/

theorem codingOf_codings : ∀ b : UInt8, b.toNat % 16 < 15 → codings[b.toNat % 16]? = some (codingOf b) := by
  decide +kernel

theorem field_code {m code : Nat} {content : Content} {field : List UInt8} (h : Field m code content field) :
    code ≤ 14 := by
  cases h with
  | binary _ n v h1 _ _ => simp [binaryFields] at h1; omega
  | bcd _ n v h1 _ => simp [bcdFields] at h1; omega
  | _ => decide

theorem lvar_ofNat (k n : Nat) (h : k + n < 256) : (UInt8.ofNat (k + n)).toNat = k + n := by
  rw [UInt8.toNat_ofNat']; omega

/-- The coding of a data field: that of its code, except for dates. -/
def CodingOf (content : Content) (code : Nat) (c : Coding) : Prop :=
  match content with
  | .date .. => c = .dateTypeG
  | .dateTime _ _ _ _ _ none => c = .dateTimeTypeF ∨ c = .integer32
  | .dateTime _ _ _ _ _ (some _) => c = .dateTimeTypeI ∨ c = .integer48
  | _ => codings[code]? = some c

theorem field_coding {code : Nat} {content : Content} {field : List UInt8} (h : Field 7 code content field)
    (c : Coding) (hc : CodingOf content code c) (cfg : Cfg) (s : List UInt8) :
    ∃ d, c.parse cfg false (field ++ s) = .ok d ∧ d.size = field.length := by
  cases h with
  | binary _ n v h1 h2 h3 =>
    simp only [CodingOf] at hc
    have hw : integerWidth c = some n := by
      simp only [binaryFields, List.mem_cons, List.not_mem_nil, or_false, Prod.mk.injEq] at h1
      rcases h1 with ⟨rfl, rfl⟩ | ⟨rfl, rfl⟩ | ⟨rfl, rfl⟩ | ⟨rfl, rfl⟩ | ⟨rfl, rfl⟩ | ⟨rfl, rfl⟩ <;>
        (simp [codings] at hc; subst hc; rfl)
    rw [C23_integer_value cfg false c n _ hw, if_neg (by simp [encodeLe_length])]
    exact ⟨_, rfl, by simp [encodeLe_length]⟩
  | bcd _ n v h1 h2 =>
    simp only [CodingOf] at hc
    have hw : bcdWidth c = some n := by
      simp only [bcdFields, List.mem_cons, List.not_mem_nil, or_false, Prod.mk.injEq] at h1
      rcases h1 with ⟨rfl, rfl⟩ | ⟨rfl, rfl⟩ | ⟨rfl, rfl⟩ | ⟨rfl, rfl⟩ | ⟨rfl, rfl⟩ <;>
        (simp [codings] at hc; subst hc; rfl)
    have := C24_round_trip cfg false c n v s hw h2
    simp only [Bool.false_eq_true, if_false] at this
    exact ⟨_, this, by simp [encodeBcd_length]⟩
  | variableBinary n v h1 h2 h3 h4 =>
    simp [CodingOf, codings] at hc
    subst hc
    refine ⟨_, C31_binary cfg false _ (encodeLe n v ++ s) n ?_ h1 (by simp [encodeLe_length]),
      by simp [encodeLe_length]⟩
    unfold lvar
    simp only [lvar_ofNat 0xE0 n (by omega)]
    rw [if_neg (by omega), if_neg (by omega), if_neg (by omega), if_pos (by omega)]
    rw [Nat.add_sub_cancel_left]
  | variableBcd n v h1 h2 =>
    simp [CodingOf, codings] at hc
    subst hc
    obtain ⟨w, hw, _⟩ := (C31_bcd cfg false false (UInt8.ofNat (0xC0 + n)) (encodeBcd n v ++ s) n (by
      unfold lvar
      simp only [lvar_ofNat 0xC0 n (by omega)]
      rw [if_neg (by omega), if_pos (by omega)]
      simp) (by simp [encodeBcd_length])).2 (by
        rw [List.take_left' (encodeBcd_length n v)]; exact encodeBcd_isBcd n v)
    exact ⟨_, hw, by simp [encodeBcd_length]⟩
  | variableNegative n v h1 h2 =>
    simp [CodingOf, codings] at hc
    subst hc
    obtain ⟨w, hw, _⟩ := (C31_bcd cfg false true (UInt8.ofNat (0xD0 + n)) (encodeBcd n v ++ s) n (by
      unfold lvar
      simp only [lvar_ofNat 0xD0 n (by omega)]
      rw [if_neg (by omega), if_neg (by omega), if_pos (by omega)]
      simp) (by simp [encodeBcd_length])).2 (by
        rw [List.take_left' (encodeBcd_length n v)]; exact encodeBcd_isBcd n v)
    exact ⟨_, hw, by simp [encodeBcd_length]⟩
  | text t h1 =>
    simp [CodingOf, codings] at hc
    subst hc
    refine ⟨_, C31_text cfg false _ ((utf8 t).reverse ++ s) (utf8 t).length ?_ (by simp), by simp⟩
    unfold lvar
    have : (UInt8.ofNat (utf8 t).length).toNat = (utf8 t).length := by rw [UInt8.toNat_ofNat']; omega
    simp only [this]
    rw [if_pos h1]
  | real bits h1 =>
    simp [CodingOf, codings] at hc
    subst hc
    obtain ⟨w, hw, _⟩ := C23_real32 cfg false (UInt8.ofNat (((bits : Int) % 256).toNat))
      (UInt8.ofNat (((bits : Int) / 256 % 256).toNat)) (UInt8.ofNat (((bits : Int) / 256 / 256 % 256).toNat))
      (UInt8.ofNat (((bits : Int) / 256 / 256 / 256 % 256).toNat)) s
    exact ⟨_, hw, rfl⟩
  | date day month year h1 h2 h3 =>
    simp only [CodingOf] at hc
    subst hc
    obtain ⟨d, m, y, hr, _⟩ := C25_round_trip cfg false day month year s h1 h2 (by omega)
    exact ⟨_, hr, rfl⟩
  | dateTime day month year hour minute =>
    simp only [CodingOf] at hc
    rcases hc with rfl | rfl
    · obtain ⟨_, _, _, _, h, -⟩ := C26_type_f_partial cfg false (UInt8.ofNat (minute + 0)) (UInt8.ofNat hour)
        (UInt8.ofNat (day + 32 * (year % 8))) (UInt8.ofNat (month + 16 * (year / 8))) s
      exact ⟨_, h, rfl⟩
    · rw [C23_integer_value cfg false .integer32 4 _ rfl, if_neg (by simp [Xml.encodeDateF])]
      exact ⟨_, rfl, rfl⟩
  | dateTimeSeconds day month year hour minute second week =>
    simp only [CodingOf] at hc
    rcases hc with rfl | rfl
    · obtain ⟨_, _, _, _, _, h, -⟩ := C26_type_i_partial cfg false (UInt8.ofNat second) (UInt8.ofNat (minute + 0))
        (UInt8.ofNat hour) (UInt8.ofNat (day + 32 * (year % 8))) (UInt8.ofNat (month + 16 * (year / 8))) week s
      exact ⟨_, h, rfl⟩
    · rw [C23_integer_value cfg false .integer48 6 _ rfl, if_neg (by simp [Xml.encodeDateI])]
      exact ⟨_, rfl, rfl⟩
  | nothing =>
    simp [CodingOf, codings] at hc
    subst hc
    exact ⟨⟨none, 0⟩, rfl, rfl⟩
  | selection =>
    simp [CodingOf, codings] at hc
    subst hc
    exact ⟨⟨none, 0⟩, rfl, rfl⟩

theorem nothing_value (cfg : Cfg) (data : List UInt8) (r : DataRecord) (di : DataInfo)
    (hp : DataRecord.parse cfg false data = .ok r) (hdi : r.header.processed.dataInfo = some di)
    (hc : di.coding = .noData ∨ di.coding = .selectionForReadout) : valueOutput r = ⟨"none".toList, none⟩ := by
  obtain ⟨rest, di', hdi', h1, -, -⟩ := dataBytes_eq cfg false data r hp
  rw [hdi] at hdi'
  cases hdi'
  have : r.data = ⟨none, 0⟩ := by
    rcases hc with hc | hc <;> (rw [hc] at h1; exact (Res.ok.inj h1).symm)
  unfold valueOutput
  rw [this]

theorem field_value {code : Nat} {content : Content} {field : List UInt8} (h : Field 7 code content field)
    (cfg : Cfg) (data : List UInt8) (r : DataRecord) (di : DataInfo) (v : ValueInfo)
    (hc : CodingOf content code di.coding) (hp : DataRecord.parse cfg false data = .ok r)
    (hdi : r.header.processed.dataInfo = some di) (hvi : r.header.processed.valueInfo = some v)
    (hd : r.dataBytes = field) (hn : corrections (vifesOf r) = [])
    (hreal : ∀ bits, content = .real bits → v.scale = 0) (hdt : ∀ a b c d e f, content ≠ .dateTime a b c d e f) :
    ShownValue v.scale content (valueOutput r) := by
  have exact : ∀ i : Int, ExactOutput r i → ShownValue v.scale (.number i) (valueOutput r) := by
    rintro i ⟨text, h1, h2, h3⟩
    rw [hn, hvi] at h2
    refine ⟨text, h1, ?_, h3 hn⟩
    simpa [scaledValue] using h2
  cases h with
  | binary _ n v h1 h2 h3 =>
    simp only [CodingOf] at hc
    have hw : integerWidth di.coding = some n := by
      generalize di.coding = c at hc
      simp only [binaryFields, List.mem_cons, List.not_mem_nil, or_false, Prod.mk.injEq] at h1
      rcases h1 with ⟨rfl, rfl⟩ | ⟨rfl, rfl⟩ | ⟨rfl, rfl⟩ | ⟨rfl, rfl⟩ | ⟨rfl, rfl⟩ | ⟨rfl, rfl⟩ <;>
        (simp [codings] at hc; subst hc; rfl)
    apply exact
    have := (C70_integers cfg false data r di n hp hdi hw).2
    rwa [hd, twosComplement_encodeLe n v h2 h3] at this
  | bcd _ n v h1 h2 =>
    simp only [CodingOf] at hc
    have hw : bcdWidth di.coding = some n := by
      generalize di.coding = c at hc
      simp only [bcdFields, List.mem_cons, List.not_mem_nil, or_false, Prod.mk.injEq] at h1
      rcases h1 with ⟨rfl, rfl⟩ | ⟨rfl, rfl⟩ | ⟨rfl, rfl⟩ | ⟨rfl, rfl⟩ | ⟨rfl, rfl⟩ <;>
        (simp [codings] at hc; subst hc; rfl)
    apply exact
    have := (C70_bcd cfg false data r di n hp hdi hw).2
    simpa [hd, bcdValue_encodeBcd, Nat.mod_eq_of_lt h2] using this
  | variableBinary n v h1 h2 h3 h4 =>
    apply exact
    have := (C70_variable_integers cfg false data r di _ (encodeLe n v) n hp hdi (by simpa [CodingOf, codings] using hc.symm) hd (by
      unfold lvar
      simp only [lvar_ofNat 0xE0 n (by omega)]
      rw [if_neg (by omega), if_neg (by omega), if_neg (by omega), if_pos (by omega)]
      rw [Nat.add_sub_cancel_left]) h1).2
    rwa [twosComplement_encodeLe n v h3 h4] at this
  | variableBcd n v h1 h2 =>
    apply exact
    have := (C70_variable_bcd_partial cfg false false data r di _ (encodeBcd n v) n hp hdi
      (by simpa [CodingOf, codings] using hc.symm) hd (by
      unfold lvar
      simp only [lvar_ofNat 0xC0 n (by omega)]
      rw [if_neg (by omega), if_pos (by omega)]
      simp) h1).2
    simpa [bcdValue_encodeBcd, Nat.mod_eq_of_lt h2] using this
  | variableNegative n v h1 h2 =>
    apply exact
    have := (C70_variable_bcd_partial cfg false true data r di _ (encodeBcd n v) n hp hdi
      (by simpa [CodingOf, codings] using hc.symm) hd (by
      unfold lvar
      simp only [lvar_ofNat 0xD0 n (by omega)]
      rw [if_neg (by omega), if_neg (by omega), if_pos (by omega)]
      simp) h1).2
    simpa [bcdValue_encodeBcd, Nat.mod_eq_of_lt h2] using this
  | text t h1 =>
    exact C71_round_trip cfg false data r di t hp hdi (by simpa [CodingOf, codings] using hc.symm) hd h1
  | real bits h1 =>
    obtain ⟨b, h2, -, h4⟩ := C70_reals cfg false data r di hp hdi (by simpa [CodingOf, codings] using hc.symm)
    have hb : b.toNat = bits := by
      have := leValue_encodeLe 4 bits
      rw [h2, hd]
      omega
    simp only [ShownValue]
    rw [h4, hb, hreal bits rfl]
    split
    · rename_i h5
      rw [if_pos (by omega)]
      split_ifs <;> rfl
    · rename_i h5
      rw [if_neg (by omega)]
      exact ⟨b, rfl, by rw [hb]; omega, by rw [hb]; simp⟩
  | date day month year h1 h2 h3 =>
    exact C72_encoded_date_partial cfg false data r di day month year hp hdi hc hd h1 h2 h3
  | dateTime => exact absurd rfl (hdt _ _ _ _ _ _)
  | dateTimeSeconds => exact absurd rfl (hdt _ _ _ _ _ _)
  | nothing =>
    exact nothing_value cfg data r di hp hdi (.inl (by simpa [CodingOf, codings] using hc.symm))
  | selection =>
    exact nothing_value cfg data r di hp hdi (.inr (by simpa [CodingOf, codings] using hc.symm))

/-! ## Records -/

theorem difeBytes_getD (n s t u : Nat) :
    ((if n = 0 then none else some (difeBytes n s t u) : Option (List UInt8)).getD []) = difeBytes n s t u := by
  cases n <;> simp [difeBytes]

theorem dib_sent (n dif s t u : Nat) (rest : List UInt8) (hn : n ≤ 10) (hd : dif < 128) :
    DIB.tryFrom (UInt8.ofNat (dif + (if n = 0 then 0 else 128)) :: (difeBytes n s t u ++ rest)) =
      .ok ⟨UInt8.ofNat (dif + (if n = 0 then 0 else 128)), if n = 0 then none else some (difeBytes n s t u)⟩ := by
  rw [dib_ok]
  cases n with
  | zero =>
    left
    exact ⟨_, rest, rfl, by rw [UInt8.toNat_ofNat']; simp; omega, rfl⟩
  | succ n =>
    right
    refine ⟨_, difeBytes (n + 1) s t u, rest, rfl, ?_, difeBytes_chain n s t u, by rw [difeBytes_length]; omega, rfl⟩
    rw [UInt8.toNat_ofNat']
    simp
    omega

theorem function_plain (i : Nat) (r : DataRecord) (di : DataInfo) (hr : r.header.processed.dataInfo = some di)
    (hc : ∀ f, di.coding ≠ .specialFunctions f) :
    (recordOutput i r).function = recordFunctionName di.functionField := by
  unfold recordOutput
  simp only [hr]

theorem not_dateTime (r : MeterReading) (hw : misread r.codes = false) (hsu : suits r = true) :
    ∀ a b c d e f, r.content ≠ .dateTime a b c d e f := by
  intro a b c d e f hcon
  simp only [suits, hcon] at hsu
  rcases of_decide_eq_true hsu with h | h
  · match hcs : r.codes, h with
    | k :: rest, h => simp only [List.head?_cons, Option.some.injEq] at h; subst h; rw [hcs] at hw; cases hw
  · match hcs : r.codes, h with
    | k :: l :: rest, h =>
      simp only [List.take_succ_cons, List.take_zero, List.cons.injEq, and_true] at h
      obtain ⟨rfl, rfl⟩ := h
      rw [hcs] at hw
      cases hw

theorem sent_parse (cfg : Cfg) (r : MeterReading) (bytes s : List UInt8) (es : List Effect) (h : Sent 7 r bytes)
    (hm : codeMeanings r.codes = some es) (hw : misread r.codes = false) (hl : r.codes.length ≤ 5)
    (hs : r.storage ≤ 1) (hsu : suits r = true) :
    ∃ rec, DataRecord.parse cfg false (bytes ++ s) = .ok rec ∧ rec.rawBytes = bytes ∧
      (∀ b ∈ bytes.head?, b.toNat % 16 ≠ 15) ∧ (∀ i, Shown r (recordOutput i rec)) ∧
      ∃ code di, Field 7 code r.content rec.dataBytes ∧ rec.header.processed.dataInfo = some di ∧
        CodingOf r.content code di.coding := by
  cases h with
  | record n code field h1 h2 h3 h4 h5 h6 h7 h8 =>
  obtain ⟨c, rest, hcr⟩ := List.exists_cons_of_ne_nil h6
  have hreal : ∀ bits, r.content = .real bits → (total es).scale = 0 := by
    intro bits hb
    simp only [suits, hb, hm] at hsu
    simpa using (of_decide_eq_true hsu).2
  have hdt := not_dateTime r hw hsu
  unfold suits at hsu
  rw [hcr] at hm hw hl h7 hsu
  have hcode := field_code h8
  obtain ⟨hv, hnd, hc7, hcor⟩ := codes_sent c rest es h7 hm hw (by simp at hl; omega)
  have hs2 : r.storage / 2 = 0 := by omega
  generalize hdn : code + 16 * r.function + 64 * (r.storage % 2) = dn
  have hdn' : dn < 128 := by omega
  have hdif : (UInt8.ofNat (dn + (if n = 0 then 0 else 128))).toNat = dn + (if n = 0 then 0 else 128) := by
    rw [UInt8.toNat_ofNat']; split <;> omega
  generalize hdifb : UInt8.ofNat (dn + (if n = 0 then 0 else 128)) = dif at hdif
  have hmod : dif.toNat % 16 = code ∧ dif.toNat / 16 % 4 = r.function ∧ dif.toNat / 64 % 2 = r.storage := by
    rw [hdif]; split <;> omega
  let tail : List UInt8 := codeBytes (c :: rest) ++ (field ++ s)
  let dib : DIB := ⟨dif, if n = 0 then none else some (difeBytes n (r.storage / 2) r.tariff r.subunit)⟩
  let raw : RawHeader := ⟨dib, some (vibOf c rest)⟩
  have hdib : DIB.tryFrom (dif :: (difeBytes n (r.storage / 2) r.tariff r.subunit ++ tail)) = .ok dib := by
    rw [← hdifb]; simpa [dib, ← hdifb] using dib_sent n dn (r.storage / 2) r.tariff r.subunit tail h2 hdn'
  have hhb : headerBytes cfg.plaintextFirst raw =
      dif :: (difeBytes n (r.storage / 2) r.tariff r.subunit ++ codeBytes (c :: rest)) := by
    simp only [headerBytes, raw, dib, difeBytes_getD, codeBytes_cons, vibOf, textBytes]
    cases hr : rest with
    | nil => simp [codeBytes]
    | cons a b => simp
  have hsz : dib.size = 1 + n := by
    rw [dib_size]; simp [dibBytes, dib, difeBytes_getD, difeBytes_length]; omega
  have hraw : RawHeader.tryFrom cfg (dif :: (difeBytes n (r.storage / 2) r.tariff r.subunit ++ tail)) = .ok raw := by
    unfold RawHeader.tryFrom
    rw [hdib]
    have hsp : isSpecialFunction dif = false := by
      rw [Bool.eq_false_iff, ne_eq, special_iff]; omega
    have hsl : sliceFrom? (dif :: (difeBytes n (r.storage / 2) r.tariff r.subunit ++ tail)) dib.size = some tail := by
      rw [hsz, sliceFrom?_length _ _ (by simp [difeBytes_length]; omega), Nat.add_comm 1 n, List.drop_succ_cons,
        List.drop_left' (difeBytes_length ..)]
    have hvib := vib_sent cfg c rest (field ++ s) h7 hc7 (by simp at hl; omega)
    simp only [Res.mapErr_ok, Res.bind_ok, show dib.dif = dif from rfl, hsp, Bool.not_false, if_true, hsl,
      Res.ofOption_some, tail, hvib]
    rfl
  obtain ⟨di, hdi, d1, d2, d3, d4, d5, d6⟩ := dataInfo_ok dib (by simp [dib, difeBytes_getD, difeBytes_length]; omega)
  obtain ⟨n1, n2, n3⟩ := difeBytes_numbers n (r.storage / 2) r.tariff r.subunit
  simp only [dib, difeBytes_getD] at d1 d2 d3 d4 d5
  rw [hmod.2.2, n1, hs2] at d1
  rw [n2, Nat.mod_eq_of_lt h4] at d2
  rw [n3, Nat.mod_eq_of_lt h5] at d3
  have hcoding : codings[code]? = some di.coding := by
    rw [d5, ← hmod.1]; exact codingOf_codings dif (by omega)
  let di' : DataInfo := { di with coding := dateCoding (total es).labels di.coding }
  have hcoding' : CodingOf r.content code di'.coding := by
    simp only [di', hnd]
    unfold CodingOf
    split
    · rename_i heq
      rw [heq] at hsu
      simp only [List.head?_cons, Option.some.injEq, decide_eq_true_eq] at hsu
      rw [if_pos hsu]
    · rename_i heq; exact absurd heq (hdt _ _ _ _ _ _)
    · rename_i heq; exact absurd heq (hdt _ _ _ _ _ _)
    · rename_i hno _ _
      rw [if_neg ?_]
      · exact hcoding
      · split at hsu
        · rename_i heq; exact absurd heq (hno _ _ _)
        · rename_i heq; exact absurd heq (hdt _ _ _ _ _ _)
        · simp at hsu; exact hsu.1
        · simpa using hsu
  let processed : ProcessedHeader := ⟨some di', some (total es)⟩
  have hproc : ProcessedHeader.tryFrom raw = .ok processed := by
    unfold ProcessedHeader.tryFrom
    simp only [raw, hv, hdi, Res.mapErr_ok, Res.bind_ok, processed, di']
  obtain ⟨d, hd, hdsz⟩ := field_coding h8 di'.coding hcoding' cfg s
  let rec' : DataRecord := ⟨⟨raw, processed⟩, d, headerBytes cfg.plaintextFirst raw ++ field⟩
  have hdata : dif :: (difeBytes n (r.storage / 2) r.tariff r.subunit ++ tail) =
      headerBytes cfg.plaintextFirst raw ++ (field ++ s) := by rw [hhb]; simp [tail]
  have hparse : DataRecord.parse cfg false (dif :: (difeBytes n (r.storage / 2) r.tariff r.subunit ++ tail)) = .ok rec' := by
    rw [record_ok]
    refine ⟨?_, field ++ s, di', hdata, rfl, hd, ?_⟩
    · unfold RecordHeader.tryFrom
      rw [hraw, Res.bind_ok, hproc]
      rfl
    · simp only [rec', hdsz, List.take_left']
  have hdb : rec'.dataBytes = field := by
    obtain ⟨_, e1, e2, _, _⟩ := C29_raw_bytes cfg false _ rec' hparse
    rw [e2] at e1
    exact List.append_cancel_left e1
  refine ⟨rec', ?_, ?_, ?_, ?_, code, di', by rw [hdb]; exact h8, rfl, hcoding'⟩
  · rw [← hparse, hcr]; simp [tail]
  · simp only [rec', hhb, hcr]; simp
  · simp only [List.head?_cons, Option.mem_some_iff]
    rintro b rfl
    omega
  · intro i
    have hval := field_value h8 cfg _ rec' di' (total es) hcoding' hparse rfl rfl hdb (by
      rw [show vifesOf rec' = (vibOf c rest).vifes.getD [] from rfl, vibOf_vifes, hcor]) hreal hdt
    refine ⟨?_, ?_, ?_, ?_, es, by rw [hcr]; exact hm, hval, C122_names i rec', ?_, ?_⟩
    · have hf : (recordOutput i rec').function = recordFunctionName di.functionField := by
        have hr : rec'.header.processed.dataInfo = some di' := rfl
        have hcp : ∀ f, di'.coding ≠ .specialFunctions f := by
          intro f hf
          simp only [di', hnd] at hf
          split at hf
          · cases hf
          · rw [hf] at hcoding
            have := List.mem_of_getElem? hcoding
            simp [codings] at this
        exact function_plain i rec' di' hr hcp
      rw [hf, d4]
      have key : ∀ b : UInt8, (["Instantaneous value", "Maximum value", "Minimum value", "Value during error state"].map
        String.toList)[b.toNat / 16 % 4]? = some (recordFunctionName (functionFieldOf b)) := by decide +kernel
      rw [← hmod.2.1]
      exact key dif
    · show di.storageNumber = r.storage
      rw [d1, Nat.zero_mod, Nat.mul_zero, Nat.add_zero]
    · exact d2
    · exact d3
    · intro hu
      show (if (total es).units = [] then none else some (unitOutput (total es).units)) = none
      rw [if_pos hu]
    · intro hu
      refine ⟨unitOutput (total es).units, ?_, fun hall => unitOutput_term _ hu hall⟩
      show (if (total es).units = [] then none else some (unitOutput (total es).units)) = _
      rw [if_neg hu]

end MBus
