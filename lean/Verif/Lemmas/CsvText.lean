import Verif.Spec.CsvText
import Verif.Model.CsvText
/-!
# Lemmas for the text of CSV files
-/
namespace MBus
open MBus.Spec

theorem quoted_eq {t v t' v' s s' : List Char} (h : CsvQuoted t v) (h' : CsvQuoted t' v')
    (hs : s.head? ≠ some '"') (hs' : s'.head? ≠ some '"') (e : t ++ '"' :: s = t' ++ '"' :: s') :
    t = t' ∧ v = v' ∧ s = s' := by
  induction h generalizing t' v' with
  | nil =>
    cases h' with
    | nil => simpa using e
    | plain c hc _ => simp at e; exact absurd e.1.symm hc
    | quote _ => simp at e; subst e; simp at hs
  | plain c hc _ ih =>
    cases h' with
    | nil => simp at e; exact absurd e.1 hc
    | plain c' hc' g =>
      simp at e
      obtain ⟨rfl, e⟩ := e
      obtain ⟨rfl, rfl, rfl⟩ := ih g (by simpa using e)
      exact ⟨rfl, rfl, rfl⟩
    | quote _ => simp at e; exact absurd e.1 hc
  | quote _ ih =>
    cases h' with
    | nil => simp at e; subst e; simp at hs'
    | plain c hc _ => simp at e; exact absurd e.1.symm hc
    | quote g =>
      simp at e
      obtain ⟨rfl, rfl, rfl⟩ := ih g (by simpa using e)
      exact ⟨rfl, rfl, rfl⟩

/-- What may follow a field. -/
def Stops (s : List Char) : Prop := ∃ c r, s = c :: r ∧ c ∈ [',', '\r', '\n']

theorem plain_eq {v v' s s' : List Char} (h : ∀ c ∈ v, c ∉ [',', '"', '\r', '\n'])
    (h' : ∀ c ∈ v', c ∉ [',', '"', '\r', '\n']) (hs : Stops s) (hs' : Stops s')
    (e : v ++ s = v' ++ s') : v = v' ∧ s = s' := by
  induction v generalizing v' with
  | nil =>
    cases v' with
    | nil => exact ⟨rfl, by simpa using e⟩
    | cons a v' =>
      obtain ⟨c, r, rfl, hc⟩ := hs
      simp at e
      have := h' a (by simp)
      rw [← e.1] at this
      exfalso; simp at this hc; tauto
  | cons a v ih =>
    cases v' with
    | nil =>
      obtain ⟨c, r, rfl, hc⟩ := hs'
      simp at e
      have := h a (by simp)
      rw [e.1] at this
      exfalso; simp at this hc; tauto
    | cons a' v' =>
      simp at e
      obtain ⟨rfl, e⟩ := e
      obtain ⟨rfl, rfl⟩ := ih (fun c hc => h c (by simp [hc])) (fun c hc => h' c (by simp [hc])) e
      exact ⟨rfl, rfl⟩

theorem stops_head {s : List Char} (h : Stops s) : s.head? ≠ some '"' := by
  obtain ⟨c, r, rfl, hc⟩ := h
  intro e
  simp at e
  subst e
  revert hc; decide

theorem plain_head {v s : List Char} (h : ∀ c ∈ v, c ∉ [',', '"', '\r', '\n']) (hs : Stops s) (t : List Char) :
    v ++ s ≠ '"' :: t := by
  intro e
  cases v with
  | nil => exact stops_head hs (by rw [List.nil_append] at e; rw [e]; rfl)
  | cons a v =>
    simp at e
    have := h a (by simp)
    rw [e.1] at this
    simp at this

theorem csvField_eq {t v t' v' s s' : List Char} (h : CsvField t v) (h' : CsvField t' v') (hs : Stops s)
    (hs' : Stops s') (e : t ++ s = t' ++ s') : t = t' ∧ v = v' ∧ s = s' := by
  cases h with
  | quoted g =>
    cases h' with
    | quoted g' =>
      simp at e
      obtain ⟨rfl, rfl, rfl⟩ := quoted_eq g g' (stops_head hs) (stops_head hs') e
      exact ⟨rfl, rfl, rfl⟩
    | plain g' => exact absurd e.symm (by simpa using plain_head g' hs' _)
  | plain g =>
    cases h' with
    | quoted g' => exact absurd e (by simpa using plain_head g hs _)
    | plain g' => obtain ⟨rfl, rfl⟩ := plain_eq g g' hs hs' e; exact ⟨rfl, rfl, rfl⟩

/-- What may follow a line. -/
def Ends (s : List Char) : Prop := ∃ c r, s = c :: r ∧ c ∈ ['\r', '\n']

theorem Ends.stops {s : List Char} (h : Ends s) : Stops s := by
  obtain ⟨c, r, rfl, h⟩ := h
  exact ⟨c, r, rfl, List.mem_cons_of_mem _ h⟩

theorem ends_comma {s : List Char} (h : Ends s) (t : List Char) : s ≠ ',' :: t := by
  obtain ⟨c, r, rfl, h⟩ := h
  intro e
  simp at e
  rw [e.1] at h
  revert h; decide

theorem record_eq {t t' s s' : List Char} {r r' : List (List Char)} (h : CsvRecord t r) (h' : CsvRecord t' r')
    (hs : Ends s) (hs' : Ends s') (e : t ++ s = t' ++ s') : t = t' ∧ r = r' ∧ s = s' := by
  induction h generalizing t' r' with
  | one g =>
    cases h' with
    | one g' =>
      obtain ⟨rfl, rfl, rfl⟩ := csvField_eq g g' hs.stops hs'.stops e
      exact ⟨rfl, rfl, rfl⟩
    | more g' k =>
      rw [List.append_assoc] at e
      have := (csvField_eq g g' hs.stops ⟨',', _, rfl, by decide⟩ e).2.2
      exact absurd this (ends_comma hs _)
  | more g k ih =>
    rw [List.append_assoc] at e
    cases h' with
    | one g' =>
      have := (csvField_eq g g' ⟨',', _, rfl, by decide⟩ hs'.stops e).2.2
      exact absurd this.symm (ends_comma hs' _)
    | more g' k' =>
      rw [List.append_assoc] at e
      obtain ⟨rfl, rfl, e2⟩ := csvField_eq g g' ⟨',', _, rfl, by decide⟩ ⟨',', _, rfl, by decide⟩ e
      simp at e2
      obtain ⟨rfl, rfl, rfl⟩ := ih k' e2
      exact ⟨rfl, rfl, rfl⟩

theorem ends_break {e s : List Char} (h : e ∈ [['\n'], ['\r', '\n']]) : Ends (e ++ s) := by
  simp at h
  rcases h with rfl | rfl
  · exact ⟨'\n', _, rfl, by decide⟩
  · exact ⟨'\r', _, rfl, by decide⟩

theorem file_eq {t : List Char} {rs rs' : List (List (List Char))} (h : CsvFile t rs) (h' : CsvFile t rs') :
    rs = rs' := by
  induction h generalizing rs' with
  | nil =>
    generalize hx : ([] : List Char) = x at h'
    cases h' with
    | nil => rfl
    | line g he k =>
      exfalso
      have := congrArg List.length hx
      simp at this
      simp at he
      rcases he with rfl | rfl <;> simp at this <;> omega
  | @line t s e r rs g he k ih =>
    generalize hx : t ++ e ++ s = x at h'
    cases h' with
    | nil =>
      exfalso
      have := congrArg List.length hx
      simp at this
      revert he
      simp [this]
    | @line t' s' e' r' rs' g' he' k' =>
      rw [List.append_assoc, List.append_assoc] at hx
      obtain ⟨rfl, rfl, hx⟩ := record_eq g g' (ends_break he) (ends_break he') hx
      have : s = s' := by
        simp at he he'
        rcases he with rfl | rfl <;> rcases he' with rfl | rfl <;> simp at hx
        · exact hx
        · exact hx
      subst this
      rw [ih k']

theorem csvQuoted_reads (v : List Char) :
    CsvQuoted (v.flatMap (fun c => if c = '"' then ['"', '"'] else [c])) v := by
  induction v with
  | nil => exact .nil
  | cons c v ih =>
    rw [List.flatMap_cons]
    by_cases h : c = '"'
    · subst h; simpa using CsvQuoted.quote ih
    · simpa [h] using CsvQuoted.plain c h ih

theorem csvField_reads (v : List Char) : Spec.CsvField (csvField v) v := by
  unfold csvField
  split
  · exact .quoted (csvQuoted_reads v)
  · next h =>
    refine .plain fun c hc => ?_
    simp only [csvNeedsQuotes, List.any_eq_true, not_exists, not_and] at h
    have := h c hc
    simp at this ⊢
    tauto

theorem csvFields_read : ∀ (vs : List (List Char)), vs ≠ [] →
    Spec.CsvRecord ([','].intercalate (vs.map csvField)) vs
  | [], h => absurd rfl h
  | [v], _ => by simpa using CsvRecord.one (csvField_reads v)
  | v :: w :: vs, _ => by
    have := CsvRecord.more (csvField_reads v) (csvFields_read (w :: vs) (by simp))
    simpa [List.intercalate] using this

theorem field_nil {v : List Char} (h : csvField v = []) : v = [] := by
  unfold csvField at h
  split at h
  · simp at h
  · exact h

theorem csvRecord_reads (vs : List (List Char)) (h : vs ≠ []) :
    ∃ t, csvRecord vs = t ++ ['\n'] ∧ Spec.CsvRecord t vs := by
  unfold csvRecord
  simp only
  split
  · next he =>
    refine ⟨_, rfl, ?_⟩
    cases vs with
    | nil => exact absurd rfl h
    | cons v vs =>
      cases vs with
      | nil =>
        simp at he
        rw [field_nil he]
        exact .one (.quoted .nil)
      | cons w vs => simp [List.intercalate] at he
  · exact ⟨_, rfl, csvFields_read vs h⟩

theorem csvRecords_read (rows : List (List (List Char))) (h : ∀ r ∈ rows, r ≠ []) :
    CsvFile (rows.flatMap csvRecord) rows := by
  induction rows with
  | nil => exact .nil
  | cons r rows ih =>
    obtain ⟨t, e, g⟩ := csvRecord_reads r (h r (by simp))
    rw [List.flatMap_cons, e]
    exact .line g (by simp) (ih fun x hx => h x (by simp [hx]))

end MBus
