import Verif.Lemmas.Ucum
import Verif.Props.RecordOutput
import Verif.Props.ValueInfo
import Verif.Model.Output
/-!
# C121, C122: units and quantities of the structured output
-/
namespace MBus
open MBus.Spec

/-! ## C121 -/

theorem ucumOf_symbol : ∀ n : UnitName, ucumOf n = ucumSymbol n := by intro n; cases n <;> rfl

theorem ucumOf_mem : ∀ (n : UnitName) (s : String), ucumOf n = some s → s ∈ ucumSymbols := by
  have : ∀ s ∈ ["W", "J", "kg", "t", "m", "[ft_i]", "Cel", "K", "bar", "s", "min", "h", "d", "wk", "mo", "a", "L",
    "V", "A", "%", "Hz", "[degF]", "[gal_us]", "cal"], s ∈ ucumSymbols := by decide +kernel
  intro n s h
  apply this
  cases n <;> simp only [ucumOf, Option.some.injEq, reduceCtorEq] at h <;> subst h <;> simp

theorem component_factor (u : MUnit) (s : String) (h : ucumOf u.name = some s) :
    ∃ t, ucumComponent u = some t ∧ UcumFactor t s u.exponent := by
  unfold ucumComponent
  rw [← ucumOf_symbol, h]
  refine ⟨_, rfl, ?_⟩
  have hm := ucumOf_mem _ _ h
  split
  · rename_i he
    rw [he]
    exact .plain s hm
  · exact .power s _ _ hm (by rw [intDisplay_eq]; exact C45_denotes _)

/-- The factors of a list of units with UCUM symbols. -/
def Spec.ucumFactors (units : List MUnit) : List (String × Int) :=
  units.map (fun u => ((ucumOf u.name).getD "", u.exponent))

theorem components_term (units : List MUnit) (hne : units ≠ []) (h : ∀ u ∈ units, (ucumOf u.name).isSome) :
    ∃ ts, units.mapM ucumComponent = some ts ∧ ts ≠ [] ∧ UcumTerm (['.'].intercalate ts) (ucumFactors units) := by
  induction units with
  | nil => exact absurd rfl hne
  | cons u rest ih =>
    obtain ⟨s, hs⟩ := Option.isSome_iff_exists.1 (h u (by simp))
    obtain ⟨t, h1, h2⟩ := component_factor u s hs
    by_cases hr : rest = []
    · subst hr
      refine ⟨[t], by simp [h1], by simp, ?_⟩
      simpa [ucumFactors, hs, List.intercalate] using UcumTerm.one _ _ _ h2
    · obtain ⟨ts, h3, h4, h5⟩ := ih hr (fun u hu => h u (by simp [hu]))
      refine ⟨t :: ts, by simp [h1, h3], by simp, ?_⟩
      have : ['.'].intercalate (t :: ts) = t ++ '.' :: ['.'].intercalate ts := by
        cases ts with
        | nil => exact absurd rfl h4
        | cons a ts => simp [List.intercalate]
      rw [this]
      simpa [ucumFactors, hs] using UcumTerm.times _ _ _ _ _ h2 h5

theorem unitOutput_term (units : List MUnit) (hne : units ≠ []) (h : ∀ u ∈ units, (ucumOf u.name).isSome) :
    UcumTerm (unitOutput units) (ucumFactors units) := by
  obtain ⟨ts, h1, _, h3⟩ := components_term units hne h
  simpa [unitOutput, h1] using h3

/-- C121: the unit of a record whose units all have a symbol in UCUM is a UCUM term of these units, with only one
reading; it is a valid unit unless a temperature scale is multiplied or raised to a power.  A record without
units has no unit. -/
theorem C121_term_partial (i : Nat) (r : DataRecord) (v : ValueInfo)
    (hv : r.header.processed.valueInfo = some v) :
    (v.units = [] → (recordOutput i r).unit = none) ∧
    (v.units ≠ [] → (∀ u ∈ v.units, (ucumOf u.name).isSome) →
      ∃ text, (recordOutput i r).unit = some text ∧ UcumTerm text (ucumFactors v.units) ∧
        (∀ factors, UcumTerm text factors → factors = ucumFactors v.units) ∧
        ((∀ u ∈ v.units, u.name = .celsius ∨ u.name = .fahrenheit → v.units = [⟨u.name, 1⟩]) →
          UcumUnit text (ucumFactors v.units))) := by
  have hu : (recordOutput i r).unit = if v.units = [] then none else some (unitOutput v.units) := by
    simp [recordOutput, hv]
  refine ⟨fun h => by rw [hu, if_pos h], fun h1 h2 => ?_⟩
  have ht := unitOutput_term v.units h1 h2
  refine ⟨_, by rw [hu, if_neg h1], ht, fun f hf => term_unique hf ht, fun h3 => ⟨ht, ?_⟩⟩
  intro f hf hs
  obtain ⟨u, hu, rfl⟩ := List.mem_map.1 hf
  have key : ∀ n : UnitName, ((ucumOf n).getD "" = "Cel" ∨ (ucumOf n).getD "" = "[degF]") →
      n = .celsius ∨ n = .fahrenheit := by intro n; cases n <;> decide
  have := h3 u hu (key _ hs)
  rw [this]
  rfl

/-- C121: the number of base units the text stands for in UCUM is that of the units of the record.  Not covered
are months and years, which are other lengths of time in the XML output, and litres, which do not occur there. -/
theorem C121_meaning_partial (units : List MUnit)
    (h : ∀ u ∈ units, (ucumOf u.name).isSome ∧ u.name ∉ [.month, .year, .liter]) :
    libraryQuantity 0 units = some (ucumQuantity (ucumFactors units)) := by
  let own : MUnit → List (Base × Rat × Int) := fun u => ucumParts ((ucumOf u.name).getD "", u.exponent)
  have key : ∀ u : MUnit, (ucumOf u.name).isSome → u.name ∉ [.month, .year, .liter] →
      (do
        let (b, m) ← unitBase u.name
        let own : List (Base × Rat × Int) := [(b, m, u.exponent)]
        some (if u.name = .joul then own ++ [(.second, 1, u.exponent)] else own)) = some (own u) := by
    rintro ⟨n, e⟩ h1 h2
    have hl : ∀ s p, (s, p) ∈ ucumAtoms → ucumAtoms.lookup s = some p := by
      have : ∀ x ∈ ucumAtoms, ucumAtoms.lookup x.1 = some x.2 := by decide +kernel
      exact fun s p hx => this _ hx
    cases n <;> simp [ucumOf] at h1 h2 <;> simp only [own, ucumParts, ucumOf, Option.getD_some] <;>
      simp [unitBase, ucumAtoms, List.lookup]
  have hm : units.mapM (fun u => do
      let (b, m) ← unitBase u.name
      let own : List (Base × Rat × Int) := [(b, m, u.exponent)]
      some (if u.name = .joul then own ++ [(.second, 1, u.exponent)] else own)) = some (units.map own) := by
    induction units with
    | nil => rfl
    | cons u rest ih =>
      rw [List.mapM_cons, key u (h u (by simp)).1 (h u (by simp)).2, ih (fun u hu => h u (by simp [hu]))]
      rfl
  unfold libraryQuantity ucumQuantity
  rw [hm]
  have : (units.map own).flatten = (ucumFactors units).flatMap ucumParts := by
    unfold ucumFactors
    rw [List.flatMap_map, List.flatMap_def]
  rw [show ten 0 = 1 by decide +kernel]
  simp only [Option.bind_eq_bind, Option.bind_some, this]

/-- C121: two records with the same unit text have the same units, if these have UCUM symbols. -/
theorem C121_determined_partial (us vs : List MUnit) (hu : ∀ u ∈ us, (ucumOf u.name).isSome)
    (hv : ∀ v ∈ vs, (ucumOf v.name).isSome) (h1 : us ≠ []) (h2 : vs ≠ [])
    (h : unitOutput us = unitOutput vs) : us = vs := by
  have ht := unitOutput_term us h1 hu
  rw [h] at ht
  have he := term_unique ht (unitOutput_term vs h2 hv)
  have key : ∀ a b : UnitName, (ucumOf a).isSome → ucumOf a = ucumOf b → a = b := by
    intro a b; cases a <;> cases b <;> simp [ucumOf]
  clear ht h h1 h2
  induction us generalizing vs with
  | nil => cases vs with
    | nil => rfl
    | cons v vs => simp [ucumFactors] at he
  | cons u us ih =>
    cases vs with
    | nil => simp [ucumFactors] at he
    | cons v vs =>
      simp only [ucumFactors, List.map_cons, List.cons.injEq, Prod.mk.injEq] at he
      obtain ⟨⟨h3, h4⟩, h5⟩ := he
      obtain ⟨s, hs⟩ := Option.isSome_iff_exists.1 (hu u (by simp))
      obtain ⟨s', hs'⟩ := Option.isSome_iff_exists.1 (hv v (by simp))
      rw [hs, hs'] at h3
      simp only [Option.getD_some] at h3
      have hn := key u.name v.name (by rw [hs]; rfl) (by rw [hs, hs', h3])
      rw [ih vs (fun u hu' => hu u (by simp [hu'])) (fun v hv' => hv v (by simp [hv'])) h5]
      cases u; cases v; simp_all

/-- C121: for every primary VIF whose unit is that of the standard (C22) the unit text is a valid UCUM unit, of the
dimension and size the standard says. -/
theorem C121_primary (vif : UInt8) (e : Effect)
    (h : vif.toNat < 0x70 ∨ (0x78 ≤ vif.toNat ∧ vif.toNat ≤ 0x7A))
    (he : meaning primaryRows vif.toNat = some e) (hu : e.units ≠ []) :
    ∃ v factors, ValueInfo.tryFrom ⟨vif, none, none⟩ = .ok v ∧ UcumUnit (unitOutput v.units) factors ∧
      libraryQuantity 0 e.units = some (ucumQuantity factors) := by
  refine ⟨_, ucumFactors e.units, C22_primary_reported vif e h he, ?_, ?_⟩
  all_goals
    have key : ∀ vif : UInt8, ∀ e ∈ meaning primaryRows vif.toNat,
      (∀ u ∈ e.units, (ucumOf u.name).isSome ∧ u.name ∉ [.month, .year, .liter]) ∧
      (∀ f ∈ ucumFactors e.units, f.1 = "Cel" ∨ f.1 = "[degF]" → ucumFactors e.units = [(f.1, 1)]) := by
      decide +kernel
    obtain ⟨k1, k2⟩ := key vif e he
  · exact ⟨unitOutput_term _ hu (fun u h => (k1 u h).1), k2⟩
  · exact C121_meaning_partial _ k1

/-- Volume flow in m3/h, and a temperature. -/
example : UcumUnit (unitOutput [⟨.meter, 3⟩, ⟨.hour, -1⟩]) [("m", 3), ("h", -1)] ∧
    unitOutput [⟨.meter, 3⟩, ⟨.hour, -1⟩] = "m3.h-1".toList ∧ UcumUnit (unitOutput [⟨.celsius, 1⟩]) [("Cel", 1)] ∧
    (meaning primaryRows 0x3B).map (·.units) = some [⟨.meter, 3⟩, ⟨.hour, -1⟩] :=
  ⟨⟨unitOutput_term [⟨.meter, 3⟩, ⟨.hour, -1⟩] (by simp) (by decide +kernel), by decide +kernel⟩,
    by decide +kernel, ⟨unitOutput_term [⟨.celsius, 1⟩] (by simp) (by decide +kernel), by decide +kernel⟩,
    by decide +kernel⟩

theorem term_head {t : List Char} {l : List (String × Int)} (h : UcumTerm t l) : ∀ c ∈ t,
    c = '.' ∨ expChar c = true ∨ ∃ a ∈ ucumSymbols, c ∈ a.toList := by
  have hf : ∀ {t : List Char} {a : String} {e : Int}, UcumFactor t a e → ∀ c ∈ t,
      c = '.' ∨ expChar c = true ∨ ∃ a ∈ ucumSymbols, c ∈ a.toList := by
    intro t a e h c hc
    obtain ⟨h1, x, rfl, hx⟩ := factor_split h
    rw [List.mem_append] at hc
    rcases hc with hc | hc
    · exact Or.inr (Or.inr ⟨a, h1, hc⟩)
    · rcases hx with ⟨rfl, _⟩ | hx
      · simp at hc
      · exact Or.inr (Or.inl ((denotesInt_chars hx).2 c hc).1)
  induction h with
  | one t a e h => exact hf h
  | times t rest a e l h _ ih =>
    intro c hc
    rw [List.mem_append, List.mem_cons] at hc
    rcases hc with hc | rfl | hc
    · exact hf h c hc
    · exact Or.inl rfl
    · exact ih c hc

/-- C121 is false for the other units: a reactive energy (FB 02) has a unit text which is no UCUM term, a flow
temperature per hour one that is a term but no unit. -/
theorem C121_fails (cfg : Cfg) :
    (∃ data r, DataRecord.parse cfg false data = .ok r ∧
      ∃ text, (recordOutput 0 r).unit = some text ∧ text = "W (reactive)h".toList ∧ ∀ l, ¬ UcumTerm text l) ∧
    ∃ data r, DataRecord.parse cfg false data = .ok r ∧
      ∃ text, (recordOutput 0 r).unit = some text ∧ text = "Cel.h-1".toList ∧ ∀ l, ¬ UcumUnit text l := by
  have key : ∀ (data : List UInt8) (text : List Char),
      (DataRecord.parse cfg false data).toOption.any (fun r => (recordOutput 0 r).unit == some text) = true →
      ∃ r, DataRecord.parse cfg false data = .ok r ∧ (recordOutput 0 r).unit = some text := by
    intro data text h
    cases hp : DataRecord.parse cfg false data with
    | ok r => rw [hp] at h; exact ⟨r, rfl, by simpa [Res.toOption] using h⟩
    | err e => rw [hp] at h; simp [Res.toOption] at h
    | panic => rw [hp] at h; simp [Res.toOption] at h
  obtain ⟨r, h1, h2⟩ := key [0x01, 0xFB, 0x02, 5] "W (reactive)h".toList (by
    obtain ⟨oc, tf⟩ := cfg; cases oc <;> cases tf <;> decide +kernel)
  obtain ⟨r', h1', h2'⟩ := key [0x01, 0xD8, 0x22, 5] "Cel.h-1".toList (by
    obtain ⟨oc, tf⟩ := cfg; cases oc <;> cases tf <;> decide +kernel)
  refine ⟨⟨_, r, h1, _, h2, rfl, ?_⟩, ⟨_, r', h1', _, h2', rfl, ?_⟩⟩
  · intro l hl
    have hb : ∀ a ∈ ucumSymbols, ' ' ∉ a.toList := by decide +kernel
    rcases term_head hl ' ' (by decide +kernel) with h | h | ⟨a, ha, h⟩
    · exact absurd h (by decide)
    · exact absurd h (by decide)
    · exact hb a ha h
  · intro l hl
    have ht := unitOutput_term [⟨.celsius, 1⟩, ⟨.hour, -1⟩] (by simp) (by decide +kernel)
    have he : unitOutput [⟨.celsius, 1⟩, ⟨.hour, -1⟩] = "Cel.h-1".toList := by decide +kernel
    rw [he] at ht
    have := term_unique hl.1 ht
    rw [this] at hl
    exact absurd hl.2 (by decide +kernel)

/-- C121: a storage interval in years (FD 29) is shown in `a` in the structured output, for which UCUM has 31557600
seconds, and converted to 31556926 seconds in the XML output. -/
theorem C121_year_fails :
    ∃ v, ValueInfo.tryFrom ⟨0xFD, some [0x29], none⟩ = .ok v ∧ v.scale = 0 ∧ unitOutput v.units = ['a'] ∧
      (ucumQuantity [("a", 1)]).factor = 31557600 ∧
      Xml.vibUnit 0xFD [0x29] none = some (['s'], ⟨31556926, 0⟩, "Storage interval".toList) := by
  refine ⟨_, (by exact rfl), rfl, ?_, ?_, ?_⟩ <;> decide +kernel

/-! ## C122 -/

/-- C122: the quantities of a record are those of its value information, in order and by name. -/
theorem C122_names (i : Nat) (r : DataRecord) :
    (recordOutput i r).quantities =
      ((r.header.processed.valueInfo.map (·.labels)).getD []).map (fun l => (quantityText l).toList) := by
  have key : ∀ l : ValueLabel, MBus.quantityName l = (quantityText l).toList := by
    intro l; cases l <;> decide +kernel
  unfold recordOutput
  cases r.header.processed.valueInfo with
  | none => rfl
  | some v =>
    simp only [Option.map_some, Option.getD_some]
    exact List.map_congr_left (fun l _ => key l)

/-- C122: a name stands for one quantity, except that a date with a time has the same name with and without
seconds. -/
theorem C122_distinct (a b : ValueLabel) (h : quantityText a = quantityText b) :
    a = b ∨ (a ∈ [.dateTime, .dateTimeWithSeconds] ∧ b ∈ [.dateTime, .dateTimeWithSeconds]) := by
  have key : ∀ l : ValueLabel, ∃ l' ∈ sortedLabels, quantityText l' = quantityText l ∧
      (l' = l ∨ (l' = .dateTime ∧ l = .dateTimeWithSeconds)) := by
    intro l
    rcases sorted_all l with h | rfl
    · exact ⟨l, h, rfl, Or.inl rfl⟩
    · exact ⟨.dateTime, by decide +kernel, rfl, Or.inr ⟨rfl, rfl⟩⟩
  obtain ⟨a', h1, h2, h3⟩ := key a
  obtain ⟨b', h4, h5, h6⟩ := key b
  have : a' = b' := List.inj_on_of_nodup_map names_nodup h1 h4 (by simp only [h2, h5, h])
  subst this
  rcases h3 with rfl | ⟨rfl, rfl⟩ <;> rcases h6 with rfl | ⟨h6, rfl⟩ <;> simp_all

example : quantityText .volumeFlow = "Volume flow" ∧ MBus.quantityName .rfPowerLevel = "RF power level".toList := by
  decide +kernel

end MBus
