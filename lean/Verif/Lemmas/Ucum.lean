import Verif.Spec.Ucum
import Verif.Lemmas.Display
import Mathlib.Data.List.Nodup
/-! # Reading units back -/
namespace MBus
open MBus.Spec

/-- Characters of exponents. -/
def expChar (c : Char) : Bool := ('0' ≤ c && c ≤ '9') || c == '-'

theorem atom_chars : ∀ a ∈ ucumSymbols, a.toList ≠ [] ∧ ∀ c ∈ a.toList, expChar c = false ∧ c ≠ '.' := by
  decide +kernel

theorem denotesInt_chars {t : List Char} {i : Int} (h : DenotesInt t i) :
    t ≠ [] ∧ ∀ c ∈ t, expChar c = true ∧ c ≠ '.' := by
  obtain ⟨neg, ds, h1, h2, rfl, _⟩ := h
  refine ⟨by simp [h1], ?_⟩
  intro c hc
  rw [List.mem_append] at hc
  have hd : ∀ c : Char, '0' ≤ c ∧ c ≤ '9' → expChar c = true ∧ c ≠ '.' := by
    intro c ⟨h3, h4⟩
    refine ⟨by simp [expChar, h3, h4], ?_⟩
    rintro rfl
    exact absurd h3 (by decide)
  rcases hc with hc | hc
  · cases neg <;> simp [signText] at hc
    subst hc
    decide
  · exact hd c (h2 c hc)

theorem denotesInt_unique {t : List Char} {i j : Int} (h : DenotesInt t i) (h' : DenotesInt t j) : i = j := by
  obtain ⟨n, ds, h1, h2, rfl, rfl⟩ := h
  obtain ⟨n', ds', h1', h2', he, rfl⟩ := h'
  have hm : ∀ (l l' : List Char), Digits l → ¬ l = '-' :: l' := by
    rintro l l' hl rfl
    have := hl '-' (by simp)
    exact absurd this.1 (by decide)
  cases n <;> cases n' <;> simp only [signText, Bool.false_eq_true, if_false, if_true, List.nil_append,
    List.cons_append] at he
  · subst he; rfl
  · exact absurd he (hm _ _ h2)
  · exact absurd he.symm (hm _ _ h2')
  · simp only [List.cons.injEq, true_and] at he
    subst he; rfl

theorem factor_split {t : List Char} {a : String} {e : Int} (h : UcumFactor t a e) :
    a ∈ ucumSymbols ∧ ∃ x, t = a.toList ++ x ∧ (x = [] ∧ e = 1 ∨ DenotesInt x e) := by
  cases h with
  | plain _ h => exact ⟨h, [], by simp, Or.inl ⟨rfl, rfl⟩⟩
  | power _ x _ h h2 => exact ⟨h, x, rfl, Or.inr h2⟩

theorem factor_chars {t : List Char} {a : String} {e : Int} (h : UcumFactor t a e) :
    t ≠ [] ∧ '.' ∉ t := by
  obtain ⟨h1, x, rfl, hx⟩ := factor_split h
  obtain ⟨h2, h3⟩ := atom_chars a h1
  refine ⟨by simp [h2], ?_⟩
  rw [List.mem_append]
  rintro (hc | hc)
  · exact (h3 _ hc).2 rfl
  · rcases hx with ⟨rfl, _⟩ | hx
    · simp at hc
    · exact ((denotesInt_chars hx).2 _ hc).2 rfl

theorem takeWhile_split {p : Char → Bool} {a x : List Char} (ha : ∀ c ∈ a, p c = true)
    (hx : ∀ c ∈ x, p c = false) : (a ++ x).takeWhile p = a := by
  rw [List.takeWhile_append_of_pos ha]
  cases x with
  | nil => simp
  | cons c x => simp [hx c (by simp)]

theorem factor_unique {t : List Char} {a b : String} {e f : Int} (h : UcumFactor t a e)
    (h' : UcumFactor t b f) : a = b ∧ e = f := by
  obtain ⟨h1, x, hx, h2⟩ := factor_split h
  obtain ⟨h1', y, hy, h2'⟩ := factor_split h'
  have key : ∀ (a : String) (x : List Char) (e : Int), a ∈ ucumSymbols → (x = [] ∧ e = 1 ∨ DenotesInt x e) →
      (a.toList ++ x).takeWhile (fun c => !expChar c) = a.toList := by
    intro a x e ha hx
    apply takeWhile_split
    · intro c hc; simp [((atom_chars a ha).2 c hc).1]
    · intro c hc
      rcases hx with ⟨rfl, _⟩ | hx
      · simp at hc
      · simp [((denotesInt_chars hx).2 c hc).1]
  have ht : a.toList = b.toList := by
    rw [← key a x e h1 h2, ← key b y f h1' h2', ← hx, ← hy]
  have hab : a = b := String.toList_inj.1 ht
  subst hab
  rw [hx, List.append_cancel_left_eq] at hy
  subst hy
  refine ⟨rfl, ?_⟩
  rcases h2 with ⟨rfl, rfl⟩ | h2
  · rcases h2' with ⟨_, rfl⟩ | h2'
    · rfl
    · exact absurd rfl (denotesInt_chars h2').1
  · rcases h2' with ⟨rfl, rfl⟩ | h2'
    · exact absurd rfl (denotesInt_chars h2).1
    · exact denotesInt_unique h2 h2'

theorem dot_split {a b x y : List Char} (ha : '.' ∉ a) (hb : '.' ∉ b) (h : a ++ '.' :: x = b ++ '.' :: y) :
    a = b ∧ x = y := by
  have key : ∀ (a x : List Char), '.' ∉ a → (a ++ '.' :: x).takeWhile (· ≠ '.') = a := by
    intro a x ha
    rw [List.takeWhile_append_of_pos (by intro c hc; simp; rintro rfl; exact ha hc)]
    simp
  have : a = b := by rw [← key a x ha, h, key b y hb]
  subst this
  simpa using h

theorem term_unique {t : List Char} {l m : List (String × Int)} (h : UcumTerm t l) (h' : UcumTerm t m) :
    l = m := by
  induction h generalizing m with
  | one t a e hf =>
    cases h' with
    | one _ b f hf' => obtain ⟨rfl, rfl⟩ := factor_unique hf hf'; rfl
    | times t' rest b f l hf' _ => exact absurd (by simp) (factor_chars hf).2
  | times t rest a e l hf _ ih =>
    generalize hs : t ++ '.' :: rest = s at h'
    cases h' with
    | one _ b f hf' => exact absurd (by rw [← hs]; simp) (factor_chars hf').2
    | times t' rest' b f l' hf' h2 =>
      obtain ⟨rfl, rfl⟩ := dot_split (factor_chars hf).2 (factor_chars hf').2 hs
      obtain ⟨rfl, rfl⟩ := factor_unique hf hf'
      rw [ih h2]

/-! ## Names of quantities -/

/-- A number for a text. -/
def textCode (s : String) : Nat := s.toList.foldl (fun n c => n * 256 + c.toNat) 0

/-- All quantities but the date with a time with seconds, by the numbers of their names. -/
def sortedLabels : List ValueLabel :=
  [.mass, .debit, .power, .retry, .binary, .credit, .energy, .volume, .address, .current, .onTime,
   .voltage, .averaged, .customer, .endDate, .integral, .password, .pressure, .reserved, .baudRate,
   .frequency, .massFlow, .parameter, .atNeutral, .errorMask, .plainText, .atPhaseL1, .atPhaseL2,
   .atPhaseL3, .dayOfWeek, .deviceType, .errorFlags, .volumeFlow, .weekNumber, .atQuadrant1, .atQuadrant2,
   .atQuadrant3, .atQuadrant4, .futureValue, .manufacturer, .phaseItoU, .phaseUtoI, .phaseUtoU,
   .securityKey, .digitalInput, .dimensionless, .instantaneous, .resetCounter, .startDateOf,
   .apparentPower, .controlSignal, .dayMonthYear, .digitalOutput, .leakageValues, .moistureLevel,
   .operatingTime, .rfPowerLevel, .reactivePower, .remoteControl, .apparentEnergy, .compactProfile,
   .overflowValues, .reactiveEnergy, .accessCodeUser, .dateOfEndLast, .durationOfLast, .flowTemperature,
   .hardwareVersion, .modelOrVersion, .nonMetricUnits, .obisDeclaration, .storageInterval,
   .customerLocation, .dateOfEndFirst, .dimensionlessHCA, .durationOfFirst, .lowerLimitValue,
   .relativeHumidity, .date, .time, .upperLimitValue, .actualityDuration, .averagingDuration,
   .cumulationCounter, .dateOfBeginLast, .fabricationNumber, .hourMinuteSecond, .recordErrorCodes,
   .relativeDeviation, .returnTemperature, .dateOfBeginFirst, .responseDelayTime, .accessCodeOperator,
   .betweenPhasesL1L2, .betweenPhasesL2L3, .betweenPhasesL3L1, .externalTemperature, .accessCodeDeveloper,
   .manufacturerSpecific, .sizeOfStorageBlock, .operatingTimeBattery, .otherSoftwareVersion,
   .temperatureDifference, .enhancedIdentification, .inverseCompactProfile, .resultingRatingFactor,
   .valueAtBaseConditions, .revolutionOrMeasurement, .coefficientOfPerformance, .dataPresentedWithTypeC,
   .dataPresentedWithTypeD, .higherResolutionRegister, .metrologyFirmwareVersion, .dateTime,
   .accessCodeSystemOperator, .coldWarmTemperatureLimit, .remainingBatteryLifeTime,
   .reservedForObjectActions, .alternativeNonMetricUnits, .parameterSetIdentification,
   .secondarySensorMeasurement, .specialSupplierInformation, .thermalOutputRatingFactor,
   .displayOutputScalingFactor, .lowTemperatureRatingFactor, .standardConformDataContent,
   .stateOfParameterActivation, .currentlySelectedApplication, .durationSinceLastCumulation,
   .lastStorageForCycleStorage, .timePointOfChangeOfTariff, .dateAndTimeOfBatteryChange,
   .deltaBetweenImportAndExport, .firstStorageForCycleStorage, .valueDuringLowerValueExceed,
   .valueDuringUpperValueExceed, .listeningWindowManagementData, .descriptionOfTariffAndSubunit,
   .thermalCouplingRatingRoomSide, .cumulativeMaximumOfActivePower, .periodOfNormalDataTransmission,
   .dateOfEndLastLowerLimitExceed, .dateOfEndLastUpperLimitExceed, .durationOfLastLowerLimitExceed,
   .durationOfLastUpperLimitExceed, .dateOfEndFirstLowerLimitExceed, .dateOfEndFirstUpperLimitExceed,
   .durationOfFirstLowerLimitExceed, .durationOfFirstUpperLimitExceed, .compactProfileWithRegisterNumbers,
   .dateOfBeginLastLowerLimitExceed, .dateOfBeginLastUpperLimitExceed, .numberOfTimesTheMeterWasStopped,
   .accumulationOnlyIfValueIsNegative, .accumulationOnlyIfValueIsPositive,
   .dateOfBeginFirstLowerLimitExceed, .dateOfBeginFirstUpperLimitExceed, .incrementPerInputPulseOnChannelP,
   .numberOfExceedsOfLowerLimitValue, .numberOfExceedsOfUpperLimitValue,
   .thermalCouplingRatingFactorOverall, .vifContainsUncorrectedUnitOrValue,
   .extensionOfCombinableOrthogonalVIFE, .incrementPerOutputPulseOnChannelP,
   .dataContainerForWmbusProtocol, .daylightSavingBeginningEndingDeviation,
   .thermalCouplingRatingFactorHeatingSide, .directionFromCommunicationPartnerToMeter,
   .directionFromMeterToCommunicationPartner, .uniqueMessageIdentificationOrAccessNumber,
   .dataContainerForManufacturerSpecificProtocol, .nextVIFEAndDataOfThisBlockAreManufacturerSpecific,
   .accumulationOfAbsoluteValueBothPositiveAndNegativeContribution]

theorem sorted_all (l : ValueLabel) : l ∈ sortedLabels ∨ l = .dateTimeWithSeconds := by
  have : ∀ l : ValueLabel, (sortedLabels.contains l || l == .dateTimeWithSeconds) = true := by
    intro l; cases l <;> rfl
  have := this l
  simpa using this

theorem names_nodup : (sortedLabels.map (fun l => textCode (quantityText l))).Nodup := by
  have h : List.IsChain (· < ·) (sortedLabels.map (fun l => textCode (quantityText l))) := by decide +kernel
  exact (List.isChain_iff_pairwise.1 h).imp Nat.ne_of_lt

end MBus
