import Verif.Model.Serialize
import Verif.Model.Api
import Verif.Model.LegacyDiagram
/-!
# Lemmas for C162: the code with and without overflow checks
-/
namespace MBus

/-- The answer of a build with overflow checks against that of a build without. -/
def SameOrCrash {ε α : Type} (x y : Res ε α) : Prop := x = .panic ∨ x = y

theorem builds_same {ε α : Type} (x : Res ε α) : SameOrCrash x x := .inr rfl

theorem builds_bind {ε α β : Type} {x y : Res ε α} {f g : α → Res ε β} (h : SameOrCrash x y)
    (hf : ∀ a, SameOrCrash (f a) (g a)) : SameOrCrash (x >>= f) (y >>= g) := by
  rcases h with h | h
  · subst h; exact .inl rfl
  · subst h
    cases x with
    | ok a => exact hf a
    | err e => exact .inr rfl
    | panic => exact .inl rfl

theorem builds_after {ε α β : Type} {x : Res ε α} {f g : α → Res ε β} (hf : ∀ a, SameOrCrash (f a) (g a)) :
    SameOrCrash (x >>= f) (x >>= g) := builds_bind (builds_same x) hf

theorem builds_then {ε α β : Type} {x y : Res ε α} {f : α → Res ε β} (h : SameOrCrash x y) :
    SameOrCrash (x >>= f) (y >>= f) := builds_bind h fun _ => builds_same _

theorem builds_mapErr {ε ε' α : Type} {x y : Res ε α} {f : ε → ε'} (h : SameOrCrash x y) :
    SameOrCrash (x.mapErr f) (y.mapErr f) := by
  rcases h with h | h
  · subst h; exact .inl rfl
  · subst h; exact .inr rfl

theorem builds_if {ε α : Type} {c : Prop} [Decidable c] {x y x' y' : Res ε α} (h : SameOrCrash x y)
    (h' : SameOrCrash x' y') : SameOrCrash (if c then x else x') (if c then y else y') := by
  split
  · exact h
  · exact h'

variable {p : Bool}

theorem builds_sub {ε : Type} (a b : Nat) : SameOrCrash (usizeSub ⟨true, p⟩ (ε := ε) a b) (usizeSub ⟨false, p⟩ a b) := by
  unfold usizeSub
  split
  · exact builds_same _
  · exact .inl rfl

theorem builds_checksum (data : List UInt8) :
    SameOrCrash (validateChecksum ⟨true, p⟩ data) (validateChecksum ⟨false, p⟩ data) :=
  builds_then (builds_sub _ _)

theorem builds_wired (data : List UInt8) :
    SameOrCrash (WiredFrame.tryFrom ⟨true, p⟩ data) (WiredFrame.tryFrom ⟨false, p⟩ data) := by
  unfold WiredFrame.tryFrom
  refine builds_after fun a => builds_if (builds_same _) ?_
  refine builds_after fun b => builds_after fun c => builds_if ?_ (builds_if ?_ (builds_same _))
  · exact builds_after fun _ => builds_then (builds_checksum _)
  · exact builds_after fun _ => builds_then (builds_checksum _)

theorem builds_frame (data : List UInt8) :
    SameOrCrash (MbusData.tryFromWired ⟨true, p⟩ data) (MbusData.tryFromWired ⟨false, p⟩ data) :=
  builds_then (builds_wired _)

theorem builds_integer (data : List UInt8) (n : Nat) :
    SameOrCrash (integerChecked ⟨true, p⟩ data n) (integerChecked ⟨false, p⟩ data n) := by
  unfold integerChecked
  refine builds_if (builds_same _) ?_
  unfold integerToValue
  generalize leLoop _ 0 0 = q
  obtain ⟨value, shift⟩ := q
  by_cases h : shift = 0
  · exact .inl (by simp [h])
  · exact .inr (by simp [h])

theorem builds_variable (lsb : Bool) (input : List UInt8) :
    SameOrCrash (parseVariableLength ⟨true, p⟩ lsb input) (parseVariableLength ⟨false, p⟩ lsb input) := by
  have key : ∀ (b : List UInt8) (n : Nat), SameOrCrash (addLvarByte (integerChecked ⟨true, p⟩ b n))
      (addLvarByte (integerChecked ⟨false, p⟩ b n)) := fun b n => builds_then (builds_integer _ _)
  unfold parseVariableLength
  refine builds_after fun a => builds_if (builds_same _) (builds_if (builds_same _) (builds_if (builds_same _) ?_))
  refine builds_if (builds_after fun _ => key _ _) (builds_if (builds_after fun _ => key _ _) ?_)
  exact builds_if (builds_after fun _ => key _ _) (builds_if (builds_after fun _ => key _ _) (builds_same _))

theorem builds_coding (c : Coding) (lsb : Bool) (input : List UInt8) :
    SameOrCrash (c.parse ⟨true, p⟩ lsb input) (c.parse ⟨false, p⟩ lsb input) := by
  cases c with
  | integer8 | integer16 | integer24 | integer32 | integer48 | integer64 => exact builds_integer _ _
  | variableLength => exact builds_variable _ _
  | specialFunctions s => cases s <;> exact builds_same _
  | _ => exact builds_same _

theorem builds_record (lsb : Bool) (data : List UInt8) :
    SameOrCrash (DataRecord.parse ⟨true, p⟩ lsb data) (DataRecord.parse ⟨false, p⟩ lsb data) := by
  unfold DataRecord.parse
  have e : RecordHeader.tryFrom ⟨true, p⟩ data = RecordHeader.tryFrom ⟨false, p⟩ data := rfl
  rw [e]
  refine builds_after fun header => builds_if (builds_same _) (builds_after fun rest => ?_)
  split
  · exact builds_then (builds_coding _ _ _)
  · exact builds_same _

theorem builds_next (s : DataRecords) :
    (s.next ⟨true, p⟩).1 = some .panic ∨ s.next ⟨true, p⟩ = s.next ⟨false, p⟩ := by
  fun_induction DataRecords.next ⟨true, p⟩ s with
  | case1 s h dif hs hi ih =>
    rw [DataRecords.next.eq_def ⟨false, p⟩ s]
    simp only [h, ↓reduceDIte]
    rw [if_pos hs, hi]
    exact ih
  | case2 s h dif hs hi =>
    rw [DataRecords.next.eq_def ⟨false, p⟩ s]
    simp only [h, ↓reduceDIte]
    rw [if_pos hs, hi]
    rcases builds_record (p := p) s.lsb (s.data.drop s.offset) with e | e
    · exact .inl (by rw [e])
    · exact .inr (by rw [e])
  | case3 s h dif hs hi =>
    rw [DataRecords.next.eq_def ⟨false, p⟩ s]
    simp only [h, ↓reduceDIte]
    rw [if_pos hs, hi]
    rcases builds_record (p := p) s.lsb (s.data.drop s.offset) with e | e
    · exact .inl (by rw [e])
    · exact .inr (by rw [e])
  | case4 s h dif hs hi =>
    rw [DataRecords.next.eq_def ⟨false, p⟩ s]
    simp only [h, ↓reduceDIte]
    rw [if_pos hs, hi]
    rcases builds_record (p := p) s.lsb (s.data.drop s.offset) with e | e
    · exact .inl (by rw [e])
    · exact .inr (by rw [e])
  | case5 s h dif hs hi ih =>
    rw [DataRecords.next.eq_def ⟨false, p⟩ s]
    simp only [h, ↓reduceDIte]
    rw [if_pos hs, hi]
    exact ih
  | case6 s h dif hs r hr =>
    rw [DataRecords.next.eq_def ⟨false, p⟩ s]
    simp only [h, ↓reduceDIte]
    rw [if_neg hs]
    rcases builds_record (p := p) s.lsb (s.data.drop s.offset) with e | e
    · rw [hr] at e; cases e
    · rw [← e, hr]; exact .inr rfl
  | case7 s h dif hs r hr =>
    rw [DataRecords.next.eq_def ⟨false, p⟩ s]
    simp only [h, ↓reduceDIte]
    rw [if_neg hs]
    rcases builds_record (p := p) s.lsb (s.data.drop s.offset) with e | e
    · rw [hr] at e; cases e
    · rw [← e, hr]; exact .inr rfl
  | case8 => exact .inl rfl
  | case9 s h =>
    rw [DataRecords.next.eq_def ⟨false, p⟩ s]
    simp only [h, ↓reduceDIte]
    exact .inr trivial

/-- Items that are the same up to a crash. -/
inductive SameItems : List (Res RecordError DataRecord) → List (Res RecordError DataRecord) → Prop
  | nil : SameItems [] []
  | cons (x : Res RecordError DataRecord) {l l' : List (Res RecordError DataRecord)} :
      SameItems l l' → SameItems (x :: l) (x :: l')
  | crash (l l' : List (Res RecordError DataRecord)) : SameItems (.panic :: l) l'

theorem builds_calls (n : Nat) (s : DataRecords) :
    SameItems (((s.calls ⟨true, p⟩ n).takeWhile Option.isSome).filterMap id)
      (((s.calls ⟨false, p⟩ n).takeWhile Option.isSome).filterMap id) := by
  induction n generalizing s with
  | zero => exact .nil
  | succ n ih =>
    simp only [DataRecords.calls]
    rcases builds_next (p := p) s with h | h
    · obtain ⟨⟨x, s'⟩, hs⟩ : ∃ q, s.next ⟨true, p⟩ = q := ⟨_, rfl⟩
      rw [hs] at h
      simp only at h
      subst h
      rw [hs]
      exact .crash _ _
    · rw [h]
      obtain ⟨x, s'⟩ := s.next ⟨false, p⟩
      cases x with
      | none => exact .nil
      | some x =>
        cases x with
        | panic => exact .crash _ _
        | ok r => exact .cons _ (ih s')
        | err e => exact .cons _ (ih s')

theorem builds_iterator (n : Nat) (s : DataRecords) :
    s.calls ⟨true, p⟩ n = s.calls ⟨false, p⟩ n
      ∨ ∃ k < n, s.calls ⟨true, p⟩ n = (s.calls ⟨false, p⟩ n).take k ++ [some .panic] := by
  induction n generalizing s with
  | zero => exact .inl rfl
  | succ n ih =>
    simp only [DataRecords.calls]
    rcases builds_next (p := p) s with h | h
    · obtain ⟨⟨x, s'⟩, hs⟩ : ∃ q, s.next ⟨true, p⟩ = q := ⟨_, rfl⟩
      rw [hs] at h
      simp only at h
      subst h
      rw [hs]
      exact .inr ⟨0, by omega, rfl⟩
    · rw [h]
      obtain ⟨x, s'⟩ := s.next ⟨false, p⟩
      have more : ∀ x, x :: s'.calls ⟨true, p⟩ n = x :: s'.calls ⟨false, p⟩ n
          ∨ ∃ k < n + 1, x :: s'.calls ⟨true, p⟩ n = (x :: s'.calls ⟨false, p⟩ n).take k ++ [some .panic] := by
        intro x
        rcases ih s' with e | ⟨k, hk, e⟩
        · exact .inl (by rw [e])
        · exact .inr ⟨k + 1, by omega, by rw [e]; rfl⟩
      cases x with
      | none => exact more _
      | some x =>
        cases x with
        | panic => exact .inl rfl
        | ok r => exact more _
        | err e => exact more _

theorem builds_items (s : DataRecords) : SameItems (s.collect ⟨true, p⟩) (s.collect ⟨false, p⟩) := by
  unfold DataRecords.collect
  exact builds_calls _ _

theorem same_items_eq {l l' : List (Res RecordError DataRecord)} (h : SameItems l l') (hp : .panic ∉ l) : l = l' := by
  induction h with
  | nil => rfl
  | cons x _ ih => rw [ih (fun hx => hp (List.mem_cons_of_mem _ hx))]
  | crash => exact absurd List.mem_cons_self hp

theorem same_items_collect {l l' : List (Res RecordError DataRecord)} (h : SameItems l l') (out : List DataRecord)
    (n : Nat) : collectItems l out n = none ∨ collectItems l out n = collectItems l' out n := by
  induction h generalizing out n with
  | nil => exact .inr rfl
  | cons x _ ih =>
    cases x with
    | ok r => exact ih _ _
    | err e => exact .inr rfl
    | panic => exact .inr rfl
  | crash => exact .inl rfl

theorem same_items_flatten {l l' : List (Res RecordError DataRecord)} (h : SameItems l l') :
    SameOrCrash (flattenItems l) (flattenItems l') := by
  induction h with
  | nil => exact .inr rfl
  | cons x _ ih =>
    cases x with
    | ok r => exact builds_then ih
    | err e => exact ih
    | panic => exact .inl rfl
  | crash => exact .inl rfl

theorem builds_records (records : Option DataRecords) :
    collectRecords ⟨true, p⟩ records = none ∨ collectRecords ⟨true, p⟩ records = collectRecords ⟨false, p⟩ records := by
  cases records with
  | none => exact .inr rfl
  | some s => exact same_items_collect (builds_items s) _ _

theorem builds_output (protocol : List Char) (frame : FrameOutput) (original normalized : List UInt8) (stripped : Bool)
    (payload : Option (List UInt8)) (userData : Option UserDataBlock) (records : Option DataRecords)
    (applicationError : Option AppError) (wirelessId : Option ManufacturerId) (c : SecurityContext) (b : Bool) :
    buildOutput ⟨true, p⟩ protocol frame original normalized stripped payload userData records applicationError wirelessId
        c b = none
      ∨ buildOutput ⟨true, p⟩ protocol frame original normalized stripped payload userData records applicationError
        wirelessId c b
        = buildOutput ⟨false, p⟩ protocol frame original normalized stripped payload userData records applicationError
          wirelessId c b := by
  unfold buildOutput
  rcases builds_records (p := p) records with h | h
  · exact .inl (by rw [h])
  · exact .inr (by rw [h])

theorem builds_decode (aes : AesBlock) (data : List UInt8) (options : DecodeOptions) :
    SameOrCrash (decodeBytes ⟨true, p⟩ aes data options) (decodeBytes ⟨false, p⟩ aes data options) := by
  unfold decodeBytes
  refine builds_if (builds_same _) ?_
  rcases builds_frame (p := p) data with h | h
  · exact .inl (by rw [h])
  · rw [h]
    cases MbusData.tryFromWired ⟨false, p⟩ data with
    | panic => exact .inl rfl
    | ok parsed =>
      simp only
      cases prepareSecurity aes parsed.userData none options.key (List.replicate 512 0) with
      | panic => exact .inl rfl
      | err e => exact .inr rfl
      | ok c =>
        simp only
        rcases builds_output (p := p) "wired".toList (wiredFrameOutput parsed.frame).1 data data false
          (wiredFrameOutput parsed.frame).2 parsed.userData (recordsToShow parsed c) parsed.applicationError none c
          options.includeEnrichment with h | h
        · exact .inl (by rw [h])
        · exact .inr (by rw [h])
    | err e =>
      simp only
      cases stripFormatACrcs data (List.replicate 512 0) with
      | panic => exact .inl rfl
      | err e => exact .inl rfl
      | ok q =>
        obtain ⟨result, buffer⟩ := q
        simp only
        cases MbusData.tryFromWireless (result.getD data) with
        | panic => exact .inl rfl
        | err e => exact .inr rfl
        | ok parsed =>
          simp only
          cases prepareSecurity aes parsed.userData (some parsed.frame.manufacturerId) options.key
            (List.replicate 512 0) with
          | panic => exact .inl rfl
          | err e => exact .inr rfl
          | ok c =>
            simp only
            rcases builds_output (p := p) "wireless".toList (wirelessFrameOutput parsed.frame) data (result.getD data)
              ((result.getD data).length != data.length) (some parsed.frame.data) parsed.userData
              (recordsToShow parsed c) parsed.applicationError (some parsed.frame.manufacturerId) c
              options.includeEnrichment with h | h
            · exact .inl (by rw [h])
            · exact .inr (by rw [h])

theorem builds_hex (aes : AesBlock) (input : List Char) (options : DecodeOptions) :
    SameOrCrash (decodeHex ⟨true, p⟩ aes input options) (decodeHex ⟨false, p⟩ aes input options) := by
  unfold decodeHex
  cases decodeHexBytes input with
  | panic => exact .inl rfl
  | err e => exact .inr rfl
  | ok bytes =>
    simp only
    rcases builds_decode (p := p) aes bytes options with h | h
    · exact .inl (by rw [h])
    · exact .inr (by rw [h])

theorem builds_data (data : List UInt8) :
    SameOrCrash (decodeDataRecords ⟨true, p⟩ data) (decodeDataRecords ⟨false, p⟩ data) := by
  unfold decodeDataRecords
  refine builds_if (builds_same _) ?_
  rcases builds_records (p := p) (some (DataRecords.new data false)) with h | h
  · exact .inl (by rw [h])
  · exact .inr (by rw [h])

/-! ## XML -/

theorem builds_rendered (records : Option DataRecords) (text : Cfg → List Char)
    (ht : (∀ s, records = some s → s.collect ⟨true, p⟩ = s.collect ⟨false, p⟩) → text ⟨true, p⟩ = text ⟨false, p⟩) :
    SameOrCrash (Xml.rendered ⟨true, p⟩ records (text ⟨true, p⟩)) (Xml.rendered ⟨false, p⟩ records (text ⟨false, p⟩)) := by
  unfold Xml.rendered
  cases records with
  | none => exact .inr (by rw [ht (by intro s hs; cases hs)]; rfl)
  | some s =>
    by_cases hp : .panic ∈ s.collect ⟨true, p⟩
    · exact .inl (by simp [hp])
    · have e := same_items_eq (builds_items s) hp
      exact .inr (by rw [ht (by intro s' hs; cases hs; exact e)]; simp only [Option.any_some, e])

theorem builds_renderRecords (env : Xml.XmlEnv) (records : Option DataRecords)
    (h : ∀ s, records = some s → s.collect ⟨true, p⟩ = s.collect ⟨false, p⟩) :
    Xml.renderRecords ⟨true, p⟩ env records = Xml.renderRecords ⟨false, p⟩ env records := by
  cases records with
  | none => rfl
  | some s => unfold Xml.renderRecords; simp only [h s rfl]

theorem builds_variable_xml (env : Xml.XmlEnv) (header : LongTplHeader) (records : Option DataRecords) :
    SameOrCrash (Xml.rendered ⟨true, p⟩ records (Xml.renderVariable ⟨true, p⟩ env header records))
      (Xml.rendered ⟨false, p⟩ records (Xml.renderVariable ⟨false, p⟩ env header records)) :=
  builds_rendered records (fun cfg => Xml.renderVariable cfg env header records) fun h => by
    unfold Xml.renderVariable; rw [builds_renderRecords env records h]

theorem builds_wireless_xml (env : Xml.XmlEnv) (id : ManufacturerId) (access status : Option UInt8)
    (signature : Option UInt16) (records : Option DataRecords) :
    SameOrCrash (Xml.rendered ⟨true, p⟩ records (Xml.renderWirelessVariable ⟨true, p⟩ env id access status signature records))
      (Xml.rendered ⟨false, p⟩ records (Xml.renderWirelessVariable ⟨false, p⟩ env id access status signature records)) :=
  builds_rendered records (fun cfg => Xml.renderWirelessVariable cfg env id access status signature records) fun h => by
    unfold Xml.renderWirelessVariable; rw [builds_renderRecords env records h]

theorem builds_decrypted_xml (aes : AesBlock) (block : UserDataBlock) (id : Option ManufacturerId) (key : List UInt8)
    (f g : List UInt8 → Res Xml.XmlError (List Char)) (h : ∀ d, SameOrCrash (f d) (g d)) :
    SameOrCrash (Xml.withDecrypted aes block id key f) (Xml.withDecrypted aes block id key g) := by
  unfold Xml.withDecrypted
  split
  · split
    · exact h _
    · exact builds_same _
  · exact builds_same _
  · exact builds_same _

theorem builds_optional_xml (env : Xml.XmlEnv) (aes : AesBlock) (header : LongTplHeader) (userData : UserDataBlock)
    (records : Option DataRecords) (id : Option ManufacturerId) (key : Option (List UInt8)) :
    SameOrCrash (Xml.renderWithOptionalDecryption ⟨true, p⟩ env aes header userData records id key)
      (Xml.renderWithOptionalDecryption ⟨false, p⟩ env aes header userData records id key) := by
  unfold Xml.renderWithOptionalDecryption
  refine builds_if (builds_variable_xml _ _ _) ?_
  cases key with
  | none => exact builds_variable_xml _ _ _
  | some key => exact builds_decrypted_xml _ _ _ _ _ _ fun d => builds_variable_xml _ _ _

theorem builds_radio_xml (env : Xml.XmlEnv) (aes : AesBlock) (parsed : MbusData WirelessFrame) (key : Option (List UInt8)) :
    SameOrCrash (Xml.renderWireless ⟨true, p⟩ env aes parsed key) (Xml.renderWireless ⟨false, p⟩ env aes parsed key) := by
  unfold Xml.renderWireless
  simp only
  split
  · exact builds_optional_xml _ _ _ _ _ _ _
  · refine builds_if (builds_wireless_xml _ _ _ _ _ _) ?_
    cases key with
    | none => exact builds_wireless_xml _ _ _ _ _ _
    | some key => exact builds_decrypted_xml _ _ _ _ _ _ fun d => builds_wireless_xml _ _ _ _ _ _
  · exact builds_wireless_xml _ _ _ _ _ _
  · exact builds_same _
  · exact .inr rfl

theorem builds_xml (env : Xml.XmlEnv) (aes : AesBlock) (data : List UInt8) (key : Option (List UInt8)) :
    SameOrCrash (Xml.renderFromBytes ⟨true, p⟩ env aes data key) (Xml.renderFromBytes ⟨false, p⟩ env aes data key) := by
  unfold Xml.renderFromBytes
  rcases builds_frame (p := p) data with h | h
  · exact .inl (by rw [h])
  · rw [h]
    cases MbusData.tryFromWired ⟨false, p⟩ data with
    | panic => exact .inl rfl
    | ok parsed =>
      simp only
      split
      · cases key with
        | none => exact builds_variable_xml _ _ _
        | some key => exact builds_optional_xml _ _ _ _ _ _ _
      · exact builds_same _
      · exact builds_same _
    | err e =>
      simp only
      split
      · exact builds_same _
      · exact builds_same _
      · split
        · exact builds_same _
        · exact builds_same _
        · exact builds_radio_xml _ _ _ _

/-! ## Annotation -/

theorem builds_recordsFrom (t : Data → List Char) (n : Nat) (pos index : Nat) (rest : List UInt8)
    (hn : rest.length ≤ n) :
    SameOrCrash (annotateRecordsFrom ⟨true, p⟩ t pos index rest) (annotateRecordsFrom ⟨false, p⟩ t pos index rest) := by
  induction n generalizing pos index rest with
  | zero =>
    obtain rfl : rest = [] := List.eq_nil_of_length_eq_zero (by omega)
    rw [annotateRecordsFrom.eq_def, annotateRecordsFrom.eq_def ⟨false, p⟩]
    exact builds_same _
  | succ n ih =>
    cases rest with
    | nil =>
      rw [annotateRecordsFrom.eq_def, annotateRecordsFrom.eq_def ⟨false, p⟩]
      exact builds_same _
    | cons dif tail =>
      simp only [List.length_cons] at hn
      rw [annotateRecordsFrom.eq_def, annotateRecordsFrom.eq_def ⟨false, p⟩]
      simp only
      refine builds_if (builds_if ?_ (builds_if (builds_same _) ?_)) ?_
      · exact builds_then (ih _ _ _ (by omega))
      · exact builds_then (ih _ _ _ (by omega))
      · rcases builds_record (p := p) false (dif :: tail) with h | h
        · exact .inl (by rw [h])
        · rw [h]
          cases DataRecord.parse ⟨false, p⟩ false (dif :: tail) with
          | panic => exact .inl rfl
          | err e => exact .inr rfl
          | ok r =>
            simp only
            refine builds_if (builds_same _) (builds_then (ih _ _ _ ?_))
            simp only [List.length_drop]
            omega

theorem builds_recordSegs (t : Data → List Char) (base : Nat) (data : List UInt8) :
    SameOrCrash (annotateRecords ⟨true, p⟩ t base data) (annotateRecords ⟨false, p⟩ t base data) :=
  builds_recordsFrom t _ _ _ _ (Nat.le_refl _)

theorem builds_variableSegs (t : Data → List Char) (encrypted : Bool) (base : Nat) (data : List UInt8) :
    SameOrCrash (variableDataSegs ⟨true, p⟩ t encrypted base data) (variableDataSegs ⟨false, p⟩ t encrypted base data) :=
  builds_if (builds_same _) (builds_recordSegs _ _ _)

theorem builds_anySegs (t : Data → List Char) (base : Nat) (data : List UInt8) :
    SameOrCrash (recordsIfAny ⟨true, p⟩ t base data) (recordsIfAny ⟨false, p⟩ t base data) :=
  builds_if (builds_same _) (builds_recordSegs _ _ _)

theorem builds_ellSegs (t : Data → List Char) (base : Nat) (app : List UInt8) (size : Nat)
    (name fields ciText : List Char) :
    SameOrCrash (ellSegs ⟨true, p⟩ t base app size name fields ciText)
      (ellSegs ⟨false, p⟩ t base app size name fields ciText) := by
  unfold ellSegs
  exact builds_if (builds_same _) (builds_then (builds_anySegs _ _ _))

theorem builds_app (t : Data → List Char) (n : Nat) (base : Nat) (app : List UInt8) (hn : app.length ≤ n) :
    SameOrCrash (annotateApp ⟨true, p⟩ t base app) (annotateApp ⟨false, p⟩ t base app) := by
  induction n generalizing base app with
  | zero =>
    obtain rfl : app = [] := List.eq_nil_of_length_eq_zero (by omega)
    rw [annotateApp.eq_def, annotateApp.eq_def ⟨false, p⟩]
    exact builds_same _
  | succ n ih =>
    cases app with
    | nil =>
      rw [annotateApp.eq_def, annotateApp.eq_def ⟨false, p⟩]
      exact builds_same _
    | cons ci tail =>
      simp only [List.length_cons] at hn
      rw [annotateApp.eq_def, annotateApp.eq_def ⟨false, p⟩]
      simp only
      refine builds_if (builds_if (builds_same _) (builds_then (builds_variableSegs _ _ _ _))) ?_
      refine builds_if (builds_if (builds_same _) (builds_then (builds_variableSegs _ _ _ _))) ?_
      refine builds_if (builds_then (builds_anySegs _ _ _)) ?_
      refine builds_if (builds_if (builds_same _) (builds_then (ih _ _ ?_))) ?_
      · simp only [List.length_drop]; omega
      · exact builds_if (builds_ellSegs _ _ _ _ _ _ _) (builds_if (builds_ellSegs _ _ _ _ _ _ _) (builds_same _))

theorem builds_wiredSegs (t : Data → List Char) (data : List UInt8) :
    SameOrCrash (annotateWired ⟨true, p⟩ t data) (annotateWired ⟨false, p⟩ t data) := by
  unfold annotateWired
  refine builds_bind (builds_mapErr (builds_wired _)) fun frame => ?_
  have long : ∀ f a d c, SameOrCrash (annotateLong ⟨true, p⟩ t data f a d c) (annotateLong ⟨false, p⟩ t data f a d c) := by
    intro f a d c
    unfold annotateLong
    refine builds_then ?_
    unfold annotateUserData
    exact builds_if (builds_app _ _ _ _ (Nat.le_refl _)) (builds_same _)
  cases frame with
  | singleCharacter c => exact builds_same _
  | shortFrame f a => exact builds_same _
  | longFrame f a d => exact long _ _ _ _
  | controlFrame f a d => exact long _ _ _ _

theorem builds_wirelessSegs (t : Data → List Char) (data : List UInt8) :
    SameOrCrash (annotateWirelessInner ⟨true, p⟩ t data) (annotateWirelessInner ⟨false, p⟩ t data) := by
  unfold annotateWirelessInner
  refine builds_after fun _ => builds_then ?_
  unfold annotateWirelessApp
  refine builds_if ?_ (builds_same _)
  split
  · exact builds_app _ _ _ _ (Nat.le_refl _)
  · exact builds_same _

theorem builds_formatA (t : Data → List Char) (original stripped : List UInt8) :
    SameOrCrash (annotateFormatA ⟨true, p⟩ t original stripped) (annotateFormatA ⟨false, p⟩ t original stripped) :=
  builds_then (builds_wirelessSegs _ _)

theorem builds_segments (t : Data → List Char) (data : List UInt8) :
    SameOrCrash (annotateFrame ⟨true, p⟩ t data) (annotateFrame ⟨false, p⟩ t data) := by
  unfold annotateFrame
  have inner : SameOrCrash
      (match annotateWirelessInner ⟨true, p⟩ t data with
        | .ok segs => (.ok segs : Res FrameError (List ByteSegment))
        | .err _ => .err .invalidStartByte
        | .panic => .panic)
      (match annotateWirelessInner ⟨false, p⟩ t data with
        | .ok segs => .ok segs
        | .err _ => .err .invalidStartByte
        | .panic => .panic) := by
    rcases builds_wirelessSegs (p := p) t data with h | h
    · exact .inl (by rw [h])
    · exact .inr (by rw [h])
  simp only
  rcases builds_wiredSegs (p := p) t data with h | h
  · exact .inl (by rw [h])
  · rw [h]
    cases annotateWired ⟨false, p⟩ t data with
    | ok segs => exact .inr rfl
    | panic => exact .inl rfl
    | err e =>
      simp only
      split
      · exact builds_same _
      · exact inner
      · exact inner
      · rename_i stripped _ _
        rcases builds_formatA (p := p) t data stripped with h' | h'
        · exact .inl (by rw [h'])
        · rw [h']
          cases annotateFormatA ⟨false, p⟩ t data stripped with
          | ok segs => exact .inr rfl
          | panic => exact .inl rfl
          | err e => exact inner

theorem builds_line (data : List UInt8) (seg : ByteSegment) :
    SameOrCrash (segmentLine ⟨true, p⟩ data seg) (segmentLine ⟨false, p⟩ data seg) := by
  unfold segmentLine
  refine builds_bind (builds_then (builds_sub _ _)) fun _ => builds_then ?_
  unfold bytesText
  exact builds_bind (builds_sub _ _) fun _ => builds_if (builds_then (builds_sub _ _)) (builds_same _)

theorem builds_lines (data : List UInt8) (layer : Option Layer) (group : Option Nat) (segs : List ByteSegment) :
    SameOrCrash (segmentLines ⟨true, p⟩ data layer group segs) (segmentLines ⟨false, p⟩ data layer group segs) := by
  induction segs generalizing layer group with
  | nil => exact builds_same _
  | cons seg segs ih =>
    unfold segmentLines
    exact builds_bind (builds_line _ _) fun _ => builds_then (ih _ _)

theorem builds_text (t : Data → List Char) (data : List UInt8) :
    SameOrCrash (annotateAndRender ⟨true, p⟩ t data) (annotateAndRender ⟨false, p⟩ t data) := by
  unfold annotateAndRender
  refine builds_bind (builds_segments _ _) fun segs => builds_mapErr ?_
  unfold renderAnnotations annotationLines
  exact builds_then (builds_then (builds_lines _ _ _ _))

theorem builds_hexview (aes : AesBlock) (key data : List UInt8) :
    SameOrCrash (decryptedHexview ⟨true, p⟩ aes key data) (decryptedHexview ⟨false, p⟩ aes key data) := by
  have w : SameOrCrash (decryptedWired ⟨true, p⟩ aes key data) (decryptedWired ⟨false, p⟩ aes key data) := by
    unfold decryptedWired
    exact builds_then (builds_mapErr (builds_frame _))
  unfold decryptedHexview
  rcases w with h | h
  · exact .inl (by rw [h])
  · exact .inr (by rw [h])

theorem builds_replace (t : Data → List Char) (display : List UInt8) (segs : List ByteSegment) :
    SameOrCrash (replaceEncrypted ⟨true, p⟩ t display segs) (replaceEncrypted ⟨false, p⟩ t display segs) := by
  induction segs with
  | nil => exact builds_same _
  | cons seg segs ih =>
    unfold replaceEncrypted
    refine builds_if (builds_bind ?_ fun _ => builds_then ih) (builds_then ih)
    unfold recordsAt
    split
    · exact builds_recordSegs _ _ _
    · exact builds_same _

theorem builds_view (t : Data → List Char) (aes : AesBlock) (data : List UInt8) (key : Option (List UInt8)) :
    SameOrCrash (annotatedView ⟨true, p⟩ t aes data key) (annotatedView ⟨false, p⟩ t aes data key) := by
  unfold annotatedView
  refine builds_bind (builds_segments _ _) fun segs => ?_
  cases key with
  | none => exact builds_same _
  | some key =>
    simp only
    rcases builds_hexview (p := p) aes key data with h | h
    · exact .inl (by rw [h])
    · rw [h]
      split
      · unfold decryptedView
        exact builds_bind (builds_segments _ _) fun segs => builds_then (builds_mapErr (builds_replace _ _ _))
      · exact builds_same _
      · exact builds_same _

theorem builds_render (env : FrontEnv) (aes : AesBlock) (data : List UInt8) (format : OutputFormat)
    (options : RenderOptions) :
    SameOrCrash (renderBytes ⟨true, p⟩ env aes data format options) (renderBytes ⟨false, p⟩ env aes data format options) := by
  cases format with
  | xml => exact builds_mapErr (builds_xml _ _ _ _)
  | annotated => exact builds_then (builds_mapErr (builds_view _ _ _ _))
  | annotatedText => exact builds_mapErr (builds_text _ _)
  | _ => exact builds_then (builds_mapErr (builds_decode _ _ _))

theorem builds_renderHex (env : FrontEnv) (aes : AesBlock) (input : List Char) (format : OutputFormat)
    (options : RenderOptions) :
    SameOrCrash (renderHex ⟨true, p⟩ env aes input format options) (renderHex ⟨false, p⟩ env aes input format options) :=
  builds_after fun _ => builds_render _ _ _ _ _

/-! ## The older formats -/

theorem builds_flatten (records : Option DataRecords) :
    SameOrCrash (flattenRecords ⟨true, p⟩ records) (flattenRecords ⟨false, p⟩ records) := by
  cases records with
  | none => exact builds_same _
  | some s => exact builds_then (same_items_flatten (builds_items s))

theorem builds_summary (r : UInt32 → List Char) (s : FrameSummary) (records : Option DataRecords)
    (userData : Option UserDataBlock) (e d : Bool) :
    SameOrCrash (finalizeSummary ⟨true, p⟩ r s records userData e d) (finalizeSummary ⟨false, p⟩ r s records userData e d) := by
  unfold finalizeSummary
  refine builds_if (builds_same _) ?_
  cases records with
  | none => exact builds_same _
  | some s => exact builds_then (builds_then (same_items_flatten (builds_items s)))

theorem builds_vec (s : DataRecords) : s.toVec ⟨true, p⟩ = none ∨ s.toVec ⟨true, p⟩ = s.toVec ⟨false, p⟩ := by
  unfold DataRecords.toVec
  by_cases hp : .panic ∈ s.collect ⟨true, p⟩
  · exact .inl (by simp [hp])
  · exact .inr (by simp only [same_items_eq (builds_items s) hp])

theorem builds_parsed {F : Type} (m : MbusData F) (s : FrameSummary) :
    SameOrCrash (buildParsed ⟨true, p⟩ m s) (buildParsed ⟨false, p⟩ m s) := by
  unfold buildParsed
  split
  · exact builds_same _
  · rename_i q _
    rcases builds_vec (p := p) q with h | h
    · exact .inl (by rw [h])
    · exact .inr (by rw [h])

theorem builds_older (r : UInt32 → List Char) (aes : AesBlock) (data : List UInt8) (key : Option (List UInt8)) :
    SameOrCrash (parseFrameOutput ⟨true, p⟩ r aes data key) (parseFrameOutput ⟨false, p⟩ r aes data key) := by
  unfold parseFrameOutput
  rcases builds_frame (p := p) data with h | h
  · exact .inl (by rw [h])
  · rw [h]
    cases MbusData.tryFromWired ⟨false, p⟩ data with
    | panic => exact .inl rfl
    | ok parsed => exact builds_after fun _ => builds_bind (builds_summary _ _ _ _ _ _) fun _ => builds_parsed _ _
    | err e =>
      refine builds_after fun normalized => ?_
      split
      · exact builds_same _
      · exact builds_same _
      · exact builds_after fun _ => builds_bind (builds_summary _ _ _ _ _ _) fun _ => builds_parsed _ _

theorem older_frame_checked (r : UInt32 → List Char) (aes : AesBlock) (data : List UInt8) (key : Option (List UInt8))
    (h : parseFrameOutput ⟨true, p⟩ r aes data key ≠ .panic) : olderFrame ⟨true, p⟩ data = olderFrame ⟨false, p⟩ data := by
  rcases builds_frame (p := p) data with e | e
  · exact absurd (by unfold parseFrameOutput; rw [e]) h
  · unfold olderFrame; rw [e]

theorem builds_json (env : FrontEnv) (older : OlderEnv) (aes : AesBlock) (input : List Char) (key : Option (List UInt8)) :
    SameOrCrash (parseToJson ⟨true, p⟩ env older aes input key) (parseToJson ⟨false, p⟩ env older aes input key) := by
  unfold parseToJson
  rcases builds_older (p := p) env.text.realDisplay aes (cleanAndConvert input) key with h | h
  · exact .inl (by rw [h])
  · have hf := older_frame_checked (p := p) env.text.realDisplay aes (cleanAndConvert input) key
    rw [h] at hf
    rw [h]
    cases hq : parseFrameOutput ⟨false, p⟩ env.text.realDisplay aes (cleanAndConvert input) key with
    | panic => exact .inl rfl
    | err e => exact .inr rfl
    | ok o =>
      refine .inr ?_
      unfold olderDocument
      rw [hq] at hf
      simp only [hf (by intro hx; cases hx)]

theorem builds_segmentsJson (t : Data → List Char) (data : List UInt8) :
    SameOrCrash (annotatedSegmentsToJson ⟨true, p⟩ t data) (annotatedSegmentsToJson ⟨false, p⟩ t data) := by
  unfold annotatedSegmentsToJson
  rcases builds_segments (p := p) t data with h | h
  · exact .inl (by rw [h])
  · exact .inr (by rw [h])

theorem builds_serialize (env : FrontEnv) (older : OlderEnv) (aes : AesBlock) (data format : List Char)
    (key : Option (List UInt8)) :
    SameOrCrash (serializeMbusData ⟨true, p⟩ env older aes data format key)
      (serializeMbusData ⟨false, p⟩ env older aes data format key) := by
  unfold serializeMbusData
  refine builds_if (builds_json _ _ _ _ _) (builds_if ?_ (builds_if ?_ (builds_if ?_ (builds_if ?_ ?_))))
  · unfold parseToYaml
    rcases builds_older (p := p) env.text.realDisplay aes (cleanAndConvert data) key with h | h
    · exact .inl (by rw [h])
    · exact .inr (by rw [h])
  · unfold wideCsv parseToCsv
    rcases builds_older (p := p) env.text.realDisplay aes (cleanAndConvert data) key with h | h
    · exact .inl (by rw [h])
    · exact .inr (by rw [h])
  · exact builds_segmentsJson _ _
  · unfold parseToHexview
    simp only
    cases key with
    | none => exact builds_segmentsJson _ _
    | some key =>
      simp only
      rcases builds_hexview (p := p) aes key (cleanAndConvert data) with h | h
      · exact .inl (by rw [h])
      · rw [h]
        split
        · rename_i display _
          unfold olderDecrypted
          rcases builds_segments (p := p) env.dataText display with h' | h'
          · exact .inl (by rw [h'])
          · rw [h']
            split
            · exact builds_then (builds_replace _ _ _)
            · exact builds_same _
            · exact builds_same _
        · exact builds_segmentsJson _ _
        · exact builds_same _
  · unfold serializeStructured
    split
    · rename_i f _
      rcases builds_renderHex (p := p) env aes data f ⟨⟨key, true⟩, some 100⟩ with h | h
      · exact .inl (by rw [h])
      · exact .inr (by rw [h])
    · exact builds_same _
    · exact builds_same _

theorem builds_diagram (r : UInt32 → List Char) (input : List Char) (key : Option (List UInt8)) :
    SameOrCrash (parseToMermaid ⟨true, p⟩ r input key) (parseToMermaid ⟨false, p⟩ r input key) := by
  unfold parseToMermaid
  refine builds_then ?_
  unfold mermaidOld
  rcases builds_frame (p := p) (cleanAndConvert input) with h | h
  · exact .inl (by rw [h])
  · rw [h]
    cases MbusData.tryFromWired ⟨false, p⟩ (cleanAndConvert input) with
    | panic => exact .inl rfl
    | ok parsed =>
      simp only
      unfold mermaidWired
      split
      · exact builds_then (builds_flatten _)
      · exact builds_same _
      · exact builds_same _
      · exact builds_same _
    | err e =>
      refine builds_after fun normalized => ?_
      split
      · exact builds_same _
      · exact builds_same _
      · exact builds_then (builds_flatten _)

end MBus
