import Verif.Spec.Outcome
import Verif.Lemmas.Legacy
import Verif.Lemmas.OutputFields
import Verif.Props.XmlDecrypt
/-! The XML output and the structured output side by side. -/
namespace MBus
open MBus.Spec MBus.Xml

/-- How reading the records ends. -/
def readOutcome (cfg : Cfg) (records : Option DataRecords) : Outcome :=
  if records.any (fun s => decide (.panic ∈ s.collect cfg)) then .crashed else .answered

theorem rendered_outcome (cfg : Cfg) (records : Option DataRecords) (text : List Char) :
    outcome (rendered cfg records text) = readOutcome cfg records := by
  unfold rendered readOutcome
  split <;> rfl

theorem read_none (cfg : Cfg) : readOutcome cfg none = .answered := rfl

theorem collect_outcome (cfg : Cfg) (d : List UInt8) (lsb : Bool) :
    readOutcome cfg (some (DataRecords.new d lsb)) =
      match collectRecords cfg (some (DataRecords.new d lsb)) with
      | some _ => .answered
      | none => .crashed := by
  unfold readOutcome
  obtain ⟨rs, h | ⟨e, h⟩ | h⟩ := record_items cfg lsb d <;> rw [parseDataRecords] at h
  · have hc : collectRecords cfg (some (DataRecords.new d lsb)) = some (rs, none) := by
      simp only [collectRecords, h]
      simpa using collectItems_ok rs [] 0
    rw [hc, if_neg]
    simp [h]
  · have hc : collectRecords cfg (some (DataRecords.new d lsb)) =
        some (rs, some ((rs.map (·.rawBytes.length)).sum, e)) := by
      simp only [collectRecords, h]
      simpa using collectItems_spec rs e [] 0
    rw [hc, if_neg]
    simp [h]
  · have hc : collectRecords cfg (some (DataRecords.new d lsb)) = none := by
      simp only [collectRecords, h]
      exact collectItems_panic rs [] 0
    rw [hc, if_pos]
    simp [h]

theorem show_new {F : Type} (m : MbusData F) (hc : Carried m) (c : SecurityContext) (s : DataRecords)
    (h : recordsToShow m c = some s) : ∃ d lsb, s = DataRecords.new d lsb := by
  unfold recordsToShow at h
  split at h
  · exact decrypted_new _ _ _ h
  · split at h
    · cases h
    · cases hc with
      | nothing h1 h2 => rw [h2] at h; cases h
      | block payload blk h1 h2 h3 h4 => rw [h4] at h; exact attached_new _ _ h

/-- How a decoding ends after the decryption. -/
def endOutcome {F : Type} (cfg : Cfg) (m : MbusData F) : Res SecurityError SecurityContext → Outcome
  | .panic => .crashed
  | .err _ => .refused
  | .ok c => readOutcome cfg (recordsToShow m c)

theorem finish_outcome {F : Type} (cfg : Cfg) (aes : AesBlock) (protocol : List Char) (frame : FrameOutput)
    (data normalized : List UInt8) (stripped : Bool) (payload : Option (List UInt8)) (m : MbusData F)
    (hm : Carried m) (link : Option ManufacturerId) (options : DecodeOptions) :
    outcome (finish cfg aes protocol frame data normalized stripped payload m link options) =
      endOutcome cfg m (prepareSecurity aes m.userData link options.key (List.replicate 512 0)) := by
  unfold finish
  cases prepareSecurity aes m.userData link options.key (List.replicate 512 0) with
  | panic => rfl
  | err e => rfl
  | ok c =>
    simp only [buildOutput, endOutcome]
    cases hs : recordsToShow m c with
    | none =>
      rw [read_none]
      simp [collectRecords, outcome]
    | some s =>
      obtain ⟨d, lsb, rfl⟩ := show_new m hm c s hs
      rw [collect_outcome]
      cases collectRecords cfg (some (DataRecords.new d lsb)) <;> rfl

/-- The decrypting parts of both outputs end alike. -/
theorem decrypted_outcome (cfg : Cfg) (aes : AesBlock) (blk : UserDataBlock) (link : Option ManufacturerId)
    (k : List UInt8) (render : List UInt8 → Res XmlError (List Char))
    (hr : ∀ plain, outcome (render plain) = readOutcome cfg (decryptedRecords (some blk) plain))
    {F : Type} (m : MbusData F) (hm : m.userData = some blk)
    (he : (securityFields (some blk)).1 = true)
    (hell : (securityFields (some blk)).2.2 = true → (securityFields (some blk)).2.1 = none →
      ∃ e out, decryptUserData aes blk link k (List.replicate 512 0) = (.err e, out)) :
    outcome (withDecrypted aes blk link k render) =
      endOutcome cfg m (prepareSecurity aes m.userData link (some k) (List.replicate 512 0)) := by
  unfold withDecrypted prepareSecurity
  rw [hm]
  generalize List.replicate 512 (0 : UInt8) = z at hell ⊢
  rcases hsec : securityFields (some blk) with ⟨enc, mode, ell⟩
  rw [hsec] at he hell
  simp only at he hell
  subst he
  simp only
  by_cases h : ell = true ∧ mode.isNone = true
  · obtain ⟨e, out, hd⟩ := hell h.1 (by simpa using h.2)
    rw [if_pos h, hd]
    rfl
  · rw [if_neg h]
    rcases hd : decryptUserData aes blk link k z with ⟨r, out⟩
    cases r with
    | panic => rfl
    | err e => rfl
    | ok len =>
      simp only
      cases hs : sliceTo? out len with
      | none => rfl
      | some plain =>
        simp only [endOutcome, recordsToShow, hm]
        exact hr plain

theorem long_protected (ell : Option ExtendedLinkLayer) (header : LongTplHeader) (block : List UInt8) :
    (securityFields (some (.long ell header block))).1 = header.isEncrypted := rfl

/-- What the shared part of the XML output does with a long header ends as the structured output. -/
theorem long_outcome (cfg : Cfg) (env : XmlEnv) (aes : AesBlock) (ell : Option ExtendedLinkLayer)
    (header : LongTplHeader) (block : List UInt8) (link : Option ManufacturerId) (key : Option (List UInt8))
    {F : Type} (m : MbusData F) (hm : m.userData = some (.long ell header block)) :
    outcome (renderWithOptionalDecryption cfg env aes header (.long ell header block) m.dataRecords link key) =
      endOutcome cfg m (prepareSecurity aes m.userData link key (List.replicate 512 0)) := by
  unfold renderWithOptionalDecryption
  cases he : header.isEncrypted with
  | false =>
    have hf : (securityFields m.userData).1 = false := by rw [hm]; exact he
    simp only [Bool.not_false, if_true]
    rw [rendered_outcome, prepareSecurity_clear _ _ _ _ _ hf]
    simp [endOutcome, recordsToShow]
  | true =>
    simp only [Bool.not_true, Bool.false_eq_true, if_false]
    cases key with
    | none =>
      simp only
      have hf : (securityFields (some (.long ell header block))).1 = true := he
      rw [rendered_outcome, hm, prepareSecurity_no_key]
      simp [endOutcome, recordsToShow, hf]
    | some k =>
      simp only
      exact decrypted_outcome cfg aes _ link k _ (fun plain => rendered_outcome _ _ _) m hm he
        (fun h => by simp [securityFields] at h)

theorem wireless_outcome (cfg : Cfg) (env : XmlEnv) (aes : AesBlock) (m : MbusData WirelessFrame)
    (hm : Carried m) (key : Option (List UInt8)) :
    outcome (renderWireless cfg env aes m key) =
      endOutcome cfg m (prepareSecurity aes m.userData (some m.frame.manufacturerId) key (List.replicate 512 0)) := by
  have clear : (securityFields m.userData).1 = false → endOutcome cfg m (prepareSecurity aes m.userData
      (some m.frame.manufacturerId) key (List.replicate 512 0)) = readOutcome cfg m.dataRecords := by
    intro h
    rw [prepareSecurity_clear _ _ _ _ _ h]
    simp [endOutcome, recordsToShow]
  unfold renderWireless
  cases hm with
  | nothing h1 h2 =>
    rw [clear (by rw [h1]; rfl), h2, h1]
    rfl
  | block payload blk h1 h2 h3 h4 =>
    cases blk with
    | reset x =>
      rw [clear (by rw [h3]; rfl), h4, h3]
      rfl
    | fixed a b c d e f =>
      rw [clear (by rw [h3]; rfl), h4, h3]
      rfl
    | noTpl ell block =>
      rw [clear (by rw [h3]; rfl), h3]
      exact rendered_outcome _ _ _
    | long ell header block =>
      rw [h3]
      simp only
      rw [long_outcome cfg env aes ell header block _ key m h3, h3]
    | short ell header block =>
      rw [h3] at clear ⊢
      simp only
      cases he : ell.any (fun e => e.encryption.isSome) || header.isEncrypted with
      | false =>
        simp only [Bool.not_false, if_true]
        simp only [Bool.or_eq_false_iff] at he
        rw [rendered_outcome, clear]
        simp only [securityFields, he.1, Bool.false_and, Bool.false_eq_true, if_false]
        exact he.2
      | true =>
        simp only [Bool.not_true, Bool.false_eq_true, if_false]
        have hf : (securityFields (some (.short ell header block))).1 = true := by
          simp only [securityFields]
          split
          · rfl
          · rename_i hn
            simp only [ShortTplHeader.isEncrypted, Bool.or_eq_true] at he
            simp only [Bool.and_eq_true, not_and, beq_iff_eq] at hn
            rcases he with he | he
            · simpa using hn he
            · exact he
        cases key with
        | none =>
          simp only
          rw [rendered_outcome, prepareSecurity_no_key]
          simp [endOutcome, recordsToShow, hf]
        | some k =>
          simp only
          refine (decrypted_outcome cfg aes _ _ k _ (fun plain => rendered_outcome _ _ _) m h3 hf ?_).trans
            (by rw [h3])
          intro _ hn
          have hmode : header.configurationField.securityMode = .noEncryption := by
            simp only [securityFields] at hn
            split at hn
            · rename_i hx
              simp only [Bool.and_eq_true, beq_iff_eq] at hx
              exact hx.2
            · simp at hn
          exact ⟨.unsupportedMode .noEncryption, List.replicate 512 0, by
            unfold decryptUserData; simp only [hmode, if_true]⟩

end MBus
