import Verif.Lemmas.JsonFields
import Verif.Lemmas.Tooltip
import Verif.Spec.LegacyJson
/-! Lemmas about the JSON of `json-legacy`. -/
namespace MBus
open Spec

/-! ## Objects of `serde_json::Value` -/

theorem insertDoc_perm (m : List Char × Doc) (l : List (List Char × Doc)) : (insertDoc m l).Perm (m :: l) := by
  induction l with
  | nil => exact .refl _
  | cons x l ih =>
    unfold insertDoc
    split
    · exact .refl _
    · exact (ih.cons x).trans (.swap _ _ _)

theorem sortedDocs_perm (l : List (List Char × Doc)) : (l.foldr insertDoc []).Perm l := by
  induction l with
  | nil => exact .refl _
  | cons m l ih => exact (insertDoc_perm _ _).trans (ih.cons m)

theorem member_of_mem {l : List (List Char × Doc)} (hn : (l.map (·.1)).Nodup) {name : String} {d : Doc} :
    member l name = some d ↔ (name.toList, d) ∈ l := by
  unfold member
  constructor
  · intro h
    rw [Option.map_eq_some_iff] at h
    obtain ⟨m, h1, rfl⟩ := h
    have h2 := List.mem_of_find?_eq_some h1
    have h3 := List.find?_some h1
    simp only [decide_eq_true_eq] at h3
    rw [← h3]; exact h2
  · intro h
    have := find_unique hn h
    simp only at this
    rw [this]; rfl

theorem member_perm {a b : List (List Char × Doc)} (hp : a.Perm b) (hn : (b.map (·.1)).Nodup) (name : String) :
    member a name = member b name := by
  have hna : (a.map (·.1)).Nodup := (hp.map _).nodup_iff.2 hn
  apply Option.ext
  intro d
  rw [member_of_mem hna, member_of_mem hn, hp.mem_iff]

/-- The names of members, for the simplifier. -/
class Named (names : outParam (List String)) (ms : List (List Char × Doc)) : Prop where
  sub : (ms.map (·.1)).Sublist (names.map String.toList)

instance {n : String} {d : Doc} : Named [n] (field n d) := ⟨.refl _⟩

instance {α : Type} {n : String} {f : α → Doc} {o : Option α} : Named [n] (fieldOpt n f o) := by
  cases o with
  | none => exact ⟨by simp [fieldOpt]⟩
  | some a => exact ⟨.refl _⟩

instance {a b : List String} {x y : List (List Char × Doc)} [h : Named a x] [k : Named b y] :
    Named (a ++ b) (x ++ y) := ⟨by rw [List.map_append, List.map_append]; exact h.sub.append k.sub⟩

theorem named_nodup {names : List String} (ms : List (List Char × Doc)) [h : Named names ms] (hn : names.Nodup) :
    (ms.map (·.1)).Nodup :=
  (List.Nodup.map (fun _ _ h => String.toList_inj.1 h) hn).sublist h.sub

theorem follow_value {names : List String} {ms : List (List Char × Doc)} [Named names ms] (hn : names.Nodup)
    (name : String) (rest : List Step) :
    follow (.key name :: rest) (valueObj ms) = (member ms name).bind (follow rest) := by
  unfold valueObj
  rw [follow_key, member_perm (sortedDocs_perm ms) (named_nodup ms hn)]

theorem sound_value {names : List String} {ms : List (List Char × Doc)} [Named names ms] (hn : names.Nodup)
    (hs : ∀ m ∈ ms, Sound m.2) : Sound (valueObj ms) := by
  refine .obj _ (((sortedDocs_perm ms).map _).nodup_iff.2 (named_nodup ms hn)) ?_
  intro m hm
  exact hs m ((sortedDocs_perm ms).mem_iff.1 hm)

theorem follow_variant (n name : String) (d : Doc) (rest : List Step) :
    follow (.key name :: rest) (variantDoc n d) = if n = name then follow rest d else none := by
  unfold variantDoc
  rw [follow_key, member_field]
  split <;> rfl

theorem sound_variant {n : String} {d : Doc} (h : Sound d) : Sound (variantDoc n d) :=
  .obj _ (by simp [field]) (by simpa [field] using h)

theorem each_field {n : String} {d : Doc} (h : Sound d) : ∀ m ∈ field n d, Sound m.2 := by simpa [field] using h

theorem each_opt {α : Type} {n : String} {f : α → Doc} {o : Option α} (h : ∀ a, Sound (f a)) :
    ∀ m ∈ fieldOpt n f o, Sound m.2 := by
  cases o with
  | none => simp [fieldOpt]
  | some a => simpa [fieldOpt] using h a

theorem each_append {x y : List (List Char × Doc)} (h1 : ∀ m ∈ x, Sound m.2) (h2 : ∀ m ∈ y, Sound m.2) :
    ∀ m ∈ x ++ y, Sound m.2 := by
  intro m hm
  exact (List.mem_append.1 hm).elim (h1 m) (h2 m)

theorem sound_option {α : Type} {f : α → Doc} {o : Option α} (h : ∀ a, o = some a → Sound (f a)) :
    Sound (optionDoc f o) := by
  cases o with
  | none => exact .null
  | some a => exact h a rfl

theorem int_doc (v : Int) : intDoc v = signed v := by
  unfold intDoc signed
  rw [natText_eq]

theorem sound_int (v : Int) : Sound (intDoc v) := by
  rw [int_doc]
  unfold signed
  refine .num _ ?_
  split
  · obtain ⟨s, i, f, e, h1, h2, h3, h4, h5⟩ := decimal_number v.natAbs
    have hs : s = [] := by
      rcases h2 with rfl | rfl
      · rfl
      · exfalso
        have := decimal_digits v.natAbs '-' (by rw [h1]; simp)
        revert this; decide
    subst hs
    exact ⟨['-'], i, f, e, by rw [h1]; rfl, .inr rfl, h3, h4, h5⟩
  · exact decimal_number _

theorem byte_doc (b : UInt8) : byteDoc b = number b.toNat := doc_nat _

theorem bytes_doc (l : List UInt8) : bytesArr l = byteList l := by
  unfold bytesArr byteList
  congr 1
  exact List.map_congr_left fun b _ => byte_doc b

theorem hex_doc (l : List UInt8) : hexDoc l = .str (hexBytes l) := by
  unfold hexDoc; rw [hexString_bytes]

theorem real_doc (literal : F64 → List Char) (v : F64) : f64Doc literal v = realShown literal v := by
  cases v <;> rfl

theorem sound_real {literal : F64 → List Char} (hl : PrintsLiterals literal) (v : F64) :
    Sound (f64Doc literal v) := by
  cases v with
  | int v => exact .num _ (hl _ (by simp))
  | negZero => exact .num _ (hl _ (by simp))
  | real32 bits =>
    by_cases h : bits.toNat / 2 ^ 23 % 256 = 255
    · simp only [f64Doc, if_pos h]; exact .null
    · simp only [f64Doc, if_neg h]
      exact .num _ (hl _ (by intro b hb; cases hb; exact h))

/-! ## Paths -/

/-- What is shown is found. -/
def Finds (fields : ShownFields) (d : Doc) : Prop := ∀ f ∈ fields, follow f.1 d = f.2

theorem follow_append (p q : List Step) (d : Doc) : follow (p ++ q) d = (follow p d).bind (follow q) := by
  induction p generalizing d with
  | nil => rw [follow_nil]; rfl
  | cons s p ih =>
    cases s with
    | key n =>
      cases d with
      | obj ms =>
        simp only [List.cons_append, follow_key]
        cases member ms n with
        | none => rfl
        | some e => exact ih e
      | _ => rfl
    | «at» i =>
      cases d with
      | arr xs =>
        simp only [List.cons_append, follow_at]
        cases xs[i]? with
        | none => rfl
        | some e => exact ih e
      | _ => rfl

theorem finds_below {p : List Step} {fields : ShownFields} {d e : Doc} (he : follow p d = some e) (h : Finds fields e) :
    Finds (below p fields) d := by
  intro f hf
  obtain ⟨g, hg, rfl⟩ := List.mem_map.1 hf
  show follow (p ++ g.1) d = g.2
  rw [follow_append, he]
  exact h g hg

theorem finds_append {a b : ShownFields} {d : Doc} (h1 : Finds a d) (h2 : Finds b d) : Finds (a ++ b) d := by
  intro f hf
  exact (List.mem_append.1 hf).elim (h1 f) (h2 f)

theorem finds_cons {f : List Step × Option Doc} {l : ShownFields} {d : Doc} :
    Finds (f :: l) d ↔ follow f.1 d = f.2 ∧ Finds l d := by
  unfold Finds; rw [List.forall_mem_cons]

theorem finds_nil {d : Doc} : Finds [] d := by intro f hf; cases hf

theorem finds_option {α : Type} {g : α → Doc} {f : α → ShownFields} (h : ∀ a, Finds (f a) (g a)) (o : Option α) :
    Finds (nullable f o) (optionDoc g o) := by
  cases o with
  | none => exact finds_cons.2 ⟨rfl, finds_nil⟩
  | some a => exact h a

theorem finds_elements {α : Type} {g : α → Doc} {f : α → ShownFields} {p : List Step} {d : Doc} {l : List α}
    (hp : follow p d = some (.arr (l.map g))) (h : ∀ a ∈ l, Finds (f a) (g a)) :
    ShowsElements p (l.map f) d := by
  constructor
  · intro i hi x hx
    rw [List.length_map] at hi
    rw [List.getElem_map] at hx
    rw [List.append_assoc, follow_append, hp]
    show follow (.at i :: x.1) (.arr (l.map g)) = x.2
    rw [follow_at, List.getElem?_map, List.getElem?_eq_getElem hi]
    exact h _ (List.getElem_mem hi) x hx
  · intro i hi
    rw [List.length_map] at hi
    rw [follow_append, hp]
    show follow [.at i] (.arr (l.map g)) = none
    rw [follow_at, List.getElem?_map, List.getElem?_eq_none hi]; rfl

/-- Look a path up in a serialised value. -/
macro "seek" : tactic => `(tactic| simp [follow_value, follow_variant, follow_nil, follow_at, member_append,
  member_field, member_opt, doc_nat, byte_doc, bytes_doc, hex_doc, int_doc, real_doc, finds_cons, finds_nil])

theorem byte_sound (b : UInt8) : Sound (byteDoc b) := sound_nat _
theorem bytes_sound (l : List UInt8) : Sound (bytesArr l) := sound_array fun _ _ => sound_nat _
theorem hex_sound (l : List UInt8) : Sound (hexDoc l) := .str _

/-- Show that a serialised value is sound. -/
macro "sounds" : tactic => `(tactic| with_reducible repeat' first
  | exact Sound.str _ | exact Sound.null | exact Sound.bool _ | exact sound_nat _ | exact sound_int _
  | exact byte_sound _ | exact bytes_sound _ | exact hex_sound _
  | apply sound_variant | refine sound_value (by simp) ?_ | apply each_append | apply each_field
  | (refine each_opt ?_; intro _) | (refine sound_option ?_; intro _ _) | (refine sound_array ?_; intro _ _))

/-! ## The link layer -/

theorem function_finds (f : Function) : Finds (functionShown f) f.olderDoc := by
  cases f <;> unfold functionShown Function.olderDoc <;> seek

theorem function_sound (f : Function) : Sound f.olderDoc := by
  cases f <;> unfold Function.olderDoc <;> sounds

theorem address_finds (a : Address) : Finds (addressShown a) a.olderDoc := by
  cases a <;> unfold addressShown Address.olderDoc <;> seek

theorem address_sound (a : Address) : Sound a.olderDoc := by
  cases a <;> unfold Address.olderDoc <;> sounds

theorem wired_finds (f : WiredFrame) : Finds (wiredShown f) f.olderDoc := by
  cases f <;> unfold wiredShown WiredFrame.olderDoc
  · seek
  all_goals exact finds_append (finds_below (by seek) (function_finds _)) (finds_below (by seek) (address_finds _))

theorem wired_sound (f : WiredFrame) : Sound f.olderDoc := by
  cases f <;> unfold WiredFrame.olderDoc <;> sounds
  all_goals first | exact function_sound _ | exact address_sound _

theorem code_finds (m : ManufacturerCode) : Finds (codeShown m) m.olderDoc := by
  unfold codeShown ManufacturerCode.olderDoc ManufacturerCode.display
  seek

theorem code_sound (m : ManufacturerCode) : Sound m.olderDoc := by
  unfold ManufacturerCode.olderDoc
  sounds

theorem device_finds (d : DeviceType) : Finds (deviceShown d) d.olderDoc := by
  cases d <;> unfold deviceShown DeviceType.olderDoc <;> seek

theorem device_sound (d : DeviceType) : Sound d.olderDoc := by
  cases d <;> unfold DeviceType.olderDoc <;> sounds

theorem wireless_finds (f : WirelessFrame) : Finds (wirelessShown f) f.olderDoc := by
  unfold wirelessShown WirelessFrame.olderDoc ManufacturerId.olderDoc
  refine finds_append (finds_append (finds_append ?_ (finds_below ?_ (code_finds _))) (finds_below ?_ (device_finds _)))
    (finds_below ?_ (finds_option function_finds _))
  · unfold idDoc; seek
  · seek
  · seek
  · seek

theorem wireless_sound (f : WirelessFrame) : Sound f.olderDoc := by
  unfold WirelessFrame.olderDoc ManufacturerId.olderDoc idDoc
  sounds
  all_goals first | exact function_sound _ | exact code_sound _ | exact device_sound _

/-! ## The application layer -/

theorem status_doc (s : UInt8) : statusDoc s = .str (statusText s) := by
  obtain ⟨s, hs⟩ : ∃ n : Fin 256, s = UInt8.ofNat n.1 := ⟨⟨s.toNat, s.toNat_lt⟩, by simp⟩
  subst hs
  unfold statusDoc statusText
  congr 2
  revert s
  decide +kernel

theorem short_finds (h : ShortTplHeader) : Finds (shortHeaderShown h) h.olderDoc := by
  unfold shortHeaderShown ShortTplHeader.olderDoc
  rw [status_doc]
  seek

theorem short_sound (h : ShortTplHeader) : Sound h.olderDoc := by
  unfold ShortTplHeader.olderDoc
  rw [status_doc]
  sounds

theorem error_sound (e : AppError) : Sound e.olderDoc := by
  cases e <;> unfold AppError.olderDoc <;> sounds

theorem long_finds (h : LongTplHeader) : Finds (longHeaderShown h) h.olderDoc := by
  unfold longHeaderShown LongTplHeader.olderDoc
  refine finds_append (finds_append (finds_append ?_ ?_) (finds_below (by seek) (device_finds _)))
    (finds_below (by seek) (short_finds _))
  · unfold idDoc; seek
  · cases h.manufacturer with
    | ok m => exact finds_below (by unfold manufacturerDoc; seek) (code_finds m)
    | err e =>
      cases e with
      | invalidManufacturerCode code => unfold manufacturerDoc AppError.olderDoc; seek
      | _ => exact finds_nil
    | panic => exact finds_nil

theorem long_sound (h : LongTplHeader) : Sound h.olderDoc := by
  unfold LongTplHeader.olderDoc idDoc
  sounds
  · cases h.manufacturer with
    | ok m => exact sound_variant (code_sound m)
    | err e => exact sound_variant (error_sound e)
    | panic => exact .null
  · exact device_sound _
  · exact short_sound _

theorem ell_finds (e : ExtendedLinkLayer) : Finds (ellShown e) e.olderDoc := by
  unfold ellShown ExtendedLinkLayer.olderDoc
  refine finds_append (finds_append (by seek) (finds_below (e := optionDoc ReceiverAddress.olderDoc e.receiverAddress)
    (by seek) (finds_option (fun r => ?_) _))) (finds_below (e := optionDoc EncryptionFields.olderDoc e.encryption)
    (by seek) (finds_option (fun x => ?_) _))
  · unfold ReceiverAddress.olderDoc; seek
  · unfold EncryptionFields.olderDoc; seek

theorem older_ell_sound (e : ExtendedLinkLayer) : Sound e.olderDoc := by
  unfold ExtendedLinkLayer.olderDoc ReceiverAddress.olderDoc EncryptionFields.olderDoc
  sounds

theorem reset_finds (r : ApplicationResetSubcode) : Finds (resetShown r) r.olderDoc := by
  cases r <;> unfold resetShown ApplicationResetSubcode.olderDoc <;> seek

theorem reset_sound (r : ApplicationResetSubcode) : Sound r.olderDoc := by
  cases r <;> exact sound_variant (sound_nat _)

theorem userData_finds (u : UserDataBlock) : Finds (userDataShown u) u.olderDoc := by
  cases u with
  | reset s => exact finds_below (by simp only [UserDataBlock.olderDoc]; seek) (reset_finds s)
  | fixed id access status unit c1 c2 =>
    simp only [userDataShown, UserDataBlock.olderDoc, idDoc, counterDoc]
    rw [status_doc]
    refine finds_below (by seek; rfl) ?_
    seek
  | long ell h block =>
    simp only [userDataShown, UserDataBlock.olderDoc]
    exact finds_append (finds_below (by seek) (finds_option ell_finds _)) (finds_below (by seek) (long_finds _))
  | short ell h block =>
    simp only [userDataShown, UserDataBlock.olderDoc]
    exact finds_append (finds_below (by seek) (finds_option ell_finds _)) (finds_below (by seek) (short_finds _))
  | noTpl ell block =>
    simp only [userDataShown, UserDataBlock.olderDoc]
    exact finds_below (by seek) (finds_option ell_finds _)

theorem userData_sound (u : UserDataBlock) : Sound u.olderDoc := by
  cases u with
  | reset s => simp only [UserDataBlock.olderDoc]; sounds; exact reset_sound _
  | fixed id access status unit c1 c2 =>
    simp only [UserDataBlock.olderDoc, idDoc, counterDoc]
    rw [status_doc]
    sounds
  | long ell h block => simp only [UserDataBlock.olderDoc]; sounds <;> with_reducible first | exact older_ell_sound _ | exact long_sound _
  | short ell h block => simp only [UserDataBlock.olderDoc]; sounds <;> with_reducible first | exact older_ell_sound _ | exact short_sound _
  | noTpl ell block => simp only [UserDataBlock.olderDoc]; sounds; exact older_ell_sound _

/-! ## Records -/

theorem part_finds {α : Type} {f g : α → Doc} (h : ∀ a, f a = g a) (p : SEI α) :
    Finds (partShown g p) (p.olderDoc f) := by
  cases p <;> unfold partShown SEI.olderDoc <;> seek
  exact h _

theorem part_sound {α : Type} {f : α → Doc} (h : ∀ a, Sound (f a)) (p : SEI α) : Sound (p.olderDoc f) := by
  cases p
  · exact sound_variant (h _)
  · exact sound_variant (.arr _ (by simp))
  · exact sound_variant (.arr _ (by simp))

theorem month_doc (m : Month) : Doc.str (monthName m) = .str (monthText m) := by cases m <;> rfl

theorem data_finds (literal : F64 → List Char) (d : DataType) : Finds (dataShown literal d) (d.olderDoc literal) := by
  cases d <;> unfold dataShown DataType.olderDoc
  · seek
  · seek
  · seek
  all_goals first
    | (seek; done)
    | (repeat' apply finds_append
       all_goals first
        | (refine finds_below ?_ (part_finds byte_doc _); simp [follow_variant, follow_at, follow_nil]; done)
        | (refine finds_below ?_ (part_finds month_doc _); simp [follow_variant, follow_at, follow_nil]; done)
        | (refine finds_below ?_ (part_finds (fun y => doc_nat _) _); simp [follow_variant, follow_at, follow_nil]; done))

theorem data_sound {literal : F64 → List Char} (hl : PrintsLiterals literal) (d : DataType) :
    Sound (d.olderDoc literal) := by
  cases d <;> unfold DataType.olderDoc <;> refine sound_variant ?_
  · exact .str _
  · exact sound_real hl _
  · exact sound_real hl _
  all_goals first
    | exact Sound.str _
    | (refine .arr _ ?_
       simp only [List.forall_mem_cons, List.not_mem_nil, false_imp_iff, implies_true, and_true]
       repeat' apply And.intro
       all_goals first
        | exact part_sound (fun b : UInt8 => sound_nat _) _
        | exact part_sound (fun m => Sound.str _) _
        | exact part_sound (fun y : UInt16 => sound_nat _) _)

theorem special_name (f : SpecialFunction) : f.debug = specialText f := by cases f <;> rfl

theorem valueFunction_name (f : FunctionField) : f.olderName = valueFunctionText f := by cases f <;> rfl

theorem unit_name (u : UnitName) : u.debug = unitText u := by cases u <;> rfl

theorem coding_finds (c : Coding) : Finds (codingShown c) c.olderDoc := by
  cases c with
  | specialFunctions f => simp only [codingShown, Coding.olderDoc, special_name]; seek
  | _ => unfold codingShown Coding.olderDoc; seek; rfl

theorem coding_sound (c : Coding) : Sound c.olderDoc := by
  cases c <;> unfold Coding.olderDoc <;> sounds

theorem dataInfo_finds (i : DataInfo) : Finds (dataInfoShown i) i.olderDoc := by
  unfold dataInfoShown DataInfo.olderDoc
  rw [valueFunction_name]
  refine finds_append ?_ (finds_below (by seek) (coding_finds _))
  seek

theorem dataInfo_sound (i : DataInfo) : Sound i.olderDoc := by
  unfold DataInfo.olderDoc
  sounds
  · exact coding_sound _
  · split
    · exact .obj _ (by simp) (by simp)
    · exact .null

theorem unit_finds (us : List MUnit) (v : Doc) (hv : follow [.key "units"] v = some (.arr (us.map MUnit.olderDoc))) :
    Finds (us.zipIdx.flatMap (fun p => [([.key "units", .at p.2, .key "name"], some (.str (unitText p.1.name))),
     ([.key "units", .at p.2, .key "exponent"], some (signed p.1.exponent))])) v := by
  intro f hf
  obtain ⟨⟨u, i⟩, hp, hf⟩ := List.mem_flatMap.1 hf
  have hi := List.mem_zipIdx' hp
  have e : ∀ q, follow (.key "units" :: .at i :: q) v = follow q u.olderDoc := by
    intro q
    have : (.key "units" :: .at i :: q : List Step) = [.key "units"] ++ (.at i :: q) := rfl
    rw [this, follow_append, hv]
    show follow (.at i :: q) (.arr (us.map MUnit.olderDoc)) = _
    rw [follow_at, List.getElem?_map, List.getElem?_eq_getElem hi.1]
    simp only [Option.map_some, Option.bind_some]
    rw [← hi.2]
  simp only [List.mem_cons, List.not_mem_nil, or_false] at hf
  rcases hf with rfl | rfl
  · simp only [e]; unfold MUnit.olderDoc; rw [unit_name]; seek
  · simp only [e]; unfold MUnit.olderDoc; seek

theorem valueInfo_finds (v : ValueInfo) : Finds (valueInfoShown v) v.olderDoc := by
  unfold valueInfoShown
  refine finds_append ?_ (unit_finds _ _ (by unfold ValueInfo.olderDoc; seek))
  unfold ValueInfo.olderDoc
  seek

theorem valueInfo_sound (v : ValueInfo) : Sound v.olderDoc := by
  unfold ValueInfo.olderDoc MUnit.olderDoc
  sounds

theorem olderRecord_finds (literal : F64 → List Char) (r : DataRecord) :
    Finds (olderRecordShown literal r) (r.olderDoc literal) := by
  unfold olderRecordShown DataRecord.olderDoc
  refine finds_append (finds_append (finds_append (finds_append (finds_below (by seek; rfl) (finds_append ?_ ?_)) ?_) ?_) ?_) ?_
  · unfold DIB.olderDoc
    seek
    cases r.header.raw.dib.difes <;> simp [optionDoc, bytes_doc]
  · refine finds_below (e := optionDoc VIB.olderDoc r.header.raw.vib) (by seek) (finds_option (fun b => ?_) _)
    unfold VIB.olderDoc
    seek
    constructor
    · cases b.vifes with
      | none => rfl
      | some l => simp [optionDoc, valueObj, field, insertDoc, byte_doc]
    · cases b.plaintext <;> rfl
  · exact finds_below (by seek) (finds_option dataInfo_finds _)
  · exact finds_below (by seek) (finds_option valueInfo_finds _)
  · exact finds_below (by unfold Data.olderDoc; seek) (finds_option (data_finds literal) _)
  · unfold Data.olderDoc; seek

theorem olderRecord_sound {literal : F64 → List Char} (hl : PrintsLiterals literal) (r : DataRecord) :
    Sound (r.olderDoc literal) := by
  unfold DataRecord.olderDoc DIB.olderDoc VIB.olderDoc Data.olderDoc
  sounds
  all_goals first
    | exact dataInfo_sound _ | exact valueInfo_sound _
    | exact data_sound hl _

/-! ## The summary -/

theorem follow_done : follow [] = some := funext follow_nil
theorem byteDoc_eq : byteDoc = fun b => number b.toNat := funext byte_doc
theorem intDoc_eq : intDoc = signed := funext int_doc
theorem f64Doc_eq (literal : F64 → List Char) : f64Doc literal = realShown literal := funext (real_doc literal)

theorem manufacturer_finds (literal : F64 → List Char) (s : FrameSummary) (name : String) (g : ManufacturerSummary → Option Doc)
    (h : ∀ m, follow [.key name] (ManufacturerSummary.doc m) = g m) :
    follow [.key "manufacturer", .key name] (s.doc literal) = s.manufacturer.bind g := by
  have e : follow [.key "manufacturer", .key name] (s.doc literal) =
      (s.manufacturer.map ManufacturerSummary.doc).bind (follow [.key name]) := by
    unfold FrameSummary.doc
    simp [follow_value, member_append, member_field, member_opt]
  rw [e]
  cases s.manufacturer with
  | none => rfl
  | some m => exact h m

theorem summary_finds (literal : F64 → List Char) (s : FrameSummary) : Finds (summaryShown s) (s.doc literal) := by
  unfold summaryShown
  simp only [finds_cons, finds_nil, and_true]
  have h1 := manufacturer_finds literal s "code" (fun m => some (.str m.code))
    (by intro m; unfold ManufacturerSummary.doc; seek)
  have h2 := manufacturer_finds literal s "name" (fun m => m.info.map (Doc.str ·.name.toList))
    (by intro m; unfold ManufacturerSummary.doc; simp [follow_value, member_append, member_field, member_opt, follow_done])
  have h3 := manufacturer_finds literal s "website" (fun m => m.info.map (Doc.str ·.website.toList))
    (by intro m; unfold ManufacturerSummary.doc; simp [follow_value, member_append, member_field, member_opt, follow_done])
  have h4 := manufacturer_finds literal s "description" (fun m => m.info.map (Doc.str ·.description.toList))
    (by intro m; unfold ManufacturerSummary.doc; simp [follow_value, member_append, member_field, member_opt, follow_done])
  rw [h1, h2, h3, h4]
  unfold FrameSummary.doc
  simp [follow_value, member_append, member_field, member_opt, follow_done, byteDoc_eq]
  cases s.manufacturer <;> rfl

theorem summaryRecord_finds (literal : F64 → List Char) (r : RecordSummary) :
    Finds (summaryRecordShown literal r) (r.doc literal) := by
  unfold summaryRecordShown RecordSummary.doc
  simp [finds_cons, finds_nil, follow_value, member_append, member_field, member_opt, follow_done, intDoc_eq, f64Doc_eq]

theorem summary_sound {literal : F64 → List Char} (hl : PrintsLiterals literal) (s : FrameSummary) :
    Sound (s.doc literal) := by
  unfold FrameSummary.doc ManufacturerSummary.doc RecordSummary.doc
  sounds
  exact sound_real hl _

end MBus
